#!/usr/bin/env python3
"""Writes lean/Verif/Curve/Table.lean: the points 2^i·G."""
import os
p=2**256-2**32-977
x=0x79BE667EF9DCBBAC55A06295CE870B07029BFCDB2DCE28D959F2815B16F81798
y=0x483ADA7726A3C4655DA4FBFC0E1108A8FD17B448A68554199C47D08FFB10D4B8
pts=[]
for i in range(256):
    pts.append((x,y))
    l=3*x*x*pow(2*y,-1,p)%p
    x2=(l*l-2*x)%p
    x,y=x2,(l*(x-x2)-y)%p
rows=",\n   ".join(f"({hex(a)},\n    {hex(b)})" for a,b in pts)
out=f'''import Verif.Curve.Fast

/-!
# The points 2ⁱ·G, written by tools/gen_table.py, and a scalar multiplication that uses them
-/

namespace Bips

/-- 2ⁱ·G for i = 0, …, 255. -/
def gTable : List (Nat × Nat) :=
  [{rows}]

/-- Every entry is the double of the one before; the first argument is what the next one should be. -/
def chainOK : Nat × Nat → List (Nat × Nat) → Bool
  | _, [] => true
  | q, r :: l => Nat.beq q.1 r.1 && Nat.beq q.2 r.2 && chainOK (fastDouble r) l

set_option maxRecDepth 100000 in
theorem gTable_chain : chainOK secpG gTable = true := by decide +kernel

/-- Double-and-add over a table of doubles. -/
def tableMul : List (Nat × Nat) → Nat → Nat × Nat → Nat × Nat
  | [], _, acc => acc
  | q :: l, e, acc =>
    bif Nat.beq e 0 then acc
    else tableMul l (e / 2) (bif Nat.beq (e % 2) 1 then fastAdd acc q else acc)

theorem tableMul_eq (l : List (Nat × Nat)) : ∀ (q : Nat × Nat) (e : Nat) (acc : Nat × Nat), chainOK q l = true →
    tableMul l e acc = smulAux l.length e q acc := by
  induction l with
  | nil => intro q e acc _; rfl
  | cons r l ih =>
    intro q e acc h
    rw [chainOK, Bool.and_eq_true, Bool.and_eq_true, Nat.beq_eq, Nat.beq_eq] at h
    obtain rfl : q = r := Prod.ext h.1.1 h.1.2
    rw [List.length_cons, tableMul, smulAux, ih _ _ _ h.2, fastDouble_eq, fastAdd_eq, bif_eq _ (e = 0),
      bif_eq _ (e % 2 = 1)]
    · exact Nat.beq_eq ▸ Iff.rfl
    · exact Nat.beq_eq ▸ Iff.rfl

/-- `scalarBaseMult` with the table. -/
def tableBaseMult (k : Bytes) : Nat × Nat := tableMul gTable (setBytes k % secpN) (0, 0)

theorem gTable_length : gTable.length = 256 := by decide +kernel

theorem tableBaseMult_eq (k : Bytes) : scalarBaseMult k = tableBaseMult k := by
  unfold scalarBaseMult tableBaseMult
  rw [tableMul_eq gTable secpG _ _ gTable_chain, gTable_length]

end Bips
'''
open(os.path.join(os.path.dirname(os.path.abspath(__file__)),"../lean/Verif/Curve/Table.lean"),"w").write(out)
