#!/usr/bin/env python3
"""Writes Verif/Props/CoinsText.lean. Run in /verif/lean."""
def L(s): return '['+', '.join(str(b) for b in s.encode())+']'
chk='''import Verif.Data.CoinsText
import Verif.Model.Bip44

/-!
# The text of the coin table, checked in the kernel

With numbers in place of bytes, which the kernel compares quickly.
-/

namespace Bips

/-- A row of the table. -/
def coinRow (c : Coin) : Bytes := str "\\t" ++ c.stringForMD ++ str ",\\n"

/-- A row with numbers for bytes, without the line break. -/
def CoinCode.row (c : CoinCode) : List Nat :=
  %s ++ ((bif Nat.beq c.type 0 then [48] else (toDigitsBE 10 c.type).map (48 + ·)) ++
    (%s ++
      ((toDigitsBE 16 c.pathComponent).map (fun d => bif Nat.blt d 10 then 48 + d else 87 + d) ++
        (%s ++ (natBytes 64 c.symbol [] ++
          (%s ++ (natBytes 64 c.name [] ++ %s)))))))

/-- Equality of lists of numbers. -/
def sameNats : List Nat → List Nat → Bool
  | [], [] => true
  | a :: l, b :: m => bif Nat.beq a b then sameNats l m else false
  | _, _ => false

theorem sameNats_eq {l m : List Nat} (h : sameNats l m = true) : l = m := by
  induction l generalizing m with
  | nil => cases m with
    | nil => rfl
    | cons b m => cases h
  | cons a l ih => cases m with
    | nil => cases h
    | cons b m =>
      rw [sameNats] at h
      cases hb : Nat.beq a b with
      | true => rw [hb] at h; rw [Nat.eq_of_beq_eq_true hb, ih h]
      | false => rw [hb] at h; cases h

theorem CoinCode.row_eq (c : CoinCode) (h1 : c.type < 2 ^ 32) (h2 : c.pathComponent < 2 ^ 32) (h3 : c.pathComponent ≠ 0) :
    c.row.map UInt8.ofNat ++ [10] = coinRow c.coin := by
  have e1 : str "\\t" ++ str "{Type: " = %s.map UInt8.ofNat := by decide +kernel
  have e2 : str ", PathComponent: 0x" = %s.map UInt8.ofNat := by decide +kernel
  have e3 : str ", Symbol: \\"" = %s.map UInt8.ofNat := by decide +kernel
  have e4 : str "\\", Name: \\"" = %s.map UInt8.ofNat := by decide +kernel
  have e5 : str "\\"}" ++ str ",\\n" = %s.map UInt8.ofNat ++ [10] := by decide +kernel
  have d : decimal (UInt32.ofNat c.type).toNat = (bif Nat.beq c.type 0 then [48] else (toDigitsBE 10 c.type).map (48 + ·)).map UInt8.ofNat := by
    rw [UInt32.toNat_ofNat', Nat.mod_eq_of_lt h1, decimal]
    by_cases h : c.type = 0
    · rw [if_pos h, h]; rfl
    · have : Nat.beq c.type 0 = false := by rw [Bool.eq_false_iff]; exact fun hb => h (Nat.eq_of_beq_eq_true hb)
      rw [if_neg h, this, cond_false, List.map_map]; rfl
  have x : hexNumber (UInt32.ofNat c.pathComponent).toNat =
      ((toDigitsBE 16 c.pathComponent).map fun d => bif Nat.blt d 10 then 48 + d else 87 + d).map UInt8.ofNat := by
    rw [UInt32.toNat_ofNat', Nat.mod_eq_of_lt h2, hexNumber, if_neg h3, List.map_map]
    refine List.map_congr_left fun d _ => ?_
    by_cases h : d < 10
    · have : Nat.blt d 10 = true := by rw [Nat.blt_eq]; exact h
      rw [hexDigit, if_pos h, Function.comp_apply, this, cond_true]
    · have : Nat.blt d 10 = false := by rw [Bool.eq_false_iff]; intro hb; rw [Nat.blt_eq] at hb; exact h hb
      rw [hexDigit, if_neg h, Function.comp_apply, this, cond_false]
  have a1 : ∀ a b : Bytes, str "\\t" ++ (str "{Type: " ++ a) = (str "\\t" ++ str "{Type: ") ++ a := fun a _ => (List.append_assoc _ _ _).symm
  rw [coinRow, Coin.stringForMD, CoinCode.coin]
  dsimp only
  rw [d, x, e2, e3, e4]
  simp only [List.append_assoc]
  rw [e5, ← List.append_assoc (str "\\t"), e1, CoinCode.row, codeWord, codeWord]
  simp only [List.map_append, List.append_assoc]

/-- The lines are the rows. -/
def RowsAre (t : List Nat) (c : List CoinCode) : Prop := t.map codeLine = c.map fun c => coinRow c.coin

/-- The check. -/
def checkRows : List Nat → List CoinCode → Bool
  | [], [] => true
  | n :: t, c :: l =>
    sameNats (natBytes 256 n []) c.row && Nat.blt c.type 4294967296 && Nat.blt c.pathComponent 4294967296 && Nat.blt 0 c.pathComponent && checkRows t l
  | _, _ => false

theorem RowsAre.of {t : List Nat} {l : List CoinCode} (h : checkRows t l = true) : RowsAre t l := by
  induction t generalizing l with
  | nil => cases l with
    | nil => rfl
    | cons c l => cases h
  | cons n t ih => cases l with
    | nil => cases h
    | cons c l =>
      simp only [checkRows, Bool.and_eq_true, Nat.blt_eq] at h
      obtain ⟨⟨⟨⟨h1, h2⟩, h3⟩, h4⟩, h5⟩ := h
      rw [RowsAre, List.map_cons, List.map_cons, ih h5, codeLine, sameNats_eq h1, c.row_eq h2 h3 (by omega)]

theorem RowsAre.append {t t' : List Nat} {c c' : List CoinCode} (h : RowsAre t c) (h' : RowsAre t' c') : RowsAre (t ++ t') (c ++ c') := by
  rw [RowsAre, List.map_append, List.map_append, h, h']

open Data Coins

''' % ((L('\t{Type: '),L(', PathComponent: 0x'),L(', Symbol: "'),L('", Name: "'),L('"},'))*2)
for k in range(18): chk+=f'theorem rows{k} : RowsAre CoinsText.t{k+1} c{k} := .of (by decide +kernel)\n'
chk+='''
/-- All rows of the text and of the table. -/
theorem rows_all : RowsAre (CoinsText.t1 ++ ('''+' ++ ('.join(f'CoinsText.t{k}' for k in range(2,19))+')'*16+''')) codes :=
  '''+''.join(f'(rows{k}.append ' if k else 'rows0.append ' for k in range(17))+'rows17'+')'*16+'''

end Bips
'''
chk=chk.replace('CoinsText.t9 ++','\n    CoinsText.t9 ++').replace('CoinsText.t16 ++','\n    CoinsText.t16 ++').replace('(rows9.append','\n    (rows9.append').replace(' \n','\n')
chk=chk.replace("  have a1 : ∀ a b : Bytes, str \"\\t\" ++ (str \"{Type: \" ++ a) = (str \"\\t\" ++ str \"{Type: \") ++ a := fun a _ => (List.append_assoc _ _ _).symm\n","")
open('Verif/Props/CoinsText.lean','w').write(chk)
