import Verif.Model.Secp
import Verif.Curve.Group
import Mathlib.FieldTheory.Finite.Basic
import Verif.Crypto.Sha2

/-!
# A scalar multiplication the kernel can run in little time

Equal to the one of the model for all arguments, with inverses computed by Euclid's algorithm.
-/

namespace Bips

/-- Euclid's algorithm with the given number of rounds: the coefficient of `a` is tracked modulo `p`. Written with
`Nat.rec` and the functions on `Nat` themselves because that is what the kernel runs fastest. -/
def euclid (p rounds : Nat) : Nat → Nat → Nat → Nat → Nat :=
  Nat.rec (motive := fun _ => Nat → Nat → Nat → Nat → Nat) (fun _ _ t0 _ => t0)
    (fun _ ih r0 r1 t0 t1 =>
      Nat.rec (motive := fun _ => Nat) t0 (fun _ _ =>
        (fun q => force (Nat.sub r0 (Nat.mul q r1)) fun r2 =>
          force (Nat.mod (Nat.add t0 (Nat.sub p (Nat.mod (Nat.mul q t1) p))) p) fun t2 => ih r1 r2 t1 t2)
            (Nat.div r0 r1)) r1) rounds

/-- The inverse, checked; should the check fail the slow one is taken. -/
def fastInv (a : Nat) : Nat :=
  force secpP fun p => force (Nat.mod a p) fun a' => force (euclid p 400 p a' 0 1) fun i =>
    bif Nat.beq (a * i % secpP) 1 && Nat.blt i secpP then i else fieldInv a

theorem force_eq {α : Type} (n : Nat) (k : Nat → α) : force n k = k n := by cases n <;> rfl

theorem checkedInv_eq (a i : Nat) :
    (bif Nat.beq (a * i % secpP) 1 && Nat.blt i secpP then i else fieldInv a) = fieldInv a := by
  cases h : (Nat.beq (a * i % secpP) 1 && Nat.blt i secpP) with
  | false => rw [cond_false]
  | true =>
    rw [Bool.and_eq_true, Nat.beq_eq, Nat.blt_eq] at h
    obtain ⟨h1, h2⟩ := h
    rw [cond_true]
    have hp : secpP.Prime := secpP_prime
    have hm : (a * i) ≡ 1 [MOD secpP] := by
      rw [Nat.ModEq, h1]; exact (Nat.mod_eq_of_lt hp.one_lt).symm
    have hco : a.Coprime secpP := Nat.coprime_of_mul_modEq_one i hm
    have hf : a ^ (secpP - 1) ≡ 1 [MOD secpP] := by
      have := Nat.ModEq.pow_totient hco
      rwa [Nat.totient_prime hp] at this
    unfold fieldInv
    rw [powMod_eq]
    have : i ≡ a ^ (secpP - 2) [MOD secpP] := by
      have e : a ^ (secpP - 1) = a ^ (secpP - 2) * a := by
        rw [← pow_succ]; congr 1
      calc i = 1 * i := (one_mul i).symm
        _ ≡ a ^ (secpP - 1) * i [MOD secpP] := hf.symm.mul_right i
        _ = a ^ (secpP - 2) * (a * i) := by rw [e, mul_assoc]
        _ ≡ a ^ (secpP - 2) * 1 [MOD secpP] := hm.mul_left _
        _ = a ^ (secpP - 2) := mul_one _
    have h3 : i % secpP = a ^ (secpP - 2) % secpP := this
    rwa [Nat.mod_eq_of_lt h2] at h3

theorem fastInv_eq (a : Nat) : fastInv a = fieldInv a := by
  unfold fastInv
  rw [force_eq, force_eq]
  exact (force_eq _ _).trans (checkedInv_eq _ _)

/-- `affineDouble` with the fast inverse. -/
def fastDouble (q : Nat × Nat) : Nat × Nat :=
  bif Nat.beq q.2 0 then (0, 0) else
  force (3 * q.1 * q.1 % secpP * fastInv (2 * q.2) % secpP) fun l =>
  force ((l * l + 2 * secpP - q.1 - q.1) % secpP) fun x =>
  force ((l * (q.1 + secpP - x) + secpP - q.2) % secpP) fun y => (x, y)

theorem fastDouble_eq (q : Nat × Nat) : fastDouble q = affineDouble q := by
  unfold fastDouble affineDouble
  simp only [force_eq, fastInv_eq]
  by_cases h : q.2 = 0
  · simp [h]
  · have : Nat.beq q.2 0 = false := by rw [← Bool.not_eq_true, Nat.beq_eq]; exact h
    rw [this, if_neg h, cond_false]

/-- `affineChord` with the fast inverse. -/
def fastChord (q r : Nat × Nat) : Nat × Nat :=
  force ((q.2 + secpP - r.2) % secpP * fastInv (q.1 + secpP - r.1) % secpP) fun l =>
  force ((l * l + 2 * secpP - q.1 - r.1) % secpP) fun x =>
  force ((l * (q.1 + secpP - x) + secpP - q.2) % secpP) fun y => (x, y)

theorem fastChord_eq (q r : Nat × Nat) : fastChord q r = affineChord q r := by
  unfold fastChord affineChord
  simp only [force_eq, fastInv_eq]

/-- `affineAdd` with the fast inverse. -/
def fastAdd (q r : Nat × Nat) : Nat × Nat :=
  bif Nat.beq q.1 0 && Nat.beq q.2 0 then r else
  bif Nat.beq r.1 0 && Nat.beq r.2 0 then q else
  bif Nat.beq q.1 r.1 then (bif Nat.beq q.2 r.2 then fastDouble q else (0, 0)) else fastChord q r

theorem bif_eq {α : Type} (b : Bool) (p : Prop) [Decidable p] (h : b = true ↔ p) (x y : α) :
    (bif b then x else y) = if p then x else y := by
  by_cases hp : p
  · rw [h.2 hp, if_pos hp, cond_true]
  · have : b = false := by rw [← Bool.not_eq_true, h]; exact hp
    rw [this, if_neg hp, cond_false]

theorem fastAdd_eq (q r : Nat × Nat) : fastAdd q r = affineAdd q r := by
  unfold fastAdd affineAdd
  simp only [fastChord_eq, fastDouble_eq]
  rw [bif_eq _ (q = (0, 0)), bif_eq _ (r = (0, 0)), bif_eq _ (q.1 = r.1), bif_eq _ (q.2 = r.2)]
  · exact Nat.beq_eq ▸ Iff.rfl
  · exact Nat.beq_eq ▸ Iff.rfl
  · rw [Bool.and_eq_true, Nat.beq_eq, Nat.beq_eq, Prod.ext_iff]
  · rw [Bool.and_eq_true, Nat.beq_eq, Nat.beq_eq, Prod.ext_iff]

/-- `smulAux` with the fast operations. -/
def fastMul : Nat → Nat → Nat × Nat → Nat × Nat → Nat × Nat
  | 0, _, _, acc => acc
  | f + 1, e, q, acc =>
    bif Nat.beq e 0 then acc
    else fastMul f (e / 2) (fastDouble q) (bif Nat.beq (e % 2) 1 then fastAdd acc q else acc)

theorem fastMul_eq (f e : Nat) (q acc : Nat × Nat) : fastMul f e q acc = smulAux f e q acc := by
  induction f generalizing e q acc with
  | zero => rfl
  | succ f ih =>
    rw [fastMul, smulAux, ih, fastDouble_eq, fastAdd_eq, bif_eq _ (e = 0), bif_eq _ (e % 2 = 1)]
    · exact Nat.beq_eq ▸ Iff.rfl
    · exact Nat.beq_eq ▸ Iff.rfl

/-- `scalarBaseMult` with the fast operations. -/
def fastBaseMult (k : Bytes) : Nat × Nat := fastMul 256 (setBytes k % secpN) secpG (0, 0)

theorem fastBaseMult_eq (k : Bytes) : scalarBaseMult k = fastBaseMult k := (fastMul_eq _ _ _ _).symm

end Bips
