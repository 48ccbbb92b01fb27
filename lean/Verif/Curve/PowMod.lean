import Mathlib.NumberTheory.LucasPrimality
import Mathlib.Algebra.BigOperators.Group.List.Basic

/-!
# Kernel-friendly modular exponentiation and Pratt certificates
-/

namespace Bips

/-- Square-and-multiply with fuel: `acc * a^e mod m`. -/
def powModAux (m : Nat) : Nat → Nat → Nat → Nat → Nat
  | 0, _, _, acc => acc
  | f + 1, a, e, acc =>
    if e = 0 then acc
    else powModAux m f (a * a % m) (e / 2) (if e % 2 = 1 then acc * a % m else acc)

/-- `a^e mod m`. -/
def powMod (m a e : Nat) : Nat := powModAux m (e.log2 + 1) (a % m) e (1 % m)

theorem powModAux_eq (m : Nat) : ∀ (f a e acc : Nat), e < 2 ^ f → acc < m ∨ acc = acc % m →
    powModAux m f a e acc = acc * a ^ e % m := by
  intro f
  induction f with
  | zero =>
    intro a e acc he hacc
    obtain rfl : e = 0 := by simpa using he
    simp only [powModAux, pow_zero, mul_one]
    rcases hacc with h | h
    · exact (Nat.mod_eq_of_lt h).symm
    · exact h
  | succ f ih =>
    intro a e acc he hacc
    have hacc' : acc % m = acc := by
      rcases hacc with h | h
      · exact Nat.mod_eq_of_lt h
      · exact h.symm
    rw [powModAux]
    by_cases h0 : e = 0
    · subst h0; simp [hacc']
    rw [if_neg h0]
    have he2 : e / 2 < 2 ^ f := by rw [pow_succ] at he; omega
    have hsq : (a * a % m) ^ (e / 2) % m = (a ^ (2 * (e / 2))) % m := by
      rw [← Nat.pow_mod, ← pow_two, ← pow_mul]
    by_cases hodd : e % 2 = 1
    · rw [if_pos hodd, ih _ _ _ he2 (Or.inr (by rw [Nat.mod_mod]))]
      rw [Nat.mul_mod, hsq, Nat.mod_mod, ← Nat.mul_mod, mul_assoc, ← pow_succ']
      congr 3; omega
    · rw [if_neg hodd, ih _ _ _ he2 (Or.inr hacc'.symm)]
      rw [Nat.mul_mod, hsq, ← Nat.mul_mod]
      congr 3; omega

theorem powMod_eq (m a e : Nat) : powMod m a e = a ^ e % m := by
  unfold powMod
  rw [powModAux_eq]
  · rw [Nat.mul_mod, Nat.mod_mod, ← Nat.mul_mod, one_mul, ← Nat.pow_mod]
  · exact Nat.lt_log2_self
  · right; rw [Nat.mod_mod]

/-- Pratt certificate: `fs` lists the prime factors of `p - 1` with multiplicity, `a` generates. -/
theorem pratt (p a : Nat) (fs : List Nat) (hp : 1 < p) (hfs : ∀ q ∈ fs, q.Prime) (hprod : fs.prod = p - 1)
    (h1 : powMod p a (p - 1) = 1) (h2 : fs.all (fun q => powMod p a ((p - 1) / q) != 1) = true) :
    p.Prime := by
  have key : ∀ e, ((a : ZMod p) ^ e = 1 ↔ powMod p a e = 1) := by
    intro e
    rw [powMod_eq]
    have : (a : ZMod p) ^ e = ((a ^ e : Nat) : ZMod p) := by push_cast; rfl
    rw [this, show (1 : ZMod p) = ((1 : Nat) : ZMod p) by simp, ZMod.natCast_eq_natCast_iff']
    rw [Nat.mod_eq_of_lt hp]
  apply lucas_primality p (a : ZMod p)
  · exact (key _).2 h1
  · intro q hq hdvd
    rw [← hprod] at hdvd
    obtain ⟨f, hf, hqf⟩ := (Prime.dvd_prod_iff hq.prime).1 hdvd
    have : q = f := (Nat.prime_dvd_prime_iff_eq hq (hfs f hf)).1 hqf
    subst this
    rw [List.all_eq_true] at h2
    have := h2 q hf
    intro h
    rw [key] at h
    simp [h] at this

end Bips
