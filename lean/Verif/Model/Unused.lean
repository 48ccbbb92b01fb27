import Verif.Model.Key
import Verif.Model.Err

/-!
# Declarations no other code of the repository calls, tests apart
-/

namespace Bips

/-- The loop of `compareByteSlices` (bip39/bip39.go:329-333) from index `i` on; reading behind the end of `b` panics. -/
def compareFrom (a b : Bytes) : (n i : Nat) → Outcome Bool
  | 0, _ => .ok true
  | n + 1, i =>
    match a[i]?, b[i]? with
    | some x, some y => if x ≠ y then .ok false else compareFrom a b n (i + 1)
    | _, _ => .panic

/-- `compareByteSlices` (bip39/bip39.go:324-336). -/
def compareByteSlices (a b : Bytes) : Outcome Bool :=
  if a.length ≠ b.length then .ok false else compareFrom a b a.length 0

/-- It compares. -/
theorem compareByteSlices_eq (a b : Bytes) : compareByteSlices a b = .ok (decide (a = b)) := by
  unfold compareByteSlices
  by_cases h : a.length = b.length
  · rw [if_neg (by simpa using h)]
    have key : ∀ n i, i + n = a.length → a.take i = b.take i → compareFrom a b n i = .ok (decide (a = b)) := by
      intro n
      induction n with
      | zero =>
        intro i hi ht
        have : a = b := by
          have h1 : i = a.length := by omega
          rwa [h1, List.take_length, h, List.take_length] at ht
        simp [compareFrom, this]
      | succ n ih =>
        intro i hi ht
        have ha : i < a.length := by omega
        have hb : i < b.length := by omega
        rw [compareFrom, List.getElem?_eq_getElem ha, List.getElem?_eq_getElem hb]
        dsimp only
        by_cases hx : a[i] = b[i]
        · rw [if_neg (by simpa using hx)]
          refine ih (i + 1) (by omega) ?_
          rw [List.take_succ_eq_append_getElem ha, List.take_succ_eq_append_getElem hb, ht, hx]
        · rw [if_pos hx]
          have : a ≠ b := fun e => hx (by subst e; rfl)
          simp [this]
    exact key a.length 0 (by omega) rfl
  · rw [if_pos h]
    have : a ≠ b := fun e => h (by rw [e])
    simp [this]

/-- Conversion of a slice to `[32]byte` (Go 1.20): panics when the slice is shorter. -/
def toArray32 (b : Bytes) : Outcome Bytes := if b.length < 32 then .panic else .ok (b.take 32)

/-- `setChainCodeUint32` (bip32/bip32.go:328-331): four bytes are converted to `ChainCode`, an array of 32. -/
def Key.setChainCodeUint32 (key : Key) (code : UInt32) : Outcome Key :=
  match toArray32 (uint32Bytes code) with
  | .panic => .panic
  | .ok c => .ok (key.setChainCode c)

/-- It panics, whatever it is given. -/
theorem setChainCodeUint32_panics (key : Key) (code : UInt32) : key.setChainCodeUint32 code = .panic := by
  have : toArray32 (uint32Bytes code) = .panic := by
    unfold toArray32
    rw [if_pos]
    simp [uint32Bytes, putUint32]
  unfold Key.setChainCodeUint32
  rw [this]

end Bips
