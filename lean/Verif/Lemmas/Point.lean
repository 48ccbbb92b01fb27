import Verif.Spec.Bip32
import Verif.Model.Bip32Utils

/-! Point compression and decompression. -/

set_option maxRecDepth 10000

namespace Bips
open Spec

theorem secpP_lt : secpP < 256 ^ 32 := by decide +kernel
theorem secpN_lt : secpN < 256 ^ 32 := by decide +kernel
theorem secpP_odd : secpP % 2 = 1 := by decide +kernel

theorem serP_length (Q : Pt) (h : Q ≠ 0) : (serP Q).length = 33 := by
  cases Q with
  | zero => exact absurd rfl h
  | some x y hxy => simp [serP, ser256]

theorem compress_aux {x : Nat} (hx : x < 256 ^ 32) :
    List.replicate (33 - 1 - (bigBytes x).length) 0 ++ bigBytes x = beBytes 32 x := by
  rw [← padLeft_bigBytes hx]; rfl

theorem parityByte (y : Nat) : (2 + UInt8.ofNat (y % 2) : UInt8) = if y % 2 = 0 then 2 else 3 := by
  rcases Nat.mod_two_eq_zero_or_one y with h | h <;> rw [h] <;> decide

theorem compressPublicKey_coords (Q : Pt) (h : Q ≠ 0) : compressPublicKey (coords Q) = serP Q := by
  cases Q with
  | zero => exact absurd rfl h
  | some x y hxy =>
    rw [coords_some, compressPublicKey, serP, ser256, parityByte]
    dsimp only
    rw [compress_aux (lt_trans (ZMod.val_lt x) secpP_lt)]

theorem compressPublicKey_zero : compressPublicKey (0, 0) = 2 :: List.replicate 32 0 := by decide +kernel

theorem compressPublicKey_length (q : Nat × Nat) (h : q.1 < 256 ^ 32) : (compressPublicKey q).length = 33 := by
  rw [compressPublicKey, compress_aux h]; simp

theorem serP_injective {Q R : Pt} (hQ : Q ≠ 0) (hR : R ≠ 0) (h : serP Q = serP R) : Q = R := by
  cases Q with
  | zero => exact absurd rfl hQ
  | some x y hxy =>
  cases R with
  | zero => exact absurd rfl hR
  | some x' y' hxy' =>
    simp only [serP, List.cons.injEq] at h
    obtain ⟨hp, hx⟩ := h
    have hxx : x = x' := by
      apply ZMod.val_injective
      have := congrArg setBytes hx
      simp only [ser256, setBytes_beBytes] at this
      rwa [Nat.mod_eq_of_lt (lt_trans (ZMod.val_lt x) secpP_lt),
        Nat.mod_eq_of_lt (lt_trans (ZMod.val_lt x') secpP_lt)] at this
    subst hxx
    rw [secp_nonsingular_iff] at hxy hxy'
    have hy0 : (y - y') * (y + y') = 0 := by linear_combination hxy - hxy'
    rcases mul_eq_zero.1 hy0 with e | e
    · have := sub_eq_zero.1 e; subst this; rfl
    · exfalso
      have hy : y = -y' := eq_neg_of_add_eq_zero_left e
      have hne : y' ≠ 0 := secp_y_ne_zero ((secp_nonsingular_iff x y').2 hxy')
      have : NeZero y' := ⟨hne⟩
      have hv : y.val = secpP - y'.val := by rw [hy]; exact ZMod.val_neg_of_ne_zero y'
      have h1 : y'.val < secpP := ZMod.val_lt y'
      have h2 : 0 < y'.val := Nat.pos_of_ne_zero (fun h => hne ((ZMod.val_eq_zero y').1 h))
      have ho := secpP_odd
      have : y.val % 2 = y'.val % 2 := by
        rcases Nat.mod_two_eq_zero_or_one y.val with h | h <;>
          rcases Nat.mod_two_eq_zero_or_one y'.val with h' | h' <;> simp [h, h'] at hp ⊢
      omega

theorem modSqrt_lt (a : Nat) : modSqrt a < secpP := by
  unfold modSqrt
  split
  · exact secpP_prime.pos
  · split
    · rw [powMod_eq]; exact Nat.mod_lt _ secpP_prime.pos
    · exact secpP_prime.pos

/-- Square roots of non-zero residues. -/
theorem modSqrt_sq (a : Nat) (y : Fp) (hy : y ≠ 0) (h : (a : Fp) = y ^ 2) :
    ((modSqrt a : Nat) : Fp) = y ∨ ((modSqrt a : Nat) : Fp) = -y := by
  have ha : (a : Fp) ≠ 0 := by rw [h]; exact pow_ne_zero 2 hy
  have h0 : a % secpP ≠ 0 := by
    intro e
    apply ha
    rw [← ZMod.natCast_mod, e]; simp
  have he : (a : Fp) ^ ((secpP - 1) / 2) = 1 := by
    rw [h, ← pow_mul, show 2 * ((secpP - 1) / 2) = secpP - 1 by decide +kernel]
    exact ZMod.pow_card_sub_one_eq_one hy
  have h1 : powMod secpP (a % secpP) ((secpP - 1) / 2) = 1 := by
    have hc : ((powMod secpP (a % secpP) ((secpP - 1) / 2) : Nat) : Fp) = ((1 : Nat) : Fp) := by
      rw [cast_powMod, ZMod.natCast_mod, he]; simp
    have := (ZMod.natCast_eq_natCast_iff' _ _ _).1 hc
    rwa [Nat.mod_eq_of_lt (by rw [powMod_eq]; exact Nat.mod_lt _ secpP_prime.pos),
      Nat.mod_eq_of_lt secpP_prime.one_lt] at this
  rw [modSqrt, if_neg h0, if_pos h1, cast_powMod, ZMod.natCast_mod]
  have hsq : ((a : Fp) ^ ((secpP + 1) / 4)) ^ 2 = y ^ 2 := by
    rw [← pow_mul, show (secpP + 1) / 4 * 2 = (secpP - 1) / 2 + 1 by decide +kernel, pow_succ, he, one_mul, h]
  exact sq_eq_sq_iff_eq_or_eq_neg.1 hsq

theorem sign_iff (b : Bool) (Y : Nat) :
    ((UInt64.ofNat (if b then (2 : UInt8) else 3).toNat - 2 : UInt64) ≠ UInt64.ofNat (Y % 2)) ↔
      ¬ (b = true ↔ Y % 2 = 0) := by
  rcases Nat.mod_two_eq_zero_or_one Y with h | h <;> rw [h] <;> cases b <;> decide

/-- Decompression of the SEC1 encoding of a point gives back its coordinates. -/
theorem expandPublicKey_serP (Q : Pt) (h : Q ≠ 0) : expandPublicKey (serP Q) = coords Q := by
  cases Q with
  | zero => exact absurd rfl h
  | some x y hxy =>
    have hx := ZMod.val_lt x
    have hyl := ZMod.val_lt y
    have hy0 := secp_y_ne_zero hxy
    have hypos : 0 < y.val := Nat.pos_of_ne_zero (fun h => hy0 ((ZMod.val_eq_zero y).1 h))
    have heq := (secp_nonsingular_iff x y).1 hxy
    simp only [serP, expandPublicKey, expandCons, ser256]
    rw [setBytes_beBytes, Nat.mod_eq_of_lt (lt_trans hx secpP_lt), coords_some]
    have hcast : ((x.val ^ 3 + secpB : Nat) : Fp) = y ^ 2 := by
      rw [heq]; push_cast; rw [cast_val]; rfl
    have hroot := modSqrt_sq _ y hy0 hcast
    have hlt := modSqrt_lt (x.val ^ 3 + secpB)
    generalize modSqrt (x.val ^ 3 + secpB) = r at hroot hlt
    have hs := sign_iff (decide (y.val % 2 = 0)) r
    simp only [decide_eq_true_eq] at hs
    have ho := secpP_odd
    rcases hroot with hr | hr
    · have e : y.val = r := val_of_cast_eq hlt hr
      rw [if_neg]
      · rw [e]
      · rw [hs, e]; simp
    · have : NeZero y := ⟨hy0⟩
      have e : secpP - y.val = r := by
        rw [← ZMod.val_neg_of_ne_zero y]; exact val_of_cast_eq hlt hr
      rw [if_pos]
      · congr 1; omega
      · rw [hs]; omega

/-- The all-zero encoding `02‖0` expands to the pair used for infinity. -/
theorem expandPublicKey_zero : expandPublicKey (2 :: List.replicate 32 0) = (0, 0) := by decide +kernel

theorem expandPublicKey_compress (Q : Pt) : expandPublicKey (compressPublicKey (coords Q)) = coords Q := by
  by_cases h : Q = 0
  · subst h; rw [coords_zero, compressPublicKey_zero, expandPublicKey_zero]
  · rw [compressPublicKey_coords Q h, expandPublicKey_serP Q h]

theorem coords_fst_ne_zero {Q : Pt} (h : Q ≠ 0) : (coords Q).1 ≠ 0 := by
  cases Q with
  | zero => exact absurd rfl h
  | some x y hxy => exact fun e => secp_x_ne_zero hxy ((ZMod.val_eq_zero x).1 e)

theorem coords_snd_ne_zero {Q : Pt} (h : Q ≠ 0) : (coords Q).2 ≠ 0 := by
  cases Q with
  | zero => exact absurd rfl h
  | some x y hxy => exact fun e => secp_y_ne_zero hxy ((ZMod.val_eq_zero y).1 e)

theorem publicKeyForPrivateKey_eq (b : Bytes) :
    publicKeyForPrivateKey b = compressPublicKey (coords (point (setBytes b))) := by
  rw [publicKeyForPrivateKey, scalarBaseMult_eq]; rfl

theorem point_ne_zero {k : Nat} (h : k % secpN ≠ 0) : point k ≠ 0 :=
  fun e => h ((smul_baseG_eq_zero_iff k).1 e)

theorem point_ne_zero' {k : Nat} (h1 : 1 ≤ k) (h2 : k < secpN) : point k ≠ 0 :=
  point_ne_zero (by rw [Nat.mod_eq_of_lt h2]; omega)

theorem publicKeyForPrivateKey_serP (b : Bytes) (h : setBytes b % secpN ≠ 0) :
    publicKeyForPrivateKey b = serP (point (setBytes b)) := by
  rw [publicKeyForPrivateKey_eq, compressPublicKey_coords _ (point_ne_zero h)]

theorem publicKeyForPrivateKey_length (b : Bytes) : (publicKeyForPrivateKey b).length = 33 := by
  rw [publicKeyForPrivateKey_eq]
  exact compressPublicKey_length _ (lt_trans (coords_lt _).1 secpP_lt)

theorem validateChildPublicKey_eq (b : Bytes) :
    validateChildPublicKey (publicKeyForPrivateKey b) =
      if setBytes b % secpN = 0 then some .invalidPublicKey else none := by
  rw [validateChildPublicKey, publicKeyForPrivateKey_eq, expandPublicKey_compress]
  by_cases h : setBytes b % secpN = 0
  · rw [if_pos h, show point (setBytes b) = 0 from (smul_baseG_eq_zero_iff _).2 h]
    simp
  · rw [if_neg h]
    have h1 := coords_fst_ne_zero (point_ne_zero h)
    have h2 := coords_snd_ne_zero (point_ne_zero h)
    simp [h1, h2]

theorem addPublicKeys_eq (b : Bytes) (K : Pt) (hK : K ≠ 0) :
    addPublicKeys (publicKeyForPrivateKey b) (serP K) = compressPublicKey (coords (point (setBytes b) + K)) := by
  rw [addPublicKeys, publicKeyForPrivateKey_eq, expandPublicKey_compress, expandPublicKey_serP K hK, curveAdd_coords]

theorem addPrivateKeys_eq (a b : Bytes) :
    addPrivateKeys a b = ser256 ((setBytes a + setBytes b) % secpN) := by
  have hlt : (setBytes a + setBytes b) % secpN < 256 ^ 32 :=
    lt_trans (Nat.mod_lt _ secpN_prime.pos) secpN_lt
  rw [addPrivateKeys, ser256, ← padLeft_bigBytes hlt]
  split
  · rfl
  · rw [padLeft, show 32 - (bigBytes ((setBytes a + setBytes b) % secpN)).length = 0 by omega]; rfl

theorem hexEncode_replicate_zero (k : Nat) : hexEncode (List.replicate k 0) = List.replicate (2 * k) 48 := by
  induction k with
  | zero => rfl
  | succ k ih =>
    rw [List.replicate_succ, show 2 * (k + 1) = 2 * k + 1 + 1 by ring, List.replicate_succ, List.replicate_succ,
      ← ih]
    rfl

theorem validatePrivateKey_eq (key : Bytes) (h : key.length = 32) :
    validatePrivateKey key = if 1 ≤ setBytes key ∧ setBytes key < secpN then none else some .invalidPrivateKey := by
  have hN : (bigBytes secpN).length = 32 := by decide +kernel
  have h1 : (hexEncode key = List.replicate 64 48) ↔ setBytes key = 0 := by
    constructor
    · intro e
      have : key = List.replicate 32 0 := hexEncode_injective (by rw [e, hexEncode_replicate_zero])
      rw [this, setBytes_replicate_zero]
    · intro e
      have : key = List.replicate 32 0 := by
        apply setBytes_inj (by simp [h]); rw [e, setBytes_replicate_zero]
      rw [this, hexEncode_replicate_zero]
  rw [validatePrivateKey, bytesCompare_eq _ _ (by rw [h, hN]), setBytes_bigBytes]
  simp only [h1]
  by_cases hlt : setBytes key < secpN
  · have : compare (setBytes key) secpN = .lt := Nat.compare_eq_lt.2 hlt
    rw [this]
    by_cases h0 : setBytes key = 0
    · simp [h0]
    · simp [h0, hlt]
  · have : compare (setBytes key) secpN ≠ .lt := fun e => hlt (Nat.compare_eq_lt.1 e)
    simp [this, hlt]

theorem setBytes_ser256 {k : Nat} (h : k < secpN) : setBytes (ser256 k) = k := by
  rw [ser256, setBytes_beBytes, Nat.mod_eq_of_lt (lt_trans h secpN_lt)]

@[simp] theorem ser256_length (k : Nat) : (ser256 k).length = 32 := by simp [ser256]

end Bips
