import Verif.Src.Rules
import Verif.Lemmas.Child

/-!
# bip32/utils.go, from its text
-/

namespace Bips.Src

open Bips (str)

set_option linter.unusedSimpArgs false

variable (W : World) (L : Nat)

theorem utils_hashRipeMD160 (n : Nat) (b : Bytes) :
    run W L (n + 1) .bip32_hashRipeMD160 [.bytes b] = .ok [.bytes (hashRipeMD160 W.H b), .err none] := by
  rw [run_succ]
  simp -implicitDefEqProofs [src, bip32_hashRipeMD160, hashSumSem, hashRipeMD160]

theorem utils_HashRipeMD160onSha256 (n : Nat) (b : Bytes) :
    run W L (n + 2) .bip32_HashRipeMD160onSha256 [.bytes b] = .ok [.bytes (hashRipeMD160onSha256 W.H b), .err none] := by
  rw [run_succ]
  simp -implicitDefEqProofs [src, bip32_HashRipeMD160onSha256, utils_hashRipeMD160, hashRipeMD160onSha256, sliceFrom_bytes_int]

theorem utils_ChecksumDblSha256 (n : Nat) (b : Bytes) :
    run W L (n + 1) .bip32_ChecksumDblSha256 [.bytes b] = .ok [.bytes (checksumDblSha256 W.H b), .err none] := by
  rw [run_succ]
  simp -implicitDefEqProofs [src, bip32_ChecksumDblSha256, checksumDblSha256, slice_bytes_int, slice]

theorem utils_AddChecksumDblSha256ToBytes (n : Nat) (b : Bytes) :
    run W L (n + 2) .bip32_AddChecksumDblSha256ToBytes [.bytes b] = .ok [.bytes (addChecksumDblSha256ToBytes W.H b), .err none] := by
  rw [run_succ]
  simp -implicitDefEqProofs [src, bip32_AddChecksumDblSha256ToBytes, utils_ChecksumDblSha256, addChecksumDblSha256ToBytes]

theorem sprintf_x (b : Bytes) : sprintf (str "%x") [.bytes b] = some (hexEncode b) := by
  have : str "%x" = [37, 120] := by decide +kernel
  rw [this]
  simp [sprintf]

theorem ordInt_nonneg (o : Ordering) : 0 ≤ ordInt o ↔ o ≠ .lt := by cases o <;> decide

theorem utils_ValidatePrivateKey (n : Nat) (b : Bytes) :
    run W L (n + 1) .bip32_ValidatePrivateKey [.bytes b] = .ok [.err (validatePrivateKey b)] := by
  rw [run_succ]
  have h0 : str "0" = [48] := by decide +kernel
  have h1 : (List.replicate 64 ([48] : Bytes)).flatten = List.replicate 64 48 := by decide +kernel
  unfold validatePrivateKey
  by_cases ha : hexEncode b = List.replicate 64 48
  · simp -implicitDefEqProofs only [src, bip32_ValidatePrivateKey, sprintf_x, h0, h1, ha, Int.reduceLT, Int.reduceToNat, true_or]
  · have hs := sliceFrom_bytes_int (b := b) (lo := 0) (by simp) (by simp)
    have hg : globSem W .curveN = .big secpN := rfl
    by_cases hb : bytesCompare b (bigBytes secpN) ≠ .lt
    · have hb' := (ordInt_nonneg _).mpr hb
      simp -implicitDefEqProofs only [src, bip32_ValidatePrivateKey, sprintf_x, h0, h1, ha, hb, hb', Int.reduceLT, Int.reduceToNat, or_true, hg, hs, List.drop_zero]
      simp [hb]
    · have hb' := (ordInt_nonneg (bytesCompare b (bigBytes secpN))).not.mpr hb
      simp -implicitDefEqProofs only [src, bip32_ValidatePrivateKey, sprintf_x, h0, h1, ha, hb, hb', Int.reduceLT, Int.reduceToNat, or_true, hg, hs, List.drop_zero]
      simp [hb]

theorem utils_compress_loop (call : Fn → List Val → Res (List Val)) (v0 v1 : Val) (xb : Bytes) (h : xb.length ≤ 32) (m : Nat) :
    ∀ (fuel i : Nat) (k : Bytes), m < fuel → i + m = 32 - xb.length →
      loop (fun e => (eval W bip32_compressPublicKey_cond1 e).bind asBool)
        (exec W L call bip32_compressPublicKey_post1) (exec W L call bip32_compressPublicKey_body1) fuel
        [v0, v1, .bytes k, .bytes xb, .int i] =
      .ok (.next [v0, v1, .bytes (k ++ List.replicate m 0), .bytes xb, .int (32 - xb.length : Nat)]) := by
  induction m with
  | zero =>
    intro fuel i k hf hi
    obtain ⟨fuel, rfl⟩ : ∃ f, fuel = f + 1 := ⟨fuel - 1, by omega⟩
    have hw : wrapInt (32 - (xb.length : Int)) = (i : Int) := by rw [wrapInt_of] <;> omega
    have hi' : ((32 - xb.length : Nat) : Int) = i := by omega
    rw [loop_stop (by simp -implicitDefEqProofs [src, bip32_compressPublicKey_cond1, hw])]
    simp [hi']
  | succ m ih =>
    intro fuel i k hf hi
    obtain ⟨fuel, rfl⟩ : ∃ f, fuel = f + 1 := ⟨fuel - 1, by omega⟩
    have hw : wrapInt (32 - (xb.length : Int)) = (i + (m + 1) : Nat) := by rw [wrapInt_of] <;> omega
    have hw' : wrapInt ((i : Int) + 1) = ((i + 1 : Nat) : Int) := by rw [wrapInt_of] <;> omega
    have hlt : (i : Int) < ((i + (m + 1) : Nat) : Int) := by omega
    rw [loop_step (e1 := [v0, v1, .bytes (k ++ [0]), .bytes xb, .int i]) (e2 := [v0, v1, .bytes (k ++ [0]), .bytes xb, .int (i + 1 : Nat)])
      (by simp -implicitDefEqProofs only [src, bip32_compressPublicKey_cond1, hw, hlt])
      (by simp -implicitDefEqProofs only [src, bip32_compressPublicKey_body1])
      (by simp -implicitDefEqProofs only [src, bip32_compressPublicKey_post1, hw']), ih fuel (i + 1) (k ++ [0]) (by omega) (by omega)]
    simp [List.replicate_succ]

theorem utils_compressPublicKey (hL : 32 < L) (n : Nat) (x y : Nat) (hx : x < 256 ^ 32) :
    run W L (n + 1) .bip32_compressPublicKey [.big x, .big y] = .ok [.bytes (compressPublicKey (x, y))] := by
  rw [run_succ]
  have hb := bigBytes_length_le hx
  have hl := utils_compress_loop W L (run W L n) (.big x) (.big y) (bigBytes x) hb (32 - (bigBytes x).length) L 0
    [2 + UInt8.ofNat (y % 2)] (by omega) (by omega)
  have hp : UInt8.ofNat (UInt64.ofNat (y % 2)).toNat = UInt8.ofNat (y % 2) := by
    rcases Nat.mod_two_eq_zero_or_one y with h | h <;> rw [h] <;> rfl
  simp -implicitDefEqProofs only [src, bip32_compressPublicKey, conv_u8_nat, hp, Int.reduceLT, Int.reduceToNat, pow_zero, Nat.div_one]
  simp only [Nat.cast_zero] at hl
  rw [hl]
  simp -implicitDefEqProofs [src, compressPublicKey]

theorem utils_publicKeyForPrivateKey (hL : 32 < L) (n : Nat) (b : Bytes) :
    run W L (n + 2) .bip32_publicKeyForPrivateKey [.bytes b] = .ok [.bytes (publicKeyForPrivateKey b)] := by
  rw [run_succ]
  have hx : (scalarBaseMult b).1 < 256 ^ 32 := by
    rw [scalarBaseMult_eq]
    exact lt_trans (coords_lt _).1 secpP_lt
  simp -implicitDefEqProofs only [src, bip32_publicKeyForPrivateKey, utils_compressPublicKey W L hL n _ _ hx, publicKeyForPrivateKey]

theorem utils_ExpandPublicKey (n : Nat) (b : Bytes) :
    run W L (n + 1) .bip32_ExpandPublicKey [.bytes b] = outcome (fun q => [.big q.1, .big q.2]) (expandPublicKeyGo b) := by
  rw [run_succ]
  cases b with
  | nil => simp -implicitDefEqProofs [src, bip32_ExpandPublicKey, expandPublicKeyGo, outcome, sliceFromSem]
  | cons k0 rest =>
    have hlt := modSqrt_lt (setBytes rest ^ 3 + secpB)
    have hs := sliceFrom_bytes_int (b := k0 :: rest) (lo := 1) (by simp) (by simp)
    have hi := index_bytes_int (b := k0 :: rest) (i := 0) (by simp) (by simp)
    have hgP : globSem W .curveP = .big secpP := rfl
    have hgB : globSem W .curveB = .big secpB := rfl
    simp only [Int.toNat_zero, Int.toNat_one, List.drop_succ_cons, List.drop_zero, List.getElem_cons_zero] at hs hi
    generalize hY : modSqrt (setBytes rest ^ 3 + secpB) = Y at hlt
    by_cases h : UInt64.ofNat k0.toNat - 2 = UInt64.ofNat (Y % 2)
    · simp -implicitDefEqProofs only [src, bip32_ExpandPublicKey, expandPublicKeyGo, outcome, hs, hi, hgP, hgB, big2, conv_u64_nat, expandCons, hY, h,
        Int.reduceLT, Int.reduceToNat, ne_eq, not_true, OfNat.ofNat_ne_zero]
    · have hn : ¬ secpP < Y := by omega
      simp -implicitDefEqProofs only [src, bip32_ExpandPublicKey, expandPublicKeyGo, outcome, hs, hi, hgP, hgB, big2, conv_u64_nat, expandCons, hY, h, hn,
        Int.reduceLT, Int.reduceToNat, ne_eq, not_true, not_false_eq_true, OfNat.ofNat_ne_zero]

theorem expandPublicKey_go {b : Bytes} (h : b ≠ []) : expandPublicKeyGo b = .ok (expandPublicKey b) := by
  cases b with
  | nil => exact absurd rfl h
  | cons => rfl

theorem expand_snd_le (b : Bytes) : (expandPublicKey b).2 < 256 ^ 32 := by
  cases b with
  | nil => decide
  | cons k0 rest =>
    have hlt := modSqrt_lt (setBytes rest ^ 3 + secpB)
    have hp := secpP_lt
    rw [expandPublicKey, expandCons]
    split <;> simp only <;> omega

theorem utils_addPublicKeys (hL : 32 < L) (n : Nat) (a b : Bytes) (ha : a.length = 33) (hb : b.length = 33) :
    run W L (n + 2) .bip32_addPublicKeys [.bytes a, .bytes b] = .ok [.bytes (addPublicKeys a b)] := by
  rw [run_succ]
  have ha' : a ≠ [] := by rintro rfl; simp at ha
  have hb' : b ≠ [] := by rintro rfl; simp at hb
  have h1 := expand_fst_lt a ha
  have h2 := expand_fst_lt b hb
  have h3 := curveAdd_lt _ _ h1 h2
  have h4 := expand_snd_le a
  have h5 := expand_snd_le b
  have hc : ¬ (256 ^ 32 ≤ (expandPublicKey a).1 ∨ 256 ^ 32 ≤ (expandPublicKey a).2 ∨ 256 ^ 32 ≤ (expandPublicKey b).1 ∨
      256 ^ 32 ≤ (expandPublicKey b).2) := by omega
  simp -implicitDefEqProofs only [src, bip32_addPublicKeys, utils_ExpandPublicKey, expandPublicKey_go ha', expandPublicKey_go hb', outcome, hc,
    utils_compressPublicKey W L hL n _ _ h3, addPublicKeys]

theorem utils_addPrivateKeys (n : Nat) (a b : Bytes) :
    run W L (n + 1) .bip32_addPrivateKeys [.bytes a, .bytes b] = .ok [.bytes (addPrivateKeys a b)] := by
  rw [run_succ]
  have hg : globSem W .curveN = .big secpN := rfl
  have hz : ¬ secpN = 0 := by decide
  unfold addPrivateKeys
  generalize hm : bigBytes ((setBytes a + setBytes b) % secpN) = c
  by_cases h : c.length < 32
  · have h' : (c.length : Int) < 32 := by omega
    have hw : wrapInt (32 - (c.length : Int)) = ((32 - c.length : Nat) : Int) := by rw [wrapInt_of] <;> omega
    have hn : ¬ ((32 - c.length : Nat) : Int) < 0 := by omega
    simp -implicitDefEqProofs only [src, bip32_addPrivateKeys, big2, hg, hz, hm, h, h', hw, hn, Int.toNat_natCast]
  · have h' : ¬ (c.length : Int) < 32 := by omega
    simp -implicitDefEqProofs only [src, bip32_addPrivateKeys, big2, hg, hz, hm, h, h']

theorem utils_validateChildPublicKey (n : Nat) (b : Bytes) (hb : b ≠ []) :
    run W L (n + 2) .bip32_validateChildPublicKey [.bytes b] = .ok [.err (validateChildPublicKey b)] := by
  rw [run_succ]
  unfold validateChildPublicKey
  generalize hq : expandPublicKey b = q
  by_cases h1 : q.1 = 0
  · simp -implicitDefEqProofs [src, bip32_validateChildPublicKey, utils_ExpandPublicKey, expandPublicKey_go hb, outcome, hq, h1]
  · by_cases h2 : q.2 = 0
    · simp -implicitDefEqProofs [src, bip32_validateChildPublicKey, utils_ExpandPublicKey, expandPublicKey_go hb, outcome, hq, h1, h2]
    · simp -implicitDefEqProofs [src, bip32_validateChildPublicKey, utils_ExpandPublicKey, expandPublicKey_go hb, outcome, hq, h1, h2]

theorem utils_uint32Bytes (n : Nat) (i : UInt32) :
    run W L (n + 1) .bip32_uint32Bytes [.u32 i] = .ok [.bytes (uint32Bytes i)] := by
  rw [run_succ]
  simp -implicitDefEqProofs [src, bip32_uint32Bytes, uint32Bytes]

end Bips.Src
