import Verif.Src.Key
import Verif.Src.Versions
import Verif.Lemmas.Child

/-!
# bip32/bip32.go: master keys, child keys, neutered keys and hex views, from the text
-/

namespace Bips.Src

open Bips (str)

set_option linter.unusedSimpArgs false

variable (W : World) (L : Nat)

theorem key_NewMasterKey (n : Nat) (seed : Bytes) :
    run W L (n + 2) .bip32_NewMasterKey [.bytes seed] = .ok [
      match (newMasterKey W.H seed).1 with
      | some k => .bytes k.bytes
      | none => .nil, .err (newMasterKey W.H seed).2] := by
  rw [run_succ]
  have hl := W.H.hmacSha512_length (str "Bitcoin seed") seed
  have hb : W.H.hmacSha512 (str "Bitcoin seed") ([] ++ seed) = W.H.hmacSha512 (str "Bitcoin seed") seed := rfl
  unfold newMasterKey
  generalize hI : W.H.hmacSha512 (str "Bitcoin seed") seed = I at *
  have hd : slice I 32 I.length = I.drop 32 := by simp [slice]
  have hs1 := slice_bytes_int (b := I) (lo := 0) (hi := 32) (by simp) (by simp) (by omega)
  have hs2 := sliceFrom_bytes_int (b := I) (lo := 32) (by simp) (by omega)
  have ha1 := lib_toArray_slice W (b := I) (n := 32) (lo := 0) (hi := 32) (by omega) (by simp)
  have ha2 := lib_toArray_eq W (b := I.drop 32) (n := 32) (by simp [hl])
  have hz : List.replicate 78 (0 : UInt8) = Key.zero.bytes := rfl
  rcases hp : validatePrivateKey (slice I 0 32) with _ | e
  · simp -implicitDefEqProofs [src, bip32_NewMasterKey, hashSumSem, hI, hs1, hs2, ha1, ha2, hd, hp, utils_ValidatePrivateKey,
      version_PvtKeyFlagBytes, hz, -List.reduceReplicate, key_SetVersion, key_setChainCode, key_setPvtKeyBytes, defaultMainnetVersion]
  · simp -implicitDefEqProofs [src, bip32_NewMasterKey, hashSumSem, hI, hs1, hs2, ha1, ha2, hd, hp, utils_ValidatePrivateKey]

theorem key_getIntermediary (hL : 32 < L) (n : Nat) (k : Key) (i : UInt32) :
    run W L (n + 3) .bip32_Key_getIntermediary [.bytes k.bytes, .u32 i] = .ok [.bytes (k.getIntermediary W.H i), .err none] := by
  rw [run_succ]
  have hfh : firstHardenedChild = 2147483648 := rfl
  have hp : k.bytes.drop 45 = slice k.bytes pubKeyStart 78 := by
    simp [slice, List.take_of_length_le, Key.len, pubKeyStart]
  unfold Key.getIntermediary
  simp only [hfh, ge_iff_le]
  by_cases hi : (2147483648 : UInt32) ≤ i
  · simp -implicitDefEqProofs [src, bip32_Key_getIntermediary, utils_uint32Bytes, hi, slice_bytes_int, sliceFrom_bytes_int, copyInto_bytes_int,
      Key.len, hashSumSem, pvtKeyStart, pvtKeyEnd, chainCodeStart, chainCodeEnd]
  · by_cases hk : k.isPrivate = true
    · simp -implicitDefEqProofs [src, bip32_Key_getIntermediary, utils_uint32Bytes, hi, slice_bytes_int, sliceFrom_bytes_int, copyInto_bytes_int,
        Key.len, hashSumSem, pvtKeyStart, pvtKeyEnd, chainCodeStart, chainCodeEnd, key_IsPrivate, hk, utils_publicKeyForPrivateKey, hL,
        -UInt32.not_le]
    · rw [Bool.not_eq_true] at hk
      simp -implicitDefEqProofs [src, bip32_Key_getIntermediary, utils_uint32Bytes, hi, slice_bytes_int, sliceFrom_bytes_int, copyInto_bytes_int,
        Key.len, hashSumSem, pvtKeyStart, pvtKeyEnd, chainCodeStart, chainCodeEnd, key_IsPrivate, hk, hp,
        -UInt32.not_le]

theorem key_NewChildKey (hL : 32 < L) (n : Nat) (k : Key) (i : UInt32) :
    run W L (n + 4) .bip32_Key_NewChildKey [.bytes k.bytes, .u32 i] =
      .ok (both (fun k => .bytes k.bytes) (k.newChildKey W.H W.R i)) := by
  rw [run_succ]
  have hfh : firstHardenedChild = 2147483648 := rfl
  have hz : List.replicate 78 (0 : UInt8) = Key.zero.bytes := rfl
  have hp : k.bytes.drop 45 = slice k.bytes pubKeyStart 78 := by
    simp [slice, List.take_of_length_le, Key.len, pubKeyStart]
  have hq : k.bytes.drop 46 = slice k.bytes pvtKeyStart 78 := by
    simp [slice, List.take_of_length_le, Key.len, pvtKeyStart]
  have hl : (k.getIntermediary W.H i).length = 64 := W.H.hmacSha512_length _ _
  unfold Key.newChildKey
  simp only [hfh, ge_iff_le]
  generalize hI : k.getIntermediary W.H i = I at *
  have hd : I.drop 32 = slice I 32 64 := by simp [slice, List.take_of_length_le, hl]
  have hs1 := slice_bytes_int (b := I) (lo := 0) (hi := 32) (by simp) (by simp) (by omega)
  have hs2 := sliceFrom_bytes_int (b := I) (lo := 32) (by simp) (by omega)
  have ha1 := lib_toArray_slice W (b := I) (n := 32) (lo := 32) (hi := 64) (by omega) (by simp)
  have hu : libSem W .toArray [.int 4, .bytes (uint32Bytes i)] = .ok (.bytes (uint32Bytes i)) := lib_toArray_eq W (by simp [uint32Bytes])
  have hx : indexSem (.bytes k.bytes) 4 = .ok (.u8 (k.byteAt depthStart)) := by
    have := index_bytes_int (b := k.bytes) (i := 4) (by simp) (by simp [Key.len])
    rw [this]
    simp [Key.byteAt, depthStart, List.getElem?_eq_getElem, Key.len]
  have hvs := lib_toArray_slice W (b := k.bytes) (n := 4) (lo := 0) (hi := 4) (by simp [Key.len]) (by simp)
  have hvl : (slice k.bytes 0 4).length = 4 := by simp [slice, Key.len]
  have hf : ∀ b, libSem W .toArray [.int 4, .bytes (hashRipeMD160onSha256 W.H b)] = .ok (.bytes (slice (hashRipeMD160onSha256 W.H b) 0 4)) := by
    intro b
    rw [lib_toArray_ge W (by simp [hashRipeMD160onSha256, hashRipeMD160])]
    simp [slice]
  have hap : ∀ a b, libSem W .toArray [.int 32, .bytes (addPrivateKeys a b)] = .ok (.bytes (slice (addPrivateKeys a b) 0 32)) := by
    intro a b
    rw [lib_toArray_ge W (by simp [addPrivateKeys_length])]
    simp [slice]
  have hcp : ∀ (k : Key) b, copyIntoSem (.bytes k.bytes) 5 9 b = .ok (.bytes (k.put fingerPrintStart fingerPrintEnd (b.take 4)).bytes) := by
    intro k b
    rw [copyInto_bytes_int (by simp) (by simp) (by simp [Key.len])]
    simp [Key.put, copyAt, fingerPrintStart, fingerPrintEnd]
  have hapb : libSem W .toArray [.int 33, .bytes (addPublicKeys (publicKeyForPrivateKey (slice I 0 32)) (slice k.bytes pubKeyStart 78))] =
      .ok (.bytes (slice (addPublicKeys (publicKeyForPrivateKey (slice I 0 32)) (slice k.bytes pubKeyStart 78)) 0 33)) := by
    rw [lib_toArray_ge W]
    · simp [slice]
    · rw [addPublicKeys_length _ _ (publicKeyForPrivateKey_length _) (by rw [slice_length _ _ _ (by simp [Key.len])]; rfl)]
      simp
  by_cases hk : k.isPrivate = true
  · rcases hr : W.R.pvtFlag (getUint32 (slice k.bytes versionStart versionEnd)) with _ | ⟨v, vs⟩
    · simp only [versionStart, versionEnd] at hr
      have hlen : ∀ m : Nat, ¬ ((m : Int) + 1 = 0) := by intro m; omega
      simp -implicitDefEqProofs [src, bip32_Key_NewChildKey, key_IsPrivate, hk, hz, -List.reduceReplicate, both, key_getIntermediary, hL, hI, slice_bytes_int, sliceFrom_bytes_int, Key.len, hvs, hvl, versionStart, versionEnd, regGet, List.take_of_length_le, hr]
    · simp only [versionStart, versionEnd] at hr
      have hlen : ∀ m : Nat, ¬ ((m : Int) + 1 = 0) := by intro m; omega
      simp -implicitDefEqProofs [src, bip32_Key_NewChildKey, key_IsPrivate, hk, hz, -List.reduceReplicate, both, key_getIntermediary, hL, hI, slice_bytes_int, sliceFrom_bytes_int, Key.len, hvs, hvl, versionStart, versionEnd, regGet, List.take_of_length_le, hr, hlen,
        utils_uint32Bytes, hu, key_setChildNumber, key_setChainCode, key_setDepth, key_SetVersion, hs1, hs2, hd, ha1, hx, utils_publicKeyForPrivateKey, utils_HashRipeMD160onSha256, key_setFingerPrint, key_setPvtKeyBytes, key_GetPvtKeyBytes, hf, utils_addPrivateKeys, hq, hap, utils_ValidatePrivateKey]
      generalize Key.setPvtKeyBytes _ _ = c
      rcases validatePrivateKey c.getPvtKeyBytes with _ | e <;> simp -implicitDefEqProofs [src]
  · rw [Bool.not_eq_true] at hk
    by_cases hi : (2147483648 : UInt32) ≤ i
    · simp -implicitDefEqProofs [src, bip32_Key_NewChildKey, key_IsPrivate, hk, hi, hz, -List.reduceReplicate, both]
    · rcases hr : W.R.pubFlag (getUint32 (slice k.bytes versionStart versionEnd)) with _ | ⟨v, vs⟩
      · simp only [versionStart, versionEnd] at hr
        simp -implicitDefEqProofs [src, bip32_Key_NewChildKey, key_IsPrivate, hk, hz, -List.reduceReplicate, both, key_getIntermediary, hL, hI, slice_bytes_int, sliceFrom_bytes_int, Key.len, hvs, hvl, versionStart, versionEnd, regGet, List.take_of_length_le, hr, hi, -UInt32.not_le]
      · simp only [versionStart, versionEnd] at hr
        have hne : publicKeyForPrivateKey (slice I 0 32) ≠ [] := by
          intro h
          have := publicKeyForPrivateKey_length (slice I 0 32)
          rw [h] at this
          simp at this
        have hadd := utils_addPublicKeys W L hL (n + 1) (publicKeyForPrivateKey (slice I 0 32)) (slice k.bytes pubKeyStart 78)
          (publicKeyForPrivateKey_length _) (by rw [slice_length _ _ _ (by simp [Key.len])]; rfl)
        have hix : indexSem (.list (.vb v :: vs.map .vb)) 0 = .ok (.vb v) := rfl
        have hlen : ¬ ((vs.length : Int) + 1 = 0) := by omega
        rcases hc : validateChildPublicKey (publicKeyForPrivateKey (slice I 0 32)) with _ | e
        · simp -implicitDefEqProofs [src, bip32_Key_NewChildKey, key_IsPrivate, hk, hz, -List.reduceReplicate, both, key_getIntermediary, hL, hI, slice_bytes_int, sliceFrom_bytes_int, Key.len, hvs, hvl, versionStart, versionEnd, regGet, List.take_of_length_le, hr, hi, -UInt32.not_le,
            utils_uint32Bytes, hu, key_setChildNumber, key_setChainCode, key_setDepth, key_SetVersion, hs1, hs2, hd, ha1, hx, utils_publicKeyForPrivateKey, utils_HashRipeMD160onSha256, hix, version_PubKeyFlagBytes, utils_validateChildPublicKey, hne, hlen, hc, hp, hcp, hadd, hapb, key_setPubKeyBytes]
        · simp -implicitDefEqProofs [src, bip32_Key_NewChildKey, key_IsPrivate, hk, hz, -List.reduceReplicate, both, key_getIntermediary, hL, hI, slice_bytes_int, sliceFrom_bytes_int, Key.len, hvs, hvl, versionStart, versionEnd, regGet, List.take_of_length_le, hr, hi, -UInt32.not_le,
            utils_uint32Bytes, hu, key_setChildNumber, key_setChainCode, key_setDepth, key_SetVersion, hs1, hs2, hd, ha1, hx, utils_publicKeyForPrivateKey, utils_HashRipeMD160onSha256, hix, version_PubKeyFlagBytes, utils_validateChildPublicKey, hne, hlen, hc]

theorem key_PublicKeyExtended (hL : 32 < L) (n : Nat) (k : Key) :
    run W L (n + 3) .bip32_Key_PublicKeyExtended [.bytes k.bytes] = .ok [.bytes (k.publicKeyExtended W.R).bytes] := by
  rw [run_succ]
  have hz : List.replicate 78 (0 : UInt8) = Key.zero.bytes := rfl
  have hq : k.bytes.drop 46 = slice k.bytes pvtKeyStart 78 := by
    simp [slice, List.take_of_length_le, Key.len, pvtKeyStart]
  have hvs := lib_toArray_slice W (b := k.bytes) (n := 4) (lo := 0) (hi := 4) (by simp [Key.len]) (by simp)
  have hvl : (slice k.bytes 0 4).length = 4 := by simp [slice, Key.len]
  have hcp : copyIntoSem (.bytes Key.zero.bytes) 0 78 k.bytes = .ok (.bytes k.bytes) := by
    rw [copyInto_bytes_int (by simp) (by simp) (by simp [Key.len])]
    simp [copyAt, List.take_of_length_le, Key.len]
  have hput : ∀ b, copyIntoSem (.bytes k.bytes) 45 78 b = .ok (.bytes (k.put pubKeyStart pubKeyEnd b).bytes) := by
    intro b
    rw [copyInto_bytes_int (by simp) (by simp) (by simp [Key.len])]
    rfl
  have hlen : ∀ m : Nat, ¬ ((m : Int) + 1 = 0) := by intro m; omega
  have hix : ∀ (v : VersionBytes) vs, indexSem (.list (.vb v :: List.map .vb vs)) 0 = .ok (.vb v) := fun _ _ => rfl
  unfold Key.publicKeyExtended
  by_cases hk : k.isPrivate = true
  · rcases hr : W.R.pvtFlag (getUint32 (slice k.bytes versionStart versionEnd)) with _ | ⟨v, vs⟩ <;>
      simp only [versionStart, versionEnd] at hr <;>
      simp -implicitDefEqProofs [src, bip32_Key_PublicKeyExtended, key_IsPrivate, hk, hz, -List.reduceReplicate, hr, slice_bytes_int, sliceFrom_bytes_int, Key.len, hvs, hvl,
        versionStart, versionEnd, regGet, List.take_of_length_le, hcp, hput, hlen, hix, version_PubKeyFlagBytes, key_SetVersion, hq, utils_publicKeyForPrivateKey, hL,
        defaultMainnetVersion]
  · rw [Bool.not_eq_true] at hk
    rcases hr : W.R.pubFlag (getUint32 (slice k.bytes versionStart versionEnd)) with _ | ⟨v, vs⟩ <;>
      simp only [versionStart, versionEnd] at hr <;>
      simp -implicitDefEqProofs [src, bip32_Key_PublicKeyExtended, key_IsPrivate, hk, hz, -List.reduceReplicate, hr, slice_bytes_int, sliceFrom_bytes_int, Key.len, hvs, hvl,
        versionStart, versionEnd, regGet, List.take_of_length_le, hcp, hput, hlen, hix, version_PubKeyFlagBytes, key_SetVersion, hq, utils_publicKeyForPrivateKey, hL,
        defaultMainnetVersion]

theorem key_PrivateKeyHex (n : Nat) (k : Key) : run W L (n + 2) .bip32_Key_PrivateKeyHex [.bytes k.bytes] = .ok [.str k.privateKeyHex] := by
  rw [run_succ]
  unfold Key.privateKeyHex
  by_cases hk : k.isPrivate = true
  · simp -implicitDefEqProofs [src, bip32_Key_PrivateKeyHex, key_IsPrivate, hk, slice_bytes_int, Key.len]
  · rw [Bool.not_eq_true] at hk
    simp -implicitDefEqProofs [src, bip32_Key_PrivateKeyHex, key_IsPrivate, hk, str_empty]

theorem key_PublicKeyHex (hL : 32 < L) (n : Nat) (k : Key) :
    run W L (n + 4) .bip32_Key_PublicKeyHex [.bytes k.bytes] = .ok [.str (k.publicKeyHex W.R)] := by
  rw [run_succ]
  unfold Key.publicKeyHex
  by_cases hk : k.isPrivate = true
  · simp -implicitDefEqProofs [src, bip32_Key_PublicKeyHex, key_IsPrivate, hk, key_PublicKeyExtended, hL, slice_bytes_int, Key.len]
  · rw [Bool.not_eq_true] at hk
    simp -implicitDefEqProofs [src, bip32_Key_PublicKeyHex, key_IsPrivate, hk, slice_bytes_int, Key.len]

end Bips.Src
