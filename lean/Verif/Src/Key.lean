import Verif.Src.Utils
import Verif.Model.Unused
import Verif.Lemmas.Key

/-!
# bip32/bip32.go: the fields of a key and its serialization, from the text
-/

namespace Bips.Src

open Bips (str)

set_option linter.unusedSimpArgs false

variable (W : World) (L : Nat)

theorem key_GetVersion (n : Nat) (k : Key) : run W L (n + 1) .bip32_Key_GetVersion [.bytes k.bytes] = .ok [.u32 k.getVersion] := by
  rw [run_succ]
  simp -implicitDefEqProofs [src, bip32_Key_GetVersion, slice_bytes_int, Key.len, Key.getVersion, slice_length, lib_toArray_slice, List.take_of_length_le]

theorem key_GetChainCode (n : Nat) (k : Key) : run W L (n + 1) .bip32_Key_GetChainCode [.bytes k.bytes] = .ok [.bytes k.getChainCode] := by
  rw [run_succ]
  simp -implicitDefEqProofs [src, bip32_Key_GetChainCode, slice_bytes_int, Key.len, Key.getChainCode, slice_length, lib_toArray_slice, List.take_of_length_le]

theorem key_GetFingerPrint (n : Nat) (k : Key) : run W L (n + 1) .bip32_Key_GetFingerPrint [.bytes k.bytes] = .ok [.bytes k.getFingerPrint] := by
  rw [run_succ]
  simp -implicitDefEqProofs [src, bip32_Key_GetFingerPrint, slice_bytes_int, Key.len, Key.getFingerPrint, slice_length, lib_toArray_slice, List.take_of_length_le]

theorem key_GetDepth (n : Nat) (k : Key) : run W L (n + 1) .bip32_Key_GetDepth [.bytes k.bytes] = .ok [.bytes k.getDepth] := by
  rw [run_succ]
  simp -implicitDefEqProofs [src, bip32_Key_GetDepth, slice_bytes_int, Key.len, Key.getDepth, slice_length, lib_toArray_slice, List.take_of_length_le]

theorem key_GetPvtKeyBytes (n : Nat) (k : Key) : run W L (n + 1) .bip32_Key_GetPvtKeyBytes [.bytes k.bytes] = .ok [.bytes k.getPvtKeyBytes] := by
  rw [run_succ]
  simp -implicitDefEqProofs [src, bip32_Key_GetPvtKeyBytes, slice_bytes_int, Key.len, Key.getPvtKeyBytes, slice_length, lib_toArray_slice, List.take_of_length_le]

theorem key_GetKeyBytes (n : Nat) (k : Key) : run W L (n + 1) .bip32_Key_GetKeyBytes [.bytes k.bytes] = .ok [.bytes k.getKeyBytes] := by
  rw [run_succ]
  simp -implicitDefEqProofs [src, bip32_Key_GetKeyBytes, slice_bytes_int, Key.len, Key.getKeyBytes, slice_length, lib_toArray_slice, List.take_of_length_le]

theorem key_GetChildNumber (n : Nat) (k : Key) : run W L (n + 1) .bip32_Key_GetChildNumber [.bytes k.bytes] = .ok [.bytes k.getChildNumber] := by
  rw [run_succ]
  simp -implicitDefEqProofs [src, bip32_Key_GetChildNumber, slice_bytes_int, Key.len, Key.getChildNumber, slice_length, lib_toArray_slice, List.take_of_length_le]

theorem key_SetVersion (n : Nat) (k : Key) (v : Bytes) :
    run W L (n + 1) .bip32_Key_SetVersion [.bytes k.bytes, .bytes v] = .ok [.bytes (k.setVersion v).bytes] := by
  rw [run_succ]
  simp -implicitDefEqProofs [src, bip32_Key_SetVersion, sliceFrom_bytes_int, copyInto_bytes_int, Key.len, Key.setVersion, Key.put]

theorem key_setChainCode (n : Nat) (k : Key) (v : Bytes) :
    run W L (n + 1) .bip32_Key_setChainCode [.bytes k.bytes, .bytes v] = .ok [.bytes (k.setChainCode v).bytes] := by
  rw [run_succ]
  simp -implicitDefEqProofs [src, bip32_Key_setChainCode, sliceFrom_bytes_int, copyInto_bytes_int, Key.len, Key.setChainCode, Key.put]

theorem key_setFingerPrint (n : Nat) (k : Key) (v : Bytes) :
    run W L (n + 1) .bip32_Key_setFingerPrint [.bytes k.bytes, .bytes v] = .ok [.bytes (k.setFingerPrint v).bytes] := by
  rw [run_succ]
  simp -implicitDefEqProofs [src, bip32_Key_setFingerPrint, sliceFrom_bytes_int, copyInto_bytes_int, Key.len, Key.setFingerPrint, Key.put]

theorem key_setPvtKeyBytes (n : Nat) (k : Key) (v : Bytes) :
    run W L (n + 1) .bip32_Key_setPvtKeyBytes [.bytes k.bytes, .bytes v] = .ok [.bytes (k.setPvtKeyBytes v).bytes] := by
  rw [run_succ]
  simp -implicitDefEqProofs [src, bip32_Key_setPvtKeyBytes, sliceFrom_bytes_int, copyInto_bytes_int, Key.len, Key.setPvtKeyBytes, Key.put]

theorem key_setPubKeyBytes (n : Nat) (k : Key) (v : Bytes) :
    run W L (n + 1) .bip32_Key_setPubKeyBytes [.bytes k.bytes, .bytes v] = .ok [.bytes (k.setPubKeyBytes v).bytes] := by
  rw [run_succ]
  simp -implicitDefEqProofs [src, bip32_Key_setPubKeyBytes, sliceFrom_bytes_int, copyInto_bytes_int, Key.len, Key.setPubKeyBytes, Key.put]

theorem key_setChildNumber (n : Nat) (k : Key) (v : Bytes) :
    run W L (n + 1) .bip32_Key_setChildNumber [.bytes k.bytes, .bytes v] = .ok [.bytes (k.setChildNumber v).bytes] := by
  rw [run_succ]
  simp -implicitDefEqProofs [src, bip32_Key_setChildNumber, sliceFrom_bytes_int, copyInto_bytes_int, Key.len, Key.setChildNumber, Key.put]

theorem copyAt_one (b : Bytes) (i : Nat) (h : i < b.length) (c : UInt8) : copyAt b i (i + 1) [c] = b.set i c := by
  simp [copyAt, List.set_eq_take_append_cons_drop, h]

theorem key_setDepth (n : Nat) (k : Key) (d : UInt8) :
    run W L (n + 1) .bip32_Key_setDepth [.bytes k.bytes, .u8 d] = .ok [.bytes (k.setDepth d).bytes] := by
  rw [run_succ]
  simp -implicitDefEqProofs [src, bip32_Key_setDepth, setIndexSem, Key.len, Key.setDepth, Key.put]
  rw [depthEnd, copyAt_one _ _ (by simp [Key.len])]

theorem key_SetVersionUint32 (n : Nat) (k : Key) (v : UInt32) :
    run W L (n + 2) .bip32_Key_SetVersionUint32 [.bytes k.bytes, .u32 v] = .ok [.bytes (k.setVersionUint32 v).bytes] := by
  rw [run_succ]
  simp -implicitDefEqProofs [src, bip32_Key_SetVersionUint32, utils_uint32Bytes, key_SetVersion, Key.setVersionUint32, uint32Bytes, lib_toArray_eq]

theorem key_setChainCodeUint32 (n : Nat) (k : Key) (v : UInt32) :
    run W L (n + 2) .bip32_Key_setChainCodeUint32 [.bytes k.bytes, .u32 v] =
      outcome (fun k => [.bytes k.bytes]) (k.setChainCodeUint32 v) := by
  rw [run_succ, setChainCodeUint32_panics]
  simp -implicitDefEqProofs [src, bip32_Key_setChainCodeUint32, utils_uint32Bytes, uint32Bytes, outcome, lib_toArray]

theorem key_IsPrivate (n : Nat) (k : Key) : run W L (n + 1) .bip32_Key_IsPrivate [.bytes k.bytes] = .ok [.bool k.isPrivate] := by
  rw [run_succ]
  simp -implicitDefEqProofs [src, bip32_Key_IsPrivate, index_bytes_int, Key.len, Key.isPrivate, Key.byteAt]
  rfl

/-! ### Serialize -/

theorem serialize_iter (call : Fn → List Val → Res (List Val)) (v0 v3 v4 : Val) (b : Bytes) :
    ∀ (i : Int) (v2 : Val), ∃ w, iter (exec W L call bip32_Key_Serialize_body1) none (some 2) i (b.map .u8) [v0, .bool true, v2, v3, v4] =
      .ok (.next [v0, .bool (b.all (· == 0)), w, v3, v4]) := by
  induction b with
  | nil => intro i v2; exact ⟨v2, by simp [iter]⟩
  | cons c b ih =>
    intro i v2
    by_cases h : c = 0
    · obtain ⟨w, hw⟩ := ih (i + 1) (.u8 c)
      refine ⟨w, ?_⟩
      have hb : exec W L call bip32_Key_Serialize_body1 [v0, .bool true, .u8 c, v3, v4] = .ok (.next [v0, .bool true, .u8 c, v3, v4]) := by
        simp -implicitDefEqProofs [src, bip32_Key_Serialize_body1, h]
      simp only [iter, src, hb, hw]
      simp [h]
    · refine ⟨.u8 c, ?_⟩
      have hb : exec W L call bip32_Key_Serialize_body1 [v0, .bool true, .u8 c, v3, v4] = .ok (.brk [v0, .bool false, .u8 c, v3, v4]) := by
        simp -implicitDefEqProofs [src, bip32_Key_Serialize_body1, h]
      simp only [iter, src, hb]
      simp [h]

theorem key_Serialize (n : Nat) (k : Key) :
    run W L (n + 3) .bip32_Key_Serialize [.bytes k.bytes] = .ok (both .bytes (k.serialize W.H)) := by
  rw [run_succ]
  obtain ⟨w, hw⟩ := serialize_iter W L (run W L (n + 2)) (.bytes k.bytes) .nil .nil k.bytes 0 .nil
  have hs := sliceFrom_bytes_int (b := k.bytes) (lo := 0) (by simp) (by simp)
  unfold Key.serialize
  by_cases h : k.bytes.all (· == 0) = true
  · rw [h] at hw
    simp -implicitDefEqProofs only [src, bip32_Key_Serialize, hw, h, both]
  · rw [Bool.not_eq_true] at h
    rw [h] at hw
    simp -implicitDefEqProofs only [src, bip32_Key_Serialize, hw, h, both, hs, Int.toNat_zero, List.drop_zero, utils_AddChecksumDblSha256ToBytes]

theorem key_B58Serialize (n : Nat) (k : Key) :
    run W L (n + 4) .bip32_Key_B58Serialize [.bytes k.bytes] = .ok [.str (k.b58Serialize W.H)] := by
  rw [run_succ]
  unfold Key.b58Serialize
  rcases h : k.serialize W.H with ⟨s, _ | e⟩ <;> simp -implicitDefEqProofs [src, bip32_Key_B58Serialize, key_Serialize, h, both]

theorem key_String (n : Nat) (k : Key) : run W L (n + 5) .bip32_Key_String [.bytes k.bytes] = .ok [.str (k.string W.H)] := by
  rw [run_succ]
  simp -implicitDefEqProofs [src, bip32_Key_String, key_B58Serialize, Key.string]

/-! ### Deserialize -/

/-- The comparison of the checksums, from index `i` on. -/
theorem deserialize_iter (call : Fn → List Val → Res (List Val)) (data cs1 cs2 : Bytes) (v1 v3 : Val) (hd : 78 ≤ data.length)
    (hl : cs1.length = cs2.length) (t : Bytes) :
    ∀ (i : Nat) (v5 : Val), cs1.drop i = t → i ≤ cs1.length →
      (iter (exec W L call bip32_Deserialize_body1) (some 5) none i (t.map .u8) [.bytes data, v1, .bytes cs1, v3, .bytes cs2, v5] =
        if t = cs2.drop i then .ok (.next [.bytes data, v1, .bytes cs1, v3, .bytes cs2, if t = [] then v5 else .int (cs1.length - 1 : Nat)])
        else .ok (.ret [.bytes (data.take 78), .err (some .invalidChecksum)])) := by
  induction t with
  | nil =>
    intro i v5 h1 h2
    have : cs2.drop i = [] := by
      rw [List.drop_eq_nil_iff, ← hl, ← List.drop_eq_nil_iff]; exact h1
    simp [iter, this]
  | cons c t ih =>
    intro i v5 h1 h2
    have hi : i < cs1.length := by
      by_contra hc
      rw [List.drop_eq_nil_of_le (by omega)] at h1
      exact absurd h1 (by simp)
    have hi2 : i < cs2.length := by omega
    have hc : cs1[i] = c := by
      have := List.drop_eq_getElem_cons hi
      rw [h1] at this
      exact (List.cons.inj this).1.symm
    have ht : cs1.drop (i + 1) = t := by
      have := List.drop_eq_getElem_cons hi
      rw [h1] at this
      exact (List.cons.inj this).2.symm
    rw [List.drop_eq_getElem_cons hi2]
    have hx1 := index_bytes (b := cs1) (i := i) hi
    have hx2 := index_bytes (b := cs2) (i := i) hi2
    by_cases h : c = cs2[i]
    · have hb : exec W L call bip32_Deserialize_body1 [.bytes data, v1, .bytes cs1, v3, .bytes cs2, .int i] =
          .ok (.next [.bytes data, v1, .bytes cs1, v3, .bytes cs2, .int i]) := by
        simp -implicitDefEqProofs [src, bip32_Deserialize_body1, hx1, hx2, hc, h]
      have := ih (i + 1) (.int i) ht (by omega)
      simp only [Nat.cast_add, Nat.cast_one] at this
      simp only [List.map_cons, iter, src, hb, this]
      by_cases h3 : t = cs2.drop (i + 1)
      · simp only [h, h3, if_true, List.cons_ne_nil]
        congr 3
        by_cases h4 : t = []
        · have : cs1.length = i + 1 := by
            rw [h4, List.drop_eq_nil_iff] at ht
            omega
          simp [← h3, h4, this]
        · simp [← h3, h4]
      · simp only [List.cons.injEq, h, h3, and_false, if_false]
    · have hs := slice_bytes_int (b := data) (lo := 0) (hi := 78) (by simp) (by simp) (by omega)
      have hb : exec W L call bip32_Deserialize_body1 [.bytes data, v1, .bytes cs1, v3, .bytes cs2, .int i] =
          .ok (.ret [.bytes (data.take 78), .err (some .invalidChecksum)]) := by
        simp -implicitDefEqProofs [src, bip32_Deserialize_body1, hx1, hx2, hc, h, hs, lib_toArray_slice, hd]
        simp [slice]
      simp only [List.map_cons, iter, src, hb, List.cons.injEq, h, false_and]

theorem key_Deserialize (n : Nat) (data : Bytes) :
    run W L (n + 2) .bip32_Deserialize [.bytes data] = .ok (both (fun k => .bytes k.bytes) (deserialize W.H data)) := by
  rw [run_succ]
  unfold deserialize
  by_cases h82 : data.length = 82
  · have hcs : (checksumDblSha256 W.H (slice data 0 78)).length = 4 := by simp [checksumDblSha256]
    have hc2 : slice data 78 82 = data.drop 78 := by simp [slice, List.take_of_length_le, h82]
    have hl2 : (data.drop 78).length = 4 := by simp [h82]
    have hit := deserialize_iter W L (run W L (n + 1)) data (checksumDblSha256 W.H (slice data 0 78)) (data.drop 78) .nil (.err none)
      (by omega) (by rw [hcs, hl2]) (checksumDblSha256 W.H (slice data 0 78)) 0 .nil rfl (by omega)
    have hs1 := slice_bytes_int (b := data) (lo := 0) (hi := 78) (by simp) (by simp) (by omega)
    have hs2 := sliceFrom_bytes_int (b := data) (lo := 78) (by simp) (by omega)
    simp only [Nat.cast_zero, List.drop_zero] at hit
    have hsl : slice data 0 78 = data.take 78 := by simp [slice]
    by_cases hm : checksumDblSha256 W.H (slice data 0 78) = data.drop 78
    · have hm' := (checksumMatches_iff _ _ (by rw [hcs, hl2])).mpr hm
      rw [if_pos hm] at hit
      simp -implicitDefEqProofs [src, bip32_Deserialize, h82, both, wrapInt, hs1, hs2, utils_ChecksumDblSha256, hit, hm', hc2, lib_toArray_slice, h82, Key.ofBytes, -List.take_eq_self_iff]
      simp [slice]
    · have hm' : checksumMatches (checksumDblSha256 W.H (slice data 0 78)) (data.drop 78) = false := by
        rw [← Bool.not_eq_true, checksumMatches_iff _ _ (by rw [hcs, hl2])]; exact hm
      simp -implicitDefEqProofs [src, bip32_Deserialize, h82, both, wrapInt, hs1, hs2, utils_ChecksumDblSha256, hit, hm, hm', hc2, Key.ofBytes]
  · have h82' : ¬ (data.length : Int) = 82 := by omega
    by_cases hlt : data.length < 82
    · have hlt' : (data.length : Int) < 82 := by omega
      have hw : wrapInt (82 - (data.length : Int)) = ((82 - data.length : Nat) : Int) := by rw [wrapInt_of] <;> omega
      have hs1 := slice_bytes_int (b := data ++ List.replicate (82 - data.length) 0) (lo := 0) (hi := 78) (by simp) (by simp)
        (by simp; omega)
      have hn : ¬ ((82 - data.length : Nat) : Int) < 0 := by omega
      have ha := lib_toArray_slice W (b := data ++ List.replicate (82 - data.length) 0) (n := 78) (lo := 0) (hi := 78)
        (by simp; omega) (by simp)
      simp -implicitDefEqProofs only [src, bip32_Deserialize, h82, h82', hlt, hlt', both, hw, hs1, hn, ha, Int.toNat_natCast, Int.toNat_zero, Int.reduceToNat, ne_eq,
        not_false_eq_true]
      simp [slice, Key.ofBytes]
    · have hlt' : ¬ (data.length : Int) < 82 := by omega
      have hs1 := slice_bytes_int (b := data) (lo := 0) (hi := 78) (by simp) (by simp) (by omega)
      have ha := lib_toArray_slice W (b := data) (n := 78) (lo := 0) (hi := 78) (by omega) (by simp)
      simp -implicitDefEqProofs only [src, bip32_Deserialize, h82, h82', hlt, hlt', both, hs1, ha, Int.toNat_zero, Int.reduceToNat, ne_eq, not_false_eq_true]
      simp [slice, Key.ofBytes]

theorem key_B58Deserialize (n : Nat) (s : Bytes) :
    run W L (n + 3) .bip32_B58Deserialize [.str s] = .ok (both (fun k => .bytes k.bytes) (b58Deserialize W.H s)) := by
  rw [run_succ]
  simp -implicitDefEqProofs [src, bip32_B58Deserialize, key_Deserialize, b58Deserialize, both]

theorem key_IsValid (n : Nat) (k : Key) : run W L (n + 4) .bip32_Key_IsValid [.bytes k.bytes] = .ok [.bool (k.isValid W.H)] := by
  rw [run_succ]
  unfold Key.isValid
  rcases h : k.serialize W.H with ⟨s, _ | e⟩
  · rcases h2 : deserialize W.H s with ⟨k2, _ | e2⟩ <;> simp -implicitDefEqProofs [src, bip32_Key_IsValid, key_Serialize, key_Deserialize, h, h2, both]
  · simp -implicitDefEqProofs [src, bip32_Key_IsValid, key_Serialize, h, both]

end Bips.Src
