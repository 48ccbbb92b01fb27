import Verif.Model.Key
import Mathlib.Data.List.Basic

/-! Lemmas about the `Key` array model. -/

namespace Bips

theorem all_zero_iff (b : Bytes) : b.all (· == 0) = true ↔ b = List.replicate b.length 0 := by
  constructor
  · intro h
    apply List.eq_replicate_of_mem
    intro x hx
    simpa using List.all_eq_true.1 h x hx
  · intro h
    rw [List.all_eq_true]
    intro x hx
    rw [h] at hx
    simp [List.eq_of_mem_replicate hx]

theorem Key.all_zero_iff (k : Key) : k.bytes.all (· == 0) = true ↔ k = Key.zero := by
  rw [Bips.all_zero_iff, k.len]
  constructor
  · intro h; apply Key.ext'; exact h
  · rintro rfl; rfl

@[simp] theorem checksumDblSha256_length (H : Hashes) (b : Bytes) : (checksumDblSha256 H b).length = 4 := by
  simp [checksumDblSha256]

theorem checksumMatches_iff (a b : Bytes) (h : a.length = b.length) : checksumMatches a b = true ↔ a = b := by
  unfold checksumMatches
  rw [List.all_eq_true]
  constructor
  · intro h'
    apply List.ext_getElem? 
    intro i
    by_cases hi : i < a.length
    · simpa using h' i (List.mem_range.2 hi)
    · rw [List.getElem?_eq_none (by omega), List.getElem?_eq_none (by omega)]
  · rintro rfl i _; simp

theorem Key.serialize_zero (H : Hashes) : Key.zero.serialize H = ([], some .emptyKey) := by
  unfold Key.serialize; rw [if_pos ((Key.all_zero_iff _).2 rfl)]

theorem Key.serialize_ne_zero (H : Hashes) (k : Key) (h : k ≠ Key.zero) :
    k.serialize H = (k.bytes ++ (H.sha256 (H.sha256 k.bytes)).take 4, none) := by
  unfold Key.serialize
  rw [if_neg (fun e => h ((Key.all_zero_iff _).1 e))]
  rfl

theorem Key.b58Serialize_ne_zero (H : Hashes) (k : Key) (h : k ≠ Key.zero) :
    k.b58Serialize H = b58Encode (k.bytes ++ (H.sha256 (H.sha256 k.bytes)).take 4) := by
  unfold Key.b58Serialize; rw [Key.serialize_ne_zero H k h]

theorem Key.b58Serialize_zero (H : Hashes) : Key.zero.b58Serialize H = [] := by
  unfold Key.b58Serialize; rw [Key.serialize_zero]

/-- What `Deserialize` returns, as one formula. -/
theorem deserialize_eq (H : Hashes) (data : Bytes) :
    (deserialize H data).1.bytes = (data ++ List.replicate (82 - data.length) 0).take 78 ∧
    (deserialize H data).2 =
      if data.length ≠ 82 then some .serializedKeyWrongSize
      else if data.drop 78 = (H.sha256 (H.sha256 (data.take 78))).take 4 then none
      else some .invalidChecksum := by
  unfold deserialize
  by_cases h82 : data.length ≠ 82
  · rw [dif_pos h82, if_pos h82]
    by_cases hlt : data.length < 82
    · rw [dif_pos hlt]; exact ⟨rfl, rfl⟩
    · rw [dif_neg hlt]
      refine ⟨?_, rfl⟩
      rw [show 82 - data.length = 0 by omega]
      simp [Key.ofBytes]
  · rw [dif_neg h82, if_neg h82]
    have h : data.length = 82 := by omega
    have e1 : slice data 0 (data.length - 4) = data.take 78 := by simp [slice, h]
    have e2 : slice data (data.length - 4) data.length = data.drop 78 := by rw [slice, List.take_length, h]
    have hz : (data ++ List.replicate (82 - data.length) 0) = data := by simp [h]
    rw [hz]
    dsimp only
    rw [e1, e2]
    by_cases hc : checksumMatches (checksumDblSha256 H (data.take 78)) (data.drop 78) = true
    · rw [if_pos hc]
      refine ⟨rfl, ?_⟩
      rw [if_pos]
      exact ((checksumMatches_iff _ _ (by simp [h])).1 hc).symm
    · rw [if_neg hc]
      refine ⟨rfl, ?_⟩
      rw [if_neg]
      intro e
      exact hc ((checksumMatches_iff _ _ (by simp [h])).2 (by rw [e]; rfl))

theorem deserialize_serialize (H : Hashes) (k : Key) (h : k ≠ Key.zero) :
    deserialize H (k.serialize H).1 = (k, none) := by
  rw [Key.serialize_ne_zero H k h]
  have hl : (k.bytes ++ (H.sha256 (H.sha256 k.bytes)).take 4).length = 82 := by simp [k.len]
  have ht : (k.bytes ++ (H.sha256 (H.sha256 k.bytes)).take 4).take 78 = k.bytes := by
    rw [← k.len, List.take_left']; rw [k.len]
  have hd : (k.bytes ++ (H.sha256 (H.sha256 k.bytes)).take 4).drop 78 = (H.sha256 (H.sha256 k.bytes)).take 4 := by
    rw [← k.len, List.drop_left']; rw [k.len]
  obtain ⟨h1, h2⟩ := deserialize_eq H (k.bytes ++ (H.sha256 (H.sha256 k.bytes)).take 4)
  rw [hl] at h1 h2
  rw [if_neg (by simp), if_pos (by rw [hd, ht])] at h2
  apply Prod.ext
  · apply Key.ext'
    rw [h1]; simpa using ht
  · exact h2

theorem Key.isValid_iff (H : Hashes) (k : Key) : k.isValid H = true ↔ k ≠ Key.zero := by
  constructor
  · rintro h rfl
    unfold Key.isValid at h
    rw [Key.serialize_zero] at h
    simp at h
  · intro h
    have h1 := deserialize_serialize H k h
    unfold Key.isValid
    rw [Key.serialize_ne_zero H k h] at h1 ⊢
    dsimp only at h1 ⊢
    rw [h1]

/-! ### Field access -/

namespace Key

theorem slice_len (k : Key) (i j : Nat) (hj : j ≤ 78) : (slice k.bytes i j).length = j - i :=
  slice_length _ _ _ (by rw [k.len]; exact hj)

theorem slice_put_same (k : Key) (i j : Nat) (src : Bytes) (h : i ≤ j) (hj : j ≤ 78) (hs : src.length = j - i) :
    slice (k.put i j src h hj).bytes i j = src :=
  slice_copyAt_same _ _ _ _ hs h (by rw [k.len]; exact hj)

theorem slice_put_disjoint (k : Key) (i j : Nat) (src : Bytes) (h : i ≤ j) (hj : j ≤ 78) (hs : src.length = j - i)
    (i' j' : Nat) (hd : j' ≤ i ∨ j ≤ i') : slice (k.put i j src h hj).bytes i' j' = slice k.bytes i' j' :=
  slice_copyAt_disjoint _ _ _ _ hs h (by rw [k.len]; exact hj) _ _ hd

/-- The six fields, in order, make up the key. -/
theorem bytes_eq_fields (k : Key) : k.bytes = slice k.bytes 0 4 ++ k.getDepth ++ k.getFingerPrint ++
    k.getChildNumber ++ k.getChainCode ++ k.getKeyBytes := by
  have hk := k.len
  unfold getDepth getFingerPrint getChildNumber getChainCode getKeyBytes
  simp only [versionStart, versionEnd, depthStart, depthEnd, fingerPrintStart, fingerPrintEnd, childNumberStart,
    childNumberEnd, chainCodeStart, chainCodeEnd, pubKeyStart, pubKeyEnd]
  rw [slice_append_slice _ _ _ _ (by omega) (by omega) (by omega),
    slice_append_slice _ _ _ _ (by omega) (by omega) (by omega),
    slice_append_slice _ _ _ _ (by omega) (by omega) (by omega),
    slice_append_slice _ _ _ _ (by omega) (by omega) (by omega),
    slice_append_slice _ _ _ _ (by omega) (by omega) (by omega)]
  simp [slice, hk]

theorem ext_fields {a b : Key} (hv : slice a.bytes 0 4 = slice b.bytes 0 4) (hd : a.getDepth = b.getDepth)
    (hf : a.getFingerPrint = b.getFingerPrint) (hc : a.getChildNumber = b.getChildNumber)
    (hcc : a.getChainCode = b.getChainCode) (hk : a.getKeyBytes = b.getKeyBytes) : a = b := by
  apply Key.ext'
  rw [bytes_eq_fields a, bytes_eq_fields b, hv, hd, hf, hc, hcc, hk]

theorem version_bytes (k : Key) : slice k.bytes 0 4 = putUint32 k.getVersion := by
  unfold getVersion
  rw [putUint32_getUint32]
  exact k.slice_len 0 4 (by omega)

theorem byteAt_eq_head (k : Key) : [k.byteAt pubKeyStart] = slice k.bytes 45 46 := by
  have hk := k.len
  apply List.ext_getElem?
  intro i
  rw [slice_getElem?]
  cases i with
  | zero => simp [byteAt]; 
  | succ n => simp; omega

theorem getKeyBytes_eq (k : Key) : k.getKeyBytes = k.byteAt pubKeyStart :: k.getPvtKeyBytes := by
  have hk := k.len
  have := slice_append_slice k.bytes 45 46 78 (by omega) (by omega) (by omega)
  rw [← byteAt_eq_head] at this
  exact this.symm

theorem getDepth_eq (k : Key) : k.getDepth = [k.byteAt depthStart] := by
  have hk := k.len
  apply List.ext_getElem?
  intro i
  unfold getDepth
  rw [slice_getElem?]
  cases i with
  | zero => simp [byteAt, depthStart, depthEnd]
  | succ n => simp

theorem isPrivate_iff (k : Key) : k.isPrivate = true ↔ k.getKeyBytes = 0 :: k.getPvtKeyBytes := by
  rw [getKeyBytes_eq]
  simp [isPrivate]

@[simp] theorem getPvtKeyBytes_length (k : Key) : k.getPvtKeyBytes.length = 32 := k.slice_len 46 78 (by omega)
@[simp] theorem getKeyBytes_length (k : Key) : k.getKeyBytes.length = 33 := k.slice_len 45 78 (by omega)
@[simp] theorem getChainCode_length (k : Key) : k.getChainCode.length = 32 := k.slice_len 13 45 (by omega)
@[simp] theorem getFingerPrint_length (k : Key) : k.getFingerPrint.length = 4 := k.slice_len 5 9 (by omega)
@[simp] theorem getChildNumber_length (k : Key) : k.getChildNumber.length = 4 := k.slice_len 9 13 (by omega)
@[simp] theorem getDepth_length (k : Key) : k.getDepth.length = 1 := k.slice_len 4 5 (by omega)

end Key

end Bips
