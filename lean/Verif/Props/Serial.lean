import Verif.Lemmas.Key

/-!
# C14–C18, C20: serialization of keys and field access

`H` ranges over all hash functions with the right output lengths, `k` over all 78-byte keys, `data`/`s`
over all byte strings.
-/

namespace Bips

/-- A concrete key used as witness: version xprv, all other bytes 1. -/
def sampleKey : Key := ⟨str "\x04" ++ List.replicate 77 1, by decide⟩

theorem sampleKey_ne_zero : sampleKey ≠ Key.zero := by decide

/-- **C14.** Serialize then Deserialize is the identity on every key that is not all zero; the all-zero key
is refused with ErrEmptyKey. -/
theorem C14_serialize_deserialize (H : Hashes) (k : Key) :
    (k.bytes ≠ List.replicate 78 0 →
      ∃ out, k.serialize H = (out, none) ∧ out.length = 82 ∧ deserialize H out = (k, none)) ∧
    (k.bytes = List.replicate 78 0 → (k.serialize H).2 = some .emptyKey) := by
  constructor
  · intro h
    have hk : k ≠ Key.zero := fun e => h (by rw [e]; rfl)
    refine ⟨(k.serialize H).1, ?_, ?_, deserialize_serialize H k hk⟩
    · rw [Key.serialize_ne_zero H k hk]
    · rw [Key.serialize_ne_zero H k hk]; simp [k.len]
  · intro h
    have : k = Key.zero := Key.ext' h
    rw [this, Key.serialize_zero]

example : sampleKey.bytes ≠ List.replicate 78 0 := by decide

/-- **C15.** Deserialize accepts exactly the 82-byte strings whose last four bytes are the first four of the
double SHA-256 of the first 78; the two errors are as documented; the key returned is always the first 78
bytes, zero-padded. (Totality of the model function is the absence of panics: every slice expression
carries its bounds proof.) -/
theorem C15_deserialize_exact (H : Hashes) (data : Bytes) :
    ((deserialize H data).2 = none ↔
      data.length = 82 ∧ data.drop 78 = (H.sha256 (H.sha256 (data.take 78))).take 4) ∧
    ((deserialize H data).2 = some .serializedKeyWrongSize ↔ data.length ≠ 82) ∧
    ((deserialize H data).2 = some .invalidChecksum ↔
      data.length = 82 ∧ data.drop 78 ≠ (H.sha256 (H.sha256 (data.take 78))).take 4) ∧
    (∀ i, i < 78 → (deserialize H data).1.bytes[i]? = some (data.getD i 0)) := by
  obtain ⟨h1, h2⟩ := deserialize_eq H data
  rw [h2]
  refine ⟨?_, ?_, ?_, ?_⟩
  · by_cases h : data.length = 82 <;> simp [h]
  · by_cases h : data.length = 82 <;> simp [h]
  · by_cases h : data.length = 82 <;> simp [h]
  · intro i hi
    rw [h1, List.getElem?_take_of_lt hi, List.getElem?_append]
    by_cases hl : i < data.length
    · simp [hl, List.getD_eq_getElem?_getD]
    · rw [if_neg hl, List.getElem?_replicate, if_pos (by omega)]
      simp [List.getD_eq_getElem?_getD, List.getElem?_eq_none (Nat.le_of_not_lt hl)]

/-- All three outcomes occur, for every hash. -/
example (H : Hashes) : (deserialize H []).2 = some .serializedKeyWrongSize ∧
    (∃ d, (deserialize H d).2 = none) ∧ (∃ d, (deserialize H d).2 = some .invalidChecksum) := by
  refine ⟨by rw [(C15_deserialize_exact H []).2.1]; simp, ⟨(sampleKey.serialize H).1, ?_⟩, ?_⟩
  · rw [deserialize_serialize H _ sampleKey_ne_zero]
  · let good := H.sha256 (H.sha256 (List.replicate 78 0))
    refine ⟨List.replicate 78 0 ++ ((good.take 4).map (· + 1)), ?_⟩
    rw [(C15_deserialize_exact H _).2.2.1]
    have hl : good.length = 32 := H.sha256_length _
    refine ⟨by simp [hl], ?_⟩
    rw [List.take_left' (by simp), List.drop_left' (by simp)]
    match hg : good, hl with
    | [], hl => simp at hl
    | x :: rest, _ =>
      rw [show H.sha256 (H.sha256 (List.replicate 78 0)) = good from rfl, hg]
      simp

/-- **C16.** The base58 text of a key reads back as that key. -/
theorem C16_base58_roundtrip (H : Hashes) (k : Key) (h : k.bytes ≠ List.replicate 78 0) :
    b58Deserialize H (k.string H) = (k, none) := by
  have hk : k ≠ Key.zero := fun e => h (by rw [e]; rfl)
  unfold Key.string b58Deserialize
  rw [Key.b58Serialize_ne_zero H k hk, b58Decode_encode]
  have := deserialize_serialize H k hk
  rwa [Key.serialize_ne_zero H k hk] at this

/-- **C17.** Every accepted text is the canonical text of its key, so distinct accepted texts denote distinct
keys. The all-zero key, whose `String` is empty, still has at most one accepted text (second part). -/
theorem C17_canonical_text (H : Hashes) (s : Bytes) (k : Key) (hs : b58Deserialize H s = (k, none)) :
    (k.bytes ≠ List.replicate 78 0 → k.string H = s) ∧
    (∀ t, b58Deserialize H t = (k, none) → t = s) := by
  have key : ∀ t, b58Deserialize H t = (k, none) →
      t = b58Encode (k.bytes ++ (H.sha256 (H.sha256 k.bytes)).take 4) := by
    intro t ht
    unfold b58Deserialize at ht
    have hc := (C15_deserialize_exact H (b58Decode t)).1.1 (by rw [ht])
    have hb := (deserialize_eq H (b58Decode t)).1
    rw [ht, hc.1] at hb
    simp only [Nat.sub_self, List.replicate_zero, List.append_nil] at hb
    have he : b58Decode t = k.bytes ++ (H.sha256 (H.sha256 k.bytes)).take 4 := by
      rw [hb, ← hc.2, List.take_append_drop]
    rw [← he, b58Encode_decode]
    intro e
    rw [e] at hc
    simp at hc
  constructor
  · intro hne
    have hk : k ≠ Key.zero := fun e => hne (by rw [e]; rfl)
    rw [key s hs]
    exact Key.b58Serialize_ne_zero H k hk
  · intro t ht
    rw [key t ht, key s hs]

/-- The hypothesis is met by the text of any key. -/
example (H : Hashes) : b58Deserialize H (sampleKey.string H) = (sampleKey, none) :=
  C16_base58_roundtrip H _ (by decide)

/-- **C18.** IsValid holds exactly for the keys that are not all zero. -/
theorem C18_isValid_iff (H : Hashes) (k : Key) : k.isValid H = true ↔ k.bytes ≠ List.replicate 78 0 := by
  rw [Key.isValid_iff]
  constructor
  · intro h e; exact h (Key.ext' e)
  · intro h e; exact h (by rw [e]; rfl)

/-- **C18**, second part: IsValid accepts a key with private scalar 0, one with a private scalar above the
group order, one whose public bytes are no point encoding, each under an arbitrary version. -/
theorem C18_isValid_accepts_malformed (H : Hashes) (v : UInt32) (hv : v ≠ 0) :
    (∃ k : Key, k.isValid H = true ∧ k.getVersion = v ∧ k.isPrivate = true ∧
      k.getPvtKeyBytes = List.replicate 32 0) ∧
    (∃ k : Key, k.isValid H = true ∧ k.getVersion = v ∧ k.isPrivate = true ∧
      k.getPvtKeyBytes = List.replicate 32 255 ∧ secpN ≤ setBytes k.getPvtKeyBytes) ∧
    (∃ k : Key, k.isValid H = true ∧ k.getVersion = v ∧ k.isPrivate = false ∧
      k.getKeyBytes = 7 :: List.replicate 32 0) := by
  have hver : ∀ k : Key, (k.setVersionUint32 v).getVersion = v := fun k => by
    unfold Key.getVersion Key.setVersionUint32 Key.setVersion
    rw [Key.slice_put_same _ _ _ _ _ _ (by simp [uint32Bytes]), uint32Bytes, getUint32_putUint32]
  have hval : ∀ k : Key, (k.setVersionUint32 v).isValid H = true := fun k => by
    rw [Key.isValid_iff]
    intro e
    have := hver k
    rw [e] at this
    exact hv (by rw [← this]; decide)
  have hkey : ∀ k : Key, (k.setVersionUint32 v).getKeyBytes = k.getKeyBytes := fun k => by
    unfold Key.getKeyBytes Key.setVersionUint32 Key.setVersion
    rw [Key.slice_put_disjoint _ _ _ _ _ _ (by simp [uint32Bytes]) _ _ (by decide)]
  have hp : ∀ k : Key, ∀ a l, k.getKeyBytes = a :: l → (k.setVersionUint32 v).getPvtKeyBytes = l ∧
      (k.setVersionUint32 v).isPrivate = (a == 0) := fun k a l h => by
    have h1 := hkey k
    rw [h, Key.getKeyBytes_eq] at h1
    obtain ⟨h2, h3⟩ := List.cons.inj h1
    exact ⟨h3, by rw [Key.isPrivate, h2]⟩
  refine ⟨⟨Key.zero.setVersionUint32 v, hval _, hver _, ?_⟩,
    ⟨(Key.zero.setPvtKeyBytes (List.replicate 32 255)).setVersionUint32 v, hval _, hver _, ?_⟩,
    ⟨(Key.zero.setPubKeyBytes (7 :: List.replicate 32 0)).setVersionUint32 v, hval _, hver _, ?_⟩⟩
  · have := hp Key.zero 0 (List.replicate 32 0) (by decide)
    exact ⟨by rw [this.2]; rfl, this.1⟩
  · have := hp (Key.zero.setPvtKeyBytes (List.replicate 32 255)) 0 (List.replicate 32 255) (by decide +kernel)
    exact ⟨by rw [this.2]; rfl, this.1, by rw [this.1]; decide +kernel⟩
  · have := hp (Key.zero.setPubKeyBytes (7 :: List.replicate 32 0)) 7 (List.replicate 32 0) (by decide +kernel)
    exact ⟨by rw [this.2]; rfl, by rw [hkey]; decide +kernel⟩

/-- The six readable fields of a key. -/
structure KeyFields where
  version : UInt32
  depth : Bytes
  fingerPrint : Bytes
  childNumber : Bytes
  chainCode : Bytes
  keyBytes : Bytes
  deriving DecidableEq

/-- All exported field readers of `Key`. -/
def Key.fields (k : Key) : KeyFields :=
  ⟨k.getVersion, k.getDepth, k.getFingerPrint, k.getChildNumber, k.getChainCode, k.getKeyBytes⟩

/-- **C20.** Each setter changes its field to the value given and no other field. Array lengths are those
of the Go argument types. -/
theorem C20_lenses (k : Key) :
    (∀ v : UInt32, (k.setVersionUint32 v).fields = { k.fields with version := v }) ∧
    (∀ v : Bytes, v.length = 4 → (k.setVersion v).fields = { k.fields with version := getUint32 v }) ∧
    (∀ d : UInt8, (k.setDepth d).fields = { k.fields with depth := [d] }) ∧
    (∀ f : Bytes, f.length = 4 → (k.setFingerPrint f).fields = { k.fields with fingerPrint := f }) ∧
    (∀ c : Bytes, c.length = 4 → (k.setChildNumber c).fields = { k.fields with childNumber := c }) ∧
    (∀ c : Bytes, c.length = 32 → (k.setChainCode c).fields = { k.fields with chainCode := c }) ∧
    (∀ b : Bytes, b.length = 33 → (k.setPubKeyBytes b).fields = { k.fields with keyBytes := b }) ∧
    (∀ b : Bytes, b.length = 32 →
      (k.setPvtKeyBytes b).fields = { k.fields with keyBytes := k.byteAt pubKeyStart :: b } ∧
      (k.setPvtKeyBytes b).getPvtKeyBytes = b) := by
  refine ⟨?_, ?_, ?_, ?_, ?_, ?_, ?_, ?_⟩
  · intro v
    simp only [Key.fields, Key.setVersionUint32, Key.setVersion, Key.getVersion, Key.getDepth, Key.getFingerPrint,
      Key.getChildNumber, Key.getChainCode, Key.getKeyBytes, KeyFields.mk.injEq]
    have hl : (uint32Bytes v).length = 4 - 0 := by simp [uint32Bytes]
    rw [Key.slice_put_same _ _ _ _ _ _ hl, uint32Bytes, getUint32_putUint32]
    refine ⟨rfl, ?_, ?_, ?_, ?_, ?_⟩ <;>
      exact Key.slice_put_disjoint _ _ _ _ _ _ hl _ _ (by decide)
  · intro v hl
    simp only [Key.fields, Key.setVersion, Key.getVersion, Key.getDepth, Key.getFingerPrint,
      Key.getChildNumber, Key.getChainCode, Key.getKeyBytes, KeyFields.mk.injEq]
    rw [Key.slice_put_same _ _ _ _ _ _ hl]
    refine ⟨rfl, ?_, ?_, ?_, ?_, ?_⟩ <;>
      exact Key.slice_put_disjoint _ _ _ _ _ _ hl _ _ (by decide)
  · intro v
    simp only [Key.fields, Key.setDepth, Key.getVersion, Key.getDepth, Key.getFingerPrint,
      Key.getChildNumber, Key.getChainCode, Key.getKeyBytes, KeyFields.mk.injEq]
    rw [Key.slice_put_same _ _ _ _ _ _ (by rfl)]
    refine ⟨congrArg _ ?_, rfl, ?_, ?_, ?_, ?_⟩ <;>
      exact Key.slice_put_disjoint _ _ _ _ _ _ (by rfl) _ _ (by decide)
  · intro v hl
    simp only [Key.fields, Key.setFingerPrint, Key.getVersion, Key.getDepth, Key.getFingerPrint,
      Key.getChildNumber, Key.getChainCode, Key.getKeyBytes, KeyFields.mk.injEq]
    rw [Key.slice_put_same _ _ _ _ _ _ hl]
    refine ⟨congrArg _ ?_, ?_, rfl, ?_, ?_, ?_⟩ <;>
      exact Key.slice_put_disjoint _ _ _ _ _ _ hl _ _ (by decide)
  · intro v hl
    simp only [Key.fields, Key.setChildNumber, Key.getVersion, Key.getDepth, Key.getFingerPrint,
      Key.getChildNumber, Key.getChainCode, Key.getKeyBytes, KeyFields.mk.injEq]
    rw [Key.slice_put_same _ _ _ _ _ _ hl]
    refine ⟨congrArg _ ?_, ?_, ?_, rfl, ?_, ?_⟩ <;>
      exact Key.slice_put_disjoint _ _ _ _ _ _ hl _ _ (by decide)
  · intro v hl
    simp only [Key.fields, Key.setChainCode, Key.getVersion, Key.getDepth, Key.getFingerPrint,
      Key.getChildNumber, Key.getChainCode, Key.getKeyBytes, KeyFields.mk.injEq]
    rw [Key.slice_put_same _ _ _ _ _ _ hl]
    refine ⟨congrArg _ ?_, ?_, ?_, ?_, rfl, ?_⟩ <;>
      exact Key.slice_put_disjoint _ _ _ _ _ _ hl _ _ (by decide)
  · intro v hl
    simp only [Key.fields, Key.setPubKeyBytes, Key.getVersion, Key.getDepth, Key.getFingerPrint,
      Key.getChildNumber, Key.getChainCode, Key.getKeyBytes, KeyFields.mk.injEq]
    rw [Key.slice_put_same _ _ _ _ _ _ hl]
    refine ⟨congrArg _ ?_, ?_, ?_, ?_, ?_, rfl⟩ <;>
      exact Key.slice_put_disjoint _ _ _ _ _ _ hl _ _ (by decide)
  · intro v hl
    have hp : (k.setPvtKeyBytes v).getPvtKeyBytes = v := Key.slice_put_same _ _ _ _ _ _ hl
    refine ⟨?_, hp⟩
    have hk : (k.setPvtKeyBytes v).getKeyBytes = k.byteAt pubKeyStart :: v := by
      rw [Key.getKeyBytes_eq, hp]
      congr 1
      have h1 := Key.byteAt_eq_head (k.setPvtKeyBytes v)
      have h2 := Key.byteAt_eq_head k
      rw [Key.setPvtKeyBytes, Key.slice_put_disjoint _ _ _ _ _ _ hl _ _ (by decide), ← h2] at h1
      exact (List.cons.inj h1).1
    simp only [Key.fields, KeyFields.mk.injEq]
    simp only [Key.setPvtKeyBytes, Key.getVersion, Key.getDepth, Key.getFingerPrint,
      Key.getChildNumber, Key.getChainCode]
    refine ⟨congrArg _ ?_, ?_, ?_, ?_, ?_, hk⟩ <;>
      exact Key.slice_put_disjoint _ _ _ _ _ _ hl _ _ (by decide)

/-- **C20**, second part: the six readers determine the key. -/
theorem C20_fields_determine_key (a b : Key) (h : a.fields = b.fields) : a = b := by
  simp only [Key.fields, KeyFields.mk.injEq] at h
  obtain ⟨h1, h2, h3, h4, h5, h6⟩ := h
  refine Key.ext_fields ?_ h2 h3 h4 h5 h6
  rw [Key.version_bytes, Key.version_bytes, h1]

/-- Keys with different fields exist and every combination of fields of the right lengths is realised. -/
example : (sampleKey.setVersionUint32 0x0488ade4).fields ≠ Key.zero.fields := by decide +kernel

end Bips
