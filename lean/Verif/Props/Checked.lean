import Verif.Model.Checked
import Verif.Props.CustomList
import Verif.Props.Exact
import Verif.Lemmas.Point
import Verif.Lemmas.Path

/-!
# C94: which calls crash

`Model/Checked` is the code with every operation that can panic checked. The theorems give, for every function, what it returns for
all arguments: the value of the unchecked model, so no check fails, with the exceptions named in the statements.
-/

namespace Bips

open Spec

namespace Chk

theorem ok_bind {α β : Type} (a : α) (f : α → Outcome β) : (Outcome.ok a >>= f) = f a := rfl

theorem panic_bind {α β : Type} (f : α → Outcome β) : ((Outcome.panic : Outcome α) >>= f) = .panic := rfl

theorem pure_eq {α : Type} (a : α) : (pure a : Outcome α) = .ok a := rfl

theorem slice_ok {b : Bytes} {i j : Nat} (h1 : i ≤ j) (h2 : j ≤ b.length) : slice b i j = .ok (Bips.slice b i j) := if_pos ⟨h1, h2⟩

theorem keySlice_ok (k : Key) {i j : Nat} (h1 : i ≤ j) (h2 : j ≤ 78) : slice k.bytes i j = .ok (Bips.slice k.bytes i j) :=
  slice_ok h1 (by rw [k.len]; exact h2)

theorem index_ok {α : Type} {l : List α} {i : Nat} (h : i < l.length) : index l i = .ok l[i] := by
  rw [index, List.getElem?_eq_getElem h]

theorem toArray_ok {n : Nat} {b : Bytes} (h : n ≤ b.length) : toArray n b = .ok (b.take n) := if_pos h

theorem toArray_exact {n : Nat} {b : Bytes} (h : b.length = n) : toArray n b = .ok b := by
  rw [toArray_ok (by omega), List.take_of_length_le (by omega)]

theorem toArray_slice {b : Bytes} {i j n : Nat} (h : j ≤ b.length) (hn : j - i = n) :
    toArray n (Bips.slice b i j) = .ok (Bips.slice b i j) := toArray_exact (by rw [slice_length _ _ _ h, hn])

theorem make_ok {α : Type} (z : α) {n : Int} (h : 0 ≤ n) : make z n = .ok (List.replicate n.toNat z) := if_neg (by omega)

theorem div_ok {a b : Nat} (h : b ≠ 0) : div a b = .ok (a / b) := if_neg h

theorem mod_ok {a b : Nat} (h : b ≠ 0) : mod a b = .ok (a % b) := if_neg h

theorem copyTo_ok {b : Bytes} {i j : Nat} (src : Bytes) (h1 : i ≤ j) (h2 : j ≤ b.length) : copyTo b i j src = .ok (copyAt b i j src) := by
  rw [copyTo, slice_ok h1 h2]; rfl

theorem put_ok (k : Key) (i j : Nat) (src : Bytes) (h1 : i ≤ j) (h2 : j ≤ 78) : put k i j src = .ok (k.put i j src h1 h2) := by
  rw [put, copyTo_ok src h1 (by rw [k.len]; exact h2), ok_bind, toKey, dif_pos (by rw [copyAt_length _ _ _ _ h1 (by rw [k.len]; exact h2), k.len])]
  congr 1
  apply Key.ext'
  simp only [Key.ofBytes, Key.put]
  rw [List.take_of_length_le]
  rw [copyAt_length _ _ _ _ h1 (by rw [k.len]; exact h2), k.len]

theorem put_take (k : Key) (i j : Nat) (src : Bytes) (h1 : i ≤ j) (h2 : j ≤ 78) :
    k.put i j src h1 h2 = k.put i j (src.take (j - i)) h1 h2 := by
  apply Key.ext'
  simp [Key.put, copyAt]

/-! ### bip32/utils.go -/

section
variable (H : Hashes)

theorem checksum_ok (data : Bytes) : checksumDblSha256 H data = .ok (Bips.checksumDblSha256 H data) := by
  rw [checksumDblSha256, slice_ok (by omega) (by simp)]
  simp [Bips.slice, Bips.checksumDblSha256]

theorem addChecksum32_ok (data : Bytes) :
    addChecksumDblSha256ToBytes H data = .ok (Bips.addChecksumDblSha256ToBytes H data) := by
  rw [addChecksumDblSha256ToBytes, checksum_ok]; rfl

theorem expand_ok (key : Bytes) : expandPublicKey key = expandPublicKeyGo key := by
  cases key with
  | nil => rfl
  | cons k0 rest =>
    rw [expandPublicKey, slice_ok (by simp) (by simp), ok_bind]
    have e : Bips.slice (k0 :: rest) 1 (k0 :: rest).length = rest := by simp [Bips.slice]
    rw [e]
    dsimp only
    rw [mod_ok (by decide), ok_bind, index_ok (by simp), ok_bind]
    rw [expandPublicKeyGo, expandCons]
    dsimp only [List.getElem_cons_zero]
    by_cases h : (UInt64.ofNat k0.toNat - 2 : UInt64) ≠ UInt64.ofNat (modSqrt (setBytes rest ^ 3 + secpB) % 2)
    · rw [if_pos h, if_pos h]; rfl
    · rw [if_neg h, if_neg h]; rfl

theorem expand_ok' {key : Bytes} (h : 0 < key.length) : expandPublicKey key = .ok (Bips.expandPublicKey key) := by
  rw [expand_ok]
  cases key with
  | nil => simp at h
  | cons k0 rest => rfl

theorem addPublicKeys_ok {a b : Bytes} (ha : 0 < a.length) (hb : 0 < b.length) :
    addPublicKeys a b = .ok (Bips.addPublicKeys a b) := by
  rw [addPublicKeys, expand_ok' ha, ok_bind, expand_ok' hb]; rfl

theorem addPrivateKeys_ok (a b : Bytes) : addPrivateKeys a b = .ok (Bips.addPrivateKeys a b) := by
  rw [addPrivateKeys, mod_ok (by decide), ok_bind, Bips.addPrivateKeys]
  generalize (setBytes a + setBytes b) % secpN = n
  dsimp only
  by_cases h : (bigBytes n).length < 32
  · rw [if_pos h, if_pos h, make_ok _ (by omega), ok_bind]
    have : ((32 : Int) - ((bigBytes n).length : Int)).toNat = 32 - (bigBytes n).length := by omega
    rw [this]; rfl
  · rw [if_neg h, if_neg h]; rfl

theorem addPrivateKeys_length (a b : Bytes) : 32 ≤ (Bips.addPrivateKeys a b).length := by
  rw [Bips.addPrivateKeys]
  generalize (setBytes a + setBytes b) % secpN = n
  split
  · simp only [List.length_append, List.length_replicate]; omega
  · omega

theorem compress_length (q : Nat × Nat) : 33 ≤ (compressPublicKey q).length := by
  simp only [compressPublicKey, List.length_cons, List.length_append, List.length_replicate]
  omega

theorem validateChild_ok {key : Bytes} (h : 0 < key.length) : validateChildPublicKey key = .ok (Bips.validateChildPublicKey key) := by
  rw [validateChildPublicKey, expand_ok' h, ok_bind, Bips.validateChildPublicKey]
  generalize Bips.expandPublicKey key = q
  by_cases hq : q.1 = 0 ∨ q.2 = 0
  · rw [if_pos hq, if_pos hq]; rfl
  · rw [if_neg hq, if_neg hq]; rfl

theorem uint32Bytes_ok (i : UInt32) : uint32Bytes i = .ok (Bips.uint32Bytes i) := by
  rw [uint32Bytes, make_ok _ (by decide), ok_bind, putUint, if_pos (by simp)]
  simp [Bips.uint32Bytes, putUint32]

theorem uint32Bytes_length (i : UInt32) : (Bips.uint32Bytes i).length = 4 := by simp [Bips.uint32Bytes, putUint32]

theorem version_ok {α : Type} (k : Key) (f : Bytes → Outcome α) :
    (slice k.bytes versionStart versionEnd >>= fun v => toArray 4 v >>= f) = f (Bips.slice k.bytes versionStart versionEnd) := by
  rw [keySlice_ok _ (by decide) (by decide), ok_bind, toArray_slice (by rw [k.len]; decide) (by decide), ok_bind]

theorem getUint32_ok {b : Bytes} (h : b.length = 4) : getUint32 b = .ok (Bips.getUint32 b) := by
  rw [getUint32, if_pos (by omega), List.take_of_length_le (by omega)]

/-! ### bip32/bip32.go -/

theorem setVersion_ok (k : Key) (v : Bytes) : setVersion k v = .ok (k.setVersion v) := put_ok k _ _ v _ _
theorem setChainCode_ok (k : Key) (v : Bytes) : setChainCode k v = .ok (k.setChainCode v) := put_ok k _ _ v _ _
theorem setFingerPrint_ok (k : Key) (v : Bytes) : setFingerPrint k v = .ok (k.setFingerPrint v) := put_ok k _ _ v _ _
theorem setPvtKeyBytes_ok (k : Key) (v : Bytes) : setPvtKeyBytes k v = .ok (k.setPvtKeyBytes v) := put_ok k _ _ v _ _
theorem setPubKeyBytes_ok (k : Key) (v : Bytes) : setPubKeyBytes k v = .ok (k.setPubKeyBytes v) := put_ok k _ _ v _ _
theorem setChildNumber_ok (k : Key) (v : Bytes) : setChildNumber k v = .ok (k.setChildNumber v) := put_ok k _ _ v _ _

theorem setVersionUint32_ok (k : Key) (v : UInt32) : setVersionUint32 k v = .ok (k.setVersionUint32 v) := by
  rw [setVersionUint32, uint32Bytes_ok, ok_bind, toArray_exact (uint32Bytes_length v), ok_bind, setVersion_ok]; rfl

theorem setDepth_ok (k : Key) (d : UInt8) : setDepth k d = .ok (k.setDepth d) := by
  rw [setDepth, assign, if_pos (by rw [k.len]; decide), ok_bind, toKey, dif_pos (by rw [List.length_set, k.len])]
  congr 1
  apply Key.ext'
  simp only [Key.ofBytes, Key.setDepth, Key.put]
  rw [List.take_of_length_le (by rw [List.length_set, k.len])]
  apply List.ext_getElem?
  intro n
  rw [copyAt_getElem? _ _ _ _ (by simp) (by decide) (by rw [k.len]; decide), List.getElem?_set]
  by_cases h1 : depthStart = n
  · subst h1
    rw [if_pos rfl, if_pos (by rw [k.len]; decide), if_neg (by omega), if_pos (by decide)]
    simp
  · rw [if_neg h1]
    split
    · rfl
    · rw [if_neg]
      simp only [depthEnd]
      omega

theorem getVersion_ok (k : Key) : getVersion k = .ok k.getVersion := by
  rw [getVersion, keySlice_ok _ (by decide) (by decide), ok_bind, getUint32_ok (slice_length _ _ _ (by rw [k.len]; decide))]
  rfl

theorem getField_ok (k : Key) (i j : Nat) (h1 : i ≤ j) (h2 : j ≤ 78) : getField k i j (j - i) = .ok (Bips.slice k.bytes i j) := by
  rw [getField, keySlice_ok _ h1 h2, ok_bind, toArray_exact (slice_length _ _ _ (by rw [k.len]; exact h2))]

theorem isPrivate_ok (k : Key) : isPrivate k = .ok k.isPrivate := by
  rw [isPrivate, index_ok (by rw [k.len]; decide)]; rfl

theorem newMasterKey_ok (seed : Bytes) : newMasterKey H seed = .ok (Bips.newMasterKey H seed) := by
  unfold newMasterKey Bips.newMasterKey
  dsimp only
  rw [slice_ok (by omega) (by simp), ok_bind, toArray_exact (by rw [slice_length _ _ _ (by simp)]), ok_bind,
    slice_ok (by simp) (by simp), ok_bind, toArray_exact (by rw [slice_length _ _ _ (by simp)]; simp), ok_bind]
  cases validatePrivateKey (Bips.slice (H.hmacSha512 (str "Bitcoin seed") seed) 0 32) with
  | some err => rfl
  | none =>
    dsimp only
    rw [setVersion_ok, ok_bind, setChainCode_ok, ok_bind, setPvtKeyBytes_ok]
    rfl

theorem getIntermediary_ok (k : Key) (i : UInt32) : getIntermediary H k i = .ok (k.getIntermediary H i) := by
  unfold getIntermediary Key.getIntermediary
  rw [uint32Bytes_ok, ok_bind]
  dsimp only
  by_cases h : i ≥ firstHardenedChild
  · rw [if_pos h, if_pos h, keySlice_ok _ (by decide) (by decide), ok_bind, copyTo_ok _ (by decide) (by simp), ok_bind,
      keySlice_ok _ (by decide) (by decide)]
    rfl
  · rw [if_neg h, if_neg h, isPrivate_ok, ok_bind]
    cases k.isPrivate with
    | true =>
      rw [if_pos rfl, if_pos rfl, keySlice_ok _ (by decide) (by decide), ok_bind, copyTo_ok _ (by decide) (by simp), ok_bind,
        keySlice_ok _ (by decide) (by decide)]
      rfl
    | false =>
      rw [if_neg (by decide), if_neg (by decide), k.len, keySlice_ok _ (by decide) (by decide), ok_bind, copyTo_ok _ (by decide) (by simp),
        ok_bind, keySlice_ok _ (by decide) (by decide)]
      rfl

variable (R : Registry)

theorem hmac_slice_ok (key m : Bytes) {i j : Nat} (h1 : i ≤ j) (h2 : j ≤ 64) :
    slice (H.hmacSha512 key m) i j = .ok (Bips.slice (H.hmacSha512 key m) i j) := slice_ok h1 (by simpa using h2)

theorem intermediary_length (k : Key) (i : UInt32) : (k.getIntermediary H i).length = 64 := by
  simp [Key.getIntermediary]

theorem fingerprint_length (b : Bytes) : (hashRipeMD160onSha256 H b).length = 20 := by
  simp [hashRipeMD160onSha256, hashRipeMD160]

theorem index_depth (k : Key) : index k.bytes depthStart = .ok (k.byteAt depthStart) := index_ok (by rw [k.len]; decide)

theorem newChildKey_ok (k : Key) (i : UInt32) : newChildKey H R k i = .ok (k.newChildKey H R i) := by
  unfold newChildKey Key.newChildKey
  rw [isPrivate_ok, ok_bind]
  by_cases h0 : (!k.isPrivate && decide (i ≥ firstHardenedChild)) = true
  · rw [if_pos h0, if_pos h0]; rfl
  rw [if_neg h0, if_neg h0, getIntermediary_ok, ok_bind, version_ok,
    getUint32_ok (slice_length _ _ _ (by rw [k.len]; decide)), ok_bind]
  have hI := intermediary_length H k i
  dsimp only
  generalize k.getIntermediary H i = I at hI
  have hl : slice I 0 32 = .ok (Bips.slice I 0 32) := slice_ok (by omega) (by omega)
  generalize Bips.getUint32 (Bips.slice k.bytes versionStart versionEnd) = v
  by_cases hp : k.isPrivate = true
  · rw [if_pos hp, if_pos hp]
    by_cases hv : (R.pvtFlag v).length = 0
    · rw [if_pos hv, if_pos hv]; rfl
    rw [if_neg hv, if_neg hv]
    rw [uint32Bytes_ok, ok_bind, toArray_exact (uint32Bytes_length i), ok_bind, setChildNumber_ok, ok_bind, hI,
      slice_ok (by omega) (by omega), ok_bind, toArray_slice (by omega) (by decide), ok_bind, setChainCode_ok, ok_bind, index_depth, ok_bind,
      setDepth_ok, ok_bind, setVersion_ok, ok_bind, keySlice_ok _ (by decide) (by decide), ok_bind,
      toArray_ok (by rw [fingerprint_length]; decide), ok_bind, setFingerPrint_ok, ok_bind, hl, ok_bind, k.len,
      keySlice_ok _ (by decide) (by decide), ok_bind, addPrivateKeys_ok, ok_bind, toArray_ok (addPrivateKeys_length _ _), ok_bind,
      setPvtKeyBytes_ok, ok_bind]
    have hg := fun c : Key => getField_ok c pvtKeyStart pubKeyEnd (by decide) (by decide)
    rw [show pubKeyEnd - pvtKeyStart = 32 from rfl] at hg
    rw [hg, ok_bind]
    rfl
  · rw [if_neg hp, if_neg hp]
    cases hv : R.pubFlag v with
    | nil => rw [if_pos (by simp)]; rfl
    | cons hd rest =>
      rw [if_neg (by simp), index_ok (by simp), ok_bind, uint32Bytes_ok, ok_bind, toArray_exact (uint32Bytes_length i), ok_bind,
        setChildNumber_ok, ok_bind, hI, slice_ok (by omega) (by omega), ok_bind, toArray_slice (by omega) (by decide), ok_bind,
        setChainCode_ok, ok_bind, index_depth, ok_bind, setDepth_ok, ok_bind, setVersion_ok, ok_bind, ok_bind, hl, ok_bind,
        validateChild_ok (by rw [publicKeyForPrivateKey_length]; decide), ok_bind]
      dsimp only [List.getElem_cons_zero]
      cases Bips.validateChildPublicKey (publicKeyForPrivateKey (Bips.slice I 0 32)) with
      | some err => rfl
      | none =>
        dsimp only
        rw [k.len, keySlice_ok _ (by decide) (by decide), ok_bind, put_ok _ _ _ _ (by decide) (by decide), ok_bind,
          addPublicKeys_ok (by rw [publicKeyForPrivateKey_length]; decide) (by rw [slice_length _ _ _ (by rw [k.len])]; decide), ok_bind,
          toArray_ok (b := Bips.addPublicKeys _ _) (compress_length _), ok_bind, setPubKeyBytes_ok]
        rw [put_take _ fingerPrintStart fingerPrintEnd]
        rfl

theorem publicKeyExtended_ok (k : Key) : publicKeyExtended R k = .ok (k.publicKeyExtended R) := by
  unfold publicKeyExtended Key.publicKeyExtended
  rw [version_ok, getUint32_ok (slice_length _ _ _ (by rw [k.len]; decide)), ok_bind, isPrivate_ok, ok_bind]
  dsimp only
  generalize Bips.getUint32 (Bips.slice k.bytes versionStart versionEnd) = v
  by_cases hp : k.isPrivate = true
  · rw [if_pos hp, if_pos hp, k.len]
    cases R.pvtFlag v with
    | nil =>
      rw [if_pos (by simp), pure_eq, ok_bind, keySlice_ok _ (by decide) (by decide), ok_bind, put_ok _ _ _ _ (by decide) (by decide), ok_bind,
        setVersion_ok]
    | cons hd rest =>
      rw [if_neg (by simp), index_ok (by simp), ok_bind, pure_eq, ok_bind, keySlice_ok _ (by decide) (by decide), ok_bind,
        put_ok _ _ _ _ (by decide) (by decide), ok_bind, setVersion_ok]
      rfl
  · rw [if_neg hp, if_neg hp, setVersion_ok]
    cases R.pubFlag v with
    | nil => rw [if_pos (by simp)]
    | cons hd rest => rw [if_neg (by simp)]

theorem privateKeyHex_ok (k : Key) : privateKeyHex k = .ok k.privateKeyHex := by
  unfold privateKeyHex Key.privateKeyHex
  rw [isPrivate_ok, ok_bind]
  by_cases hp : k.isPrivate = true
  · rw [if_pos hp, if_pos hp, keySlice_ok _ (by decide) (by decide)]; rfl
  · rw [if_neg hp, if_neg hp]; rfl

theorem publicKeyHex_ok (k : Key) : publicKeyHex R k = .ok (k.publicKeyHex R) := by
  unfold publicKeyHex Key.publicKeyHex
  rw [isPrivate_ok, ok_bind]
  by_cases hp : k.isPrivate = true
  · rw [if_pos hp, if_pos hp, publicKeyExtended_ok, ok_bind, keySlice_ok _ (by decide) (by decide)]; rfl
  · rw [if_neg hp, if_neg hp, keySlice_ok _ (by decide) (by decide)]; rfl

theorem serialize_ok (k : Key) : serialize H k = .ok (k.serialize H) := by
  unfold serialize Key.serialize
  split
  · rfl
  · rw [addChecksum32_ok]; rfl

theorem b58Serialize_ok (k : Key) : b58Serialize H k = .ok (k.b58Serialize H) := by
  unfold b58Serialize Key.b58Serialize
  rw [serialize_ok, ok_bind]
  rcases k.serialize H with ⟨s, _ | e⟩ <;> rfl

theorem compareLoop_ok (a b : Bytes) (is : List Nat) (h : ∀ i ∈ is, i < a.length ∧ i < b.length) :
    compareLoop a b is = .ok (is.all fun i => a[i]? == b[i]?) := by
  induction is with
  | nil => rfl
  | cons i is ih =>
    obtain ⟨h1, h2⟩ := h i (by simp)
    rw [compareLoop, index_ok h1, ok_bind, index_ok h2, ok_bind, List.all_cons, List.getElem?_eq_getElem h1, List.getElem?_eq_getElem h2]
    by_cases he : a[i] = b[i]
    · rw [if_neg (by simpa using he), ih fun j hj => h j (by simp [hj])]
      simp [he]
    · rw [if_pos he]
      simp [pure_eq, he]

theorem deserialize_ok (data : Bytes) : deserialize H data = .ok (Bips.deserialize H data) := by
  have hk : ∀ d : Bytes, (h : 78 ≤ d.length) → (slice d 0 78 >>= toKey) = .ok (Key.ofBytes d h) := by
    intro d h
    rw [slice_ok (by omega) h, ok_bind, toKey, dif_pos (by rw [slice_length _ _ _ h])]
    congr 1
    apply Key.ext'
    simp [Key.ofBytes, Bips.slice]
  have hk' : ∀ {α : Type} (d : Bytes) (h : 78 ≤ d.length) (f : Key → Outcome α),
      (slice d 0 78 >>= fun d => toKey d >>= f) = f (Key.ofBytes d h) := by
    intro α d h f
    have := hk d h
    rw [slice_ok (by omega) h, ok_bind] at this ⊢
    rw [this, ok_bind]
  unfold deserialize Bips.deserialize
  by_cases h : data.length ≠ 82
  · rw [if_pos h, dif_pos h]
    by_cases hlt : data.length < 82
    · rw [if_pos hlt, dif_pos hlt, make_ok _ (by omega), ok_bind, pure_eq, ok_bind]
      have e : ((82 : Int) - (data.length : Int)).toNat = 82 - data.length := by omega
      rw [e]
      exact hk' _ (by rw [List.length_append, List.length_replicate]; omega) _
    · rw [if_neg hlt, dif_neg hlt, pure_eq, ok_bind]
      exact hk' _ (by omega) _
  · rw [if_neg h, dif_neg h]
    have h82 : data.length = 82 := by omega
    rw [slice_ok (by omega) (by omega), ok_bind, checksum_ok, ok_bind, slice_ok (by omega) (by omega), ok_bind, compareLoop_ok, ok_bind,
      hk' _ (by omega)]
    · dsimp only
      rw [checksumMatches]
      split <;> rfl
    · intro i hi
      have h4 : (Bips.checksumDblSha256 H (Bips.slice data 0 (data.length - 4))).length = 4 := by simp [Bips.checksumDblSha256]
      rw [h4] at hi ⊢
      rw [slice_length _ _ _ (by omega)]
      have := List.mem_range.1 hi
      omega

theorem isValid_ok (k : Key) : isValid H k = .ok (k.isValid H) := by
  unfold isValid Key.isValid
  rw [serialize_ok, ok_bind]
  rcases k.serialize H with ⟨s, _ | e⟩
  · dsimp only
    rw [deserialize_ok, ok_bind]
    rcases Bips.deserialize H s with ⟨d, _ | e⟩ <;> rfl
  · rfl

/-! ### bip32/path.go -/

theorem valuesAtDepth_ok (p : Bytes) : valuesAtDepth p = .ok (Bips.valuesAtDepth p) := by
  unfold valuesAtDepth Bips.valuesAtDepth
  split
  · rfl
  · have : 1 ≤ (splitByte 47 (pathString p)).length := List.length_pos_of_ne_nil (splitByte_ne_nil _ _)
    dsimp only
    rw [if_pos this, ok_bind]
    rfl

theorem pathIsValid_ok (p : Bytes) : pathIsValid p = .ok (Bips.pathIsValid p) := by
  rw [pathIsValid, valuesAtDepth_ok]; rfl

theorem valueAtDepth_ok (p : Bytes) (b : UInt8) : valueAtDepth p b = Bips.valueAtDepth p b := by
  unfold valueAtDepth Bips.valueAtDepth
  rw [valuesAtDepth_ok, ok_bind]
  rcases Bips.valuesAtDepth p with ⟨vals, _ | e⟩
  · dsimp only
    split
    · rfl
    · rw [index]
      cases vals[b.toNat]? <;> rfl
  · rfl

theorem replaceValueAtDepth_ok (p : Bytes) (b : UInt8) (val : UInt32) : replaceValueAtDepth p b val = Bips.replaceValueAtDepth p b val := by
  unfold replaceValueAtDepth Bips.replaceValueAtDepth
  rw [valuesAtDepth_ok, ok_bind]
  rcases Bips.valuesAtDepth p with ⟨vals, _ | e⟩
  · dsimp only
    split
    · rfl
    · rw [assign]
      split <;> rfl
  · rfl

/-- `ReplaceValueAtDepth` does not panic. -/
theorem replaceValueAtDepth_ne (p : Bytes) (b : UInt8) (val : UInt32) : Bips.replaceValueAtDepth p b val ≠ .panic := by
  unfold Bips.replaceValueAtDepth
  by_cases hp : Bips.pathIsValid p = true
  · obtain ⟨cs, h1, h2, h3⟩ := valuesAtDepth_valid hp
    rw [h3]
    dsimp only
    split
    · simp
    · rename_i hb
      rw [if_pos]
      · simp
      · rw [valuesAtDepth_length h1]
        rw [not_not, UInt8.lt_iff_toNat_lt, UInt8.toNat_ofNat'] at hb
        simp only [List.length_cons, List.length_map] at hb
        exact lt_of_lt_of_le hb (Nat.mod_le _ _)
  · rcases hv : Bips.valuesAtDepth p with ⟨vals, _ | e⟩
    · exact absurd (by simp [Bips.pathIsValid, hv]) hp
    · simp

/-! ### bip39/bip39.go -/

theorem padByteSlice_ok (s : Bytes) (n : Nat) : padByteSlice s n = .ok (Bips.padByteSlice s n) := by
  unfold padByteSlice Bips.padByteSlice
  by_cases h : n ≤ s.length
  · rw [if_pos h]
    dsimp only
    rw [if_pos (by omega)]; rfl
  · rw [if_neg h]
    dsimp only
    rw [if_neg (by omega), make_ok _ (by omega), ok_bind]
    have e : ((n : Int) - (s.length : Int)).toNat = n - s.length := by omega
    rw [e, Int.toNat_natCast, copyTo_ok _ (by simp) (by simp), copyAt]
    congr 1
    rw [List.take_replicate, Nat.min_eq_left (by omega), List.length_replicate, List.take_of_length_le (by omega), List.drop_replicate]
    rw [show n - (n - s.length + min (n - (n - s.length)) s.length) = 0 by omega]
    simp

theorem addChecksum_ok (data : Bytes) : addChecksum H data = .ok (Bips.addChecksum H data) := by
  have h : 0 < (computeChecksum H data).length := by simp [computeChecksum]
  unfold addChecksum Bips.addChecksum
  rw [index_ok h, ok_bind]
  rw [List.headD_eq_head?_getD, List.head?_eq_getElem?, List.getElem?_eq_getElem h]
  rfl

theorem newEntropy_ok (read : Nat → Bytes) (n : Int) : newEntropy read n = .ok (Bips.newEntropy read n) := by
  unfold newEntropy Bips.newEntropy
  cases hv : validateEntropyBitSize n with
  | some e => rfl
  | none =>
    have : 0 ≤ n := by
      unfold validateEntropyBitSize at hv
      split at hv
      · cases hv
      · omega
    dsimp only
    rw [make_ok _ (Int.tdiv_nonneg this (by decide)), ok_bind, List.length_replicate]
    rfl

theorem decodeWords_ok (map : Bytes → Option Nat) (ws : List Bytes) (wb : Bytes) (hwb : wb.length = 2) (b : Nat) :
    decodeWords map ws wb b = .ok (Bips.decodeWords map ws b) := by
  induction ws generalizing wb b with
  | nil => rfl
  | cons v vs ih =>
    rw [decodeWords, Bips.decodeWords]
    cases map v with
    | none => rfl
    | some i =>
      dsimp only
      rw [putUint, if_pos (by omega), ok_bind, List.drop_eq_nil_of_le (by omega), List.append_nil, ih _ (by simp)]

theorem entropyFromMnemonic_ok (S : WordState) (m : Bytes) : entropyFromMnemonic H S m = Bips.entropyFromMnemonic H S m := by
  unfold entropyFromMnemonic Bips.entropyFromMnemonic
  rcases hs : splitMnemonicWords m with ⟨ws, _ | _⟩
  · rfl
  · dsimp only
    rw [decodeWords_ok _ _ _ rfl, ok_bind]
    rcases Bips.decodeWords S.map ws 0 with b | e
    swap
    · rfl
    dsimp only
    cases checksumMask ws.length with
    | none => rfl
    | some mask =>
      rw [deref, ok_bind]
      dsimp only
      rw [div_ok (by omega), ok_bind]
      have e : ((ws.length : Int) / 3 * 4) = ((ws.length / 3 * 4 : Nat) : Int) := by omega
      rw [e, padByteSlice_ok, ok_bind]
      generalize Bips.padByteSlice (bigBytes (b / (mask + 1))) (ws.length / 3 * 4) = en
      have h : 0 < (computeChecksum H en).length := by simp [computeChecksum]
      have hd : (computeChecksum H en).headD 0 = (computeChecksum H en)[0] := by
        rw [List.headD_eq_head?_getD, List.head?_eq_getElem?, List.getElem?_eq_getElem h]; rfl
      rw [index_ok h, ok_bind, hd]
      generalize (computeChecksum H en)[0] = first
      by_cases h24 : ws.length ≠ 24
      · rw [if_pos h24, if_pos h24]
        cases hsh : checksumShift ws.length with
        | none => rfl
        | some sh =>
          have : sh ≠ 0 := by
            unfold checksumShift at hsh
            split at hsh <;> simp at hsh <;> omega
          rw [deref, ok_bind, div_ok this, ok_bind]
          dsimp only
          split <;> rfl
      · rw [if_neg h24, if_neg h24, pure_eq, ok_bind]
        split <;> rfl

theorem encodeWords_ok (list : List Bytes) (k n : Nat) (acc : List Bytes) :
    encodeWords list k n (List.replicate k [] ++ acc) = Bips.encodeWords list k n acc := by
  induction k generalizing n acc with
  | zero => rfl
  | succ k ih =>
    rw [encodeWords, Bips.encodeWords]
    rw [div_ok (by decide), ok_bind]
    have hp := padByteSlice_ok (bigBytes (n &&& 2047)) 2
    rw [Nat.cast_ofNat] at hp
    rw [hp, ok_bind]
    have h2 : (Bips.padByteSlice (bigBytes (n &&& 2047)) 2).length = 2 := by
      have : (bigBytes (n &&& 2047)).length ≤ 2 := bigBytes_length_le (lt_of_le_of_lt Nat.and_le_right (by decide))
      rw [padByteSlice_eq, padLeft, List.length_append, List.length_replicate]
      omega
    rw [getUint16, if_pos (by omega), ok_bind, List.take_of_length_le (by omega), index]
    cases list[setBytes (Bips.padByteSlice (bigBytes (n &&& 2047)) 2)]? with
    | none => rfl
    | some w =>
      dsimp only
      rw [ok_bind, assign, if_pos (by simp; omega), ok_bind]
      have : (List.replicate (k + 1) [] ++ acc).set k w = List.replicate k [] ++ w :: acc := by
        rw [List.replicate_succ', List.append_assoc, List.set_append_right _ _ (by simp)]
        simp
      rw [this, ih]

theorem newMnemonic_ok (S : WordState) (e : Bytes) : newMnemonic H S e = Bips.newMnemonic H S e := by
  unfold newMnemonic Bips.newMnemonic
  dsimp only
  cases validateEntropyBitSize ((e.length * 8 : Nat) : Int) with
  | some e => rfl
  | none =>
    dsimp only
    generalize (e.length * 8 + e.length * 8 / 32) / 11 = n
    rw [addChecksum_ok, ok_bind, make_ok _ (by omega), ok_bind, Int.toNat_natCast]
    have := encodeWords_ok S.list n (setBytes (Bips.addChecksum H e)) []
    rw [List.append_nil] at this
    rw [this]
    cases Bips.encodeWords S.list n (setBytes (Bips.addChecksum H e)) [] <;> rfl

theorem mnemonicToByteArray_ok (S : WordState) (m : Bytes) (raw : List Bool) :
    mnemonicToByteArray H S m raw = Bips.mnemonicToByteArray H S m raw := by
  unfold mnemonicToByteArray Bips.mnemonicToByteArray
  dsimp only
  rw [entropyFromMnemonic_ok]
  rcases Bips.entropyFromMnemonic H S m with ⟨r, _ | e⟩ | _
  · rw [ok_bind]
    dsimp only
    cases raw with
    | nil =>
      rw [if_neg (by simp), pure_eq, ok_bind, if_neg (by simp), addChecksum_ok, ok_bind, padByteSlice_ok, ok_bind]
      rfl
    | cons x raw =>
      rw [if_pos (by simp), index_ok (by simp), ok_bind]
      cases x with
      | true => rfl
      | false =>
        rw [if_neg (by simp), addChecksum_ok, ok_bind, padByteSlice_ok, ok_bind]
        rfl
  · rfl
  · rfl

/-! ### util -/

theorem generateMnemonic_ok (S : WordState) (read : Nat → Bytes) (n : UInt8) :
    generateMnemonic H S read n = Bips.generateMnemonic H S read n := by
  unfold generateMnemonic Bips.generateMnemonic
  dsimp only
  have h : ∀ bitSize : Int, (do
      let e ← newEntropy read bitSize
      match e with
      | (_, some e) => pure (([] : Bytes), some e)
      | (bs, none) => do
        let m ← newMnemonic H S bs
        match m with
        | (_, some e) => pure ([], some e)
        | (mnemonic, none) => pure (mnemonic, none)) = (match Bips.newEntropy read bitSize with
      | (_, some e) => Outcome.ok (([] : Bytes), some e)
      | (bs, none) =>
        match Bips.newMnemonic H S bs with
        | .panic => .panic
        | .ok (_, some e) => .ok ([], some e)
        | .ok (mnemonic, none) => .ok (mnemonic, none)) := by
    intro bitSize
    rw [newEntropy_ok, ok_bind]
    rcases Bips.newEntropy read bitSize with ⟨bs, _ | e⟩
    · dsimp only
      rw [newMnemonic_ok]
      rcases Bips.newMnemonic H S bs with ⟨m, _ | e⟩ | _ <;> rfl
    · rfl
  by_cases h1 : n = 12
  · rw [if_pos h1, if_pos h1]; exact h 128
  rw [if_neg h1, if_neg h1]
  by_cases h2 : n = 15
  · rw [if_pos h2, if_pos h2]; exact h 160
  rw [if_neg h2, if_neg h2]
  by_cases h3 : n = 18
  · rw [if_pos h3, if_pos h3]; exact h 192
  rw [if_neg h3, if_neg h3]
  by_cases h4 : n = 21
  · rw [if_pos h4, if_pos h4]; exact h 224
  rw [if_neg h4, if_neg h4]
  by_cases h5 : n = 24
  · rw [if_pos h5, if_pos h5]; exact h 256
  rw [if_neg h5, if_neg h5]
  rfl

theorem deriveSeed_ok (S : WordState) (m p : Bytes) : deriveSeedFromMnemonic H S m p = Bips.deriveSeedFromMnemonic H S m p := by
  unfold deriveSeedFromMnemonic Bips.deriveSeedFromMnemonic
  rw [entropyFromMnemonic_ok]
  rcases Bips.entropyFromMnemonic H S m with ⟨r, _ | e⟩ | _ <;> rfl

theorem rootKeyFromSeed_ok (seed : Bytes) : rootKeyFromSeed H seed = Bips.rootKeyFromSeed H seed := by
  unfold rootKeyFromSeed Bips.rootKeyFromSeed
  cases hexDecode seed with
  | none => rfl
  | some b =>
    dsimp only
    split
    · rfl
    · rw [newMasterKey_ok, ok_bind]
      cases (Bips.newMasterKey H b).1 with
      | none => rfl
      | some k =>
        rw [deref, ok_bind, serialize_ok, ok_bind]
        dsimp only
        rcases k.serialize H with ⟨s, _ | e⟩
        · dsimp only
          rw [deserialize_ok, ok_bind]
          rcases Bips.deserialize H s with ⟨d, _ | e⟩ <;> rfl
        · rfl

theorem deriveLoop_ok (vals : List UInt32) (d : Bytes) (k : Key) (acc : List KeyPath) :
    deriveLoop H R vals d k acc = .ok (acc ++ Bips.deriveLoop H R vals d k) := by
  induction vals generalizing d k acc with
  | nil => simp [deriveLoop, Bips.deriveLoop, pure_eq]
  | cons v vals ih =>
    rw [deriveLoop, Bips.deriveLoop]
    rw [newChildKey_ok, ok_bind, ih, List.append_assoc]
    rfl

theorem deriveBIP32Result_ok (k : Key) (p : Bytes) : deriveBIP32Result H R k p = .ok (Bips.deriveBIP32Result H R k p) := by
  unfold deriveBIP32Result Bips.deriveBIP32Result
  have hbad : rootRefused H k = .ok (!k.isValid H || !k.isPrivate || k.byteAt depthStart != 0) := by
    rw [rootRefused]
    rw [isValid_ok, ok_bind]
    cases k.isValid H with
    | false => rfl
    | true =>
      rw [if_neg (by simp), isPrivate_ok, ok_bind]
      cases k.isPrivate with
      | false => rfl
      | true => rw [if_neg (by simp), index_depth, ok_bind]; rfl
  rw [hbad, ok_bind]
  split
  · rfl
  · rw [pathIsValid_ok, ok_bind]
    split
    · rfl
    · rw [valuesAtDepth_ok, ok_bind]
      rcases Bips.valuesAtDepth p with ⟨items, _ | e⟩
      · dsimp only
        rw [make_ok _ (by decide), ok_bind, assign, if_pos (by simp), ok_bind]
        split
        · rename_i h
          rw [if_pos (by omega), ok_bind, deriveLoop_ok]
          rfl
        · rfl
      · rfl

theorem addrHex_ok (b : KeyPath) : addrHex H R b = .ok (b.addrHex H R) := by
  unfold addrHex KeyPath.addrHex
  rw [publicKeyHex_ok, ok_bind]
  have hne : ∀ pbs, hexDecode (b.key.publicKeyHex R) = some pbs → 0 < pbs.length := by
    intro pbs h
    unfold Key.publicKeyHex at h
    split at h <;>
      · rw [hexDecode_hexEncode] at h
        rw [← Option.some.inj h, slice_length _ _ _ (by rw [Key.len])]
        decide
  cases h : hexDecode (b.key.publicKeyHex R) with
  | none => rfl
  | some pbs =>
    dsimp only
    rw [expand_ok' (hne _ h), ok_bind, slice_ok (by simp) (by simp), ok_bind]
    rw [Bips.slice, List.take_of_length_le (by omega)]
    rfl

theorem addrP2SH_ok (b : KeyPath) (v : UInt8) : addrP2SH H R b v = .ok (b.addrP2SH H R v) := by
  unfold addrP2SH KeyPath.addrP2SH
  rw [publicKeyHex_ok, ok_bind]
  cases hexDecode (b.key.publicKeyHex R) with
  | none => rfl
  | some pbs =>
    dsimp only
    rw [checksum_ok]; rfl

theorem rangeLoop_ok (i e : UInt32) (d : Bytes) (k : Key) (acc : List KeyPath) :
    rangeLoop H R i e d k acc = .ok (acc ++ Bips.rangeLoop H R i e d k) := by
  fun_induction Bips.rangeLoop H R i e d k generalizing acc with
  | case1 i d k h d' k' ih =>
    rw [rangeLoop, dif_pos h, newChildKey_ok, ok_bind, ih, List.append_assoc]
    rfl
  | case2 i d k h =>
    rw [rangeLoop, dif_neg h, List.append_nil]; rfl

theorem generateRange_ok (k : KeyPathRange) : generateRange H R k = .ok (k.generateRange H R) := by
  unfold generateRange KeyPathRange.generateRange
  split
  · rfl
  · rw [isValid_ok, ok_bind]
    split
    · rfl
    · rw [pathIsValid_ok, ok_bind]
      split
      · rfl
      · rw [make_ok _ (by decide), ok_bind, rangeLoop_ok, ok_bind]
        rfl

end

end Chk

/-- **C94**, package bip32, keys: on every key, registered version or not, well-formed or not, on every byte string and every index, no
check fails, and the result is that of the unchecked model. -/
theorem C94_keys (H : Hashes) (R : Registry) (k : Key) (i : UInt32) (seed data v : Bytes) :
    Chk.newMasterKey H seed = .ok (newMasterKey H seed) ∧
    Chk.newChildKey H R k i = .ok (k.newChildKey H R i) ∧
    Chk.publicKeyExtended R k = .ok (k.publicKeyExtended R) ∧
    Chk.isPrivate k = .ok k.isPrivate ∧ Chk.isValid H k = .ok (k.isValid H) ∧
    Chk.privateKeyHex k = .ok k.privateKeyHex ∧ Chk.publicKeyHex R k = .ok (k.publicKeyHex R) ∧
    Chk.serialize H k = .ok (k.serialize H) ∧ Chk.b58Serialize H k = .ok (k.b58Serialize H) ∧
    Chk.deserialize H data = .ok (deserialize H data) ∧ Chk.b58Deserialize H data = .ok (b58Deserialize H data) ∧
    Chk.setVersion k v = .ok (k.setVersion v) ∧ Chk.setVersionUint32 k i = .ok (k.setVersionUint32 i) ∧
    Chk.getVersion k = .ok k.getVersion ∧
    Chk.getField k chainCodeStart chainCodeEnd 32 = .ok k.getChainCode ∧
    Chk.getField k fingerPrintStart fingerPrintEnd 4 = .ok k.getFingerPrint ∧
    Chk.getField k depthStart depthEnd 1 = .ok k.getDepth ∧
    Chk.getField k pvtKeyStart pubKeyEnd 32 = .ok k.getPvtKeyBytes ∧
    Chk.getField k pubKeyStart pubKeyEnd 33 = .ok k.getKeyBytes ∧
    Chk.getField k childNumberStart childNumberEnd 4 = .ok k.getChildNumber :=
  ⟨Chk.newMasterKey_ok H seed, Chk.newChildKey_ok H R k i, Chk.publicKeyExtended_ok R k, Chk.isPrivate_ok k, Chk.isValid_ok H k,
    Chk.privateKeyHex_ok k, Chk.publicKeyHex_ok R k, Chk.serialize_ok H k, Chk.b58Serialize_ok H k, Chk.deserialize_ok H data,
    Chk.deserialize_ok H _, Chk.setVersion_ok k v, Chk.setVersionUint32_ok k i, Chk.getVersion_ok k,
    Chk.getField_ok k _ _ (by decide) (by decide), Chk.getField_ok k _ _ (by decide) (by decide),
    Chk.getField_ok k _ _ (by decide) (by decide), Chk.getField_ok k _ _ (by decide) (by decide),
    Chk.getField_ok k _ _ (by decide) (by decide), Chk.getField_ok k _ _ (by decide) (by decide)⟩

/-- **C94**: `ExpandPublicKey` crashes on the empty slice and on nothing else. -/
theorem C94_expandPublicKey (key : Bytes) : Chk.expandPublicKey key = .panic ↔ key = [] := by
  rw [Chk.expand_ok]
  cases key <;> simp [expandPublicKeyGo]

/-- **C94**, paths and registry entries: no text crashes any function, whatever depth is asked for. -/
theorem C94_paths (p : Bytes) (b : UInt8) (val : UInt32) (h : VersionBytes) :
    Chk.valuesAtDepth p = .ok (valuesAtDepth p) ∧ Chk.pathIsValid p = .ok (pathIsValid p) ∧
    (∃ r, valueAtDepth p b = .ok r ∧ Chk.valueAtDepth p b = .ok r) ∧
    (∃ r, replaceValueAtDepth p b val = .ok r ∧ Chk.replaceValueAtDepth p b val = .ok r) ∧
    h.purposeVal ≠ .panic ∧ h.purposeValFull ≠ .panic ∧ h.coinVal ≠ .panic ∧ h.coinValFull ≠ .panic := by
  refine ⟨Chk.valuesAtDepth_ok p, Chk.pathIsValid_ok p, ?_, ?_, ?_⟩
  · rw [Chk.valueAtDepth_ok]
    cases hv : valueAtDepth p b with
    | panic => exact absurd hv (C39_valueAtDepth_exact p b).2.2
    | ok r => exact ⟨r, rfl, rfl⟩
  · rw [Chk.replaceValueAtDepth_ok]
    cases hv : replaceValueAtDepth p b val with
    | panic => exact absurd hv (Chk.replaceValueAtDepth_ne p b val)
    | ok r => exact ⟨r, rfl, rfl⟩
  · obtain ⟨h1, h2⟩ := C54_purpose_coin h
    by_cases hx : ∃ d1 d2, Digits8 d1 ∧ Digits8 d2 ∧ stripSpace h.path = twoLevel d1 d2
    · obtain ⟨d1, d2, a, b, c⟩ := hx
      obtain ⟨-, e1, e2, e3, e4⟩ := h1 d1 d2 a b c
      by_cases hd1 : d1 = []
      · rw [(e2 hd1).1, (e2 hd1).2]
        by_cases hd2 : d2 = []
        · rw [(e4 hd2).1, (e4 hd2).2]; simp
        · rw [(e3 hd2).2.1, (e3 hd2).2.2]; simp
      · rw [(e1 hd1).2.1, (e1 hd1).2.2]
        by_cases hd2 : d2 = []
        · rw [(e4 hd2).1, (e4 hd2).2]; simp
        · rw [(e3 hd2).2.1, (e3 hd2).2.2]; simp
    · obtain ⟨-, e1, e2, e3, e4⟩ := h2 hx
      rw [e1, e2, e3, e4]; simp

/-- **C94**, package bip39: with any list set, reading mnemonics and making entropy does not crash; `NewMnemonic` crashes exactly when
the size of the entropy is right and its sentence needs a word the list does not have. -/
theorem C94_mnemonics (H : Hashes) (S : WordState) (m e : Bytes) (raw : List Bool) (read : Nat → Bytes) (n : Int) :
    Chk.newEntropy read n = .ok (newEntropy read n) ∧
    (∃ r, entropyFromMnemonic H S m = .ok r ∧ Chk.entropyFromMnemonic H S m = .ok r) ∧
    (∃ r, mnemonicToByteArray H S m raw = .ok r ∧ Chk.mnemonicToByteArray H S m raw = .ok r) ∧
    Chk.newMnemonic H S e = newMnemonic H S e ∧
    (Chk.newMnemonic H S e = .panic ↔ e.length ∈ entropySizes ∧ ∀ ws, ¬ Encodes H.sha256 S.list e ws) := by
  obtain ⟨h1, h2, -⟩ := C80_no_panic H S m [] raw
  refine ⟨Chk.newEntropy_ok read n, ?_, ?_, Chk.newMnemonic_ok H S e, ?_⟩
  · rw [Chk.entropyFromMnemonic_ok]
    cases hv : entropyFromMnemonic H S m with
    | panic => exact absurd hv h1
    | ok r => exact ⟨r, rfl, rfl⟩
  · rw [Chk.mnemonicToByteArray_ok]
    cases hv : mnemonicToByteArray H S m raw with
    | panic => exact absurd hv h2
    | ok r => exact ⟨r, rfl, rfl⟩
  · rw [Chk.newMnemonic_ok]
    exact (C80_newMnemonic H S e).2.2

/-- **C94**, package util: a seed text, a root key, a path, a range, a key do not crash it, except that `RootKeyFromSeed` crashes on
seeds of 16 bytes or more whose HMAC starts with an invalid private key, and `GenerateMnemonic` where `NewMnemonic` does. -/
theorem C94_util (H : Hashes) (R : Registry) (S : WordState) (m p seed path : Bytes) (root : Key) (b : KeyPath) (v : UInt8)
    (k : KeyPathRange) (read : Nat → Bytes) (hread : ∀ n, (read n).length = n) :
    (∃ r, deriveSeedFromMnemonic H S m p = .ok r ∧ Chk.deriveSeedFromMnemonic H S m p = .ok r) ∧
    Chk.rootKeyFromSeed H seed = rootKeyFromSeed H seed ∧
    (Chk.rootKeyFromSeed H seed = .panic ↔ ∃ b, hexDecode seed = some b ∧ 16 ≤ b.length ∧
      (parse256 ((H.hmacSha512 (str "Bitcoin seed") b).take 32) = 0 ∨
        secpN ≤ parse256 ((H.hmacSha512 (str "Bitcoin seed") b).take 32))) ∧
    Chk.deriveBIP32Result H R root path = .ok (deriveBIP32Result H R root path) ∧
    Chk.addrHex H R b = .ok (b.addrHex H R) ∧ Chk.addrP2SH H R b v = .ok (b.addrP2SH H R v) ∧
    Chk.generateRange H R k = .ok (k.generateRange H R) ∧
    Chk.generateMnemonic H S read v = generateMnemonic H S read v ∧
    (Chk.generateMnemonic H S read v = .panic ↔
      v.toNat ∈ sentenceLengths ∧ ∀ ws, ¬ Encodes H.sha256 S.list (read (v.toNat / 3 * 4)) ws) := by
  refine ⟨?_, Chk.rootKeyFromSeed_ok H seed, ?_, Chk.deriveBIP32Result_ok H R root path, Chk.addrHex_ok H R b, Chk.addrP2SH_ok H R b v,
    Chk.generateRange_ok H R k, Chk.generateMnemonic_ok H S read v, ?_⟩
  · rw [Chk.deriveSeed_ok]
    cases hv : deriveSeedFromMnemonic H S m p with
    | panic => exact absurd hv (C80_no_panic H S m p []).2.2.2.2
    | ok r => exact ⟨r, rfl, rfl⟩
  · rw [Chk.rootKeyFromSeed_ok]
    exact C44_panic_iff H seed
  · rw [Chk.generateMnemonic_ok]
    have key : ∀ k : Nat, 4 ≤ k → k ≤ 8 → ((match newEntropy read ((32 * k : Nat) : Int) with
        | (_, some e) => Outcome.ok (([] : Bytes), some e)
        | (bs, none) =>
          match newMnemonic H S bs with
          | .panic => .panic
          | .ok (_, some e) => .ok ([], some e)
          | .ok (mnemonic, none) => .ok (mnemonic, none)) = .panic ↔
        ∀ ws, ¬ Encodes H.sha256 S.list (read (4 * k)) ws) := by
      intro k h1 h2
      have hs : (read (4 * k)).length ∈ entropySizes := by
        rw [hread, entropySizes_iff]; exact ⟨k, rfl, h1, h2⟩
      have he : newEntropy read ((32 * k : Nat) : Int) = (read (4 * k), none) := by
        have h8 : (((32 * k : Nat) : Int)).tdiv 8 = ((4 * k : Nat) : Int) := by
          rw [Int.tdiv_eq_ediv_of_nonneg (by omega)]; omega
        have hv := (validate_none_iff (4 * k)).2 (by rw [hread] at hs; exact hs)
        rw [show 4 * k * 8 = 32 * k by omega] at hv
        rw [newEntropy, hv]
        dsimp only
        rw [h8, Int.toNat_natCast]
      rw [he]
      dsimp only
      have := (C80_newMnemonic H S (read (4 * k))).2.2
      constructor
      · intro h
        refine (this.1 ?_).2
        rcases hm : newMnemonic H S (read (4 * k)) with ⟨r, _ | e⟩ | _
        · rw [hm] at h; cases h
        · rw [hm] at h; cases h
        · rfl
      · intro h
        rw [this.2 ⟨hs, h⟩]
    rw [generateMnemonic]
    dsimp only
    by_cases h1 : v = 12
    · rw [if_pos h1]; subst h1
      exact (key 4 (by omega) (by omega)).trans ⟨fun h => ⟨by decide, h⟩, fun h => h.2⟩
    rw [if_neg h1]
    by_cases h2 : v = 15
    · rw [if_pos h2]; subst h2
      exact (key 5 (by omega) (by omega)).trans ⟨fun h => ⟨by decide, h⟩, fun h => h.2⟩
    rw [if_neg h2]
    by_cases h3 : v = 18
    · rw [if_pos h3]; subst h3
      exact (key 6 (by omega) (by omega)).trans ⟨fun h => ⟨by decide, h⟩, fun h => h.2⟩
    rw [if_neg h3]
    by_cases h4 : v = 21
    · rw [if_pos h4]; subst h4
      exact (key 7 (by omega) (by omega)).trans ⟨fun h => ⟨by decide, h⟩, fun h => h.2⟩
    rw [if_neg h4]
    by_cases h5 : v = 24
    · rw [if_pos h5]; subst h5
      exact (key 8 (by omega) (by omega)).trans ⟨fun h => ⟨by decide, h⟩, fun h => h.2⟩
    rw [if_neg h5]
    refine ⟨fun h => (by cases h), fun h => ?_⟩
    obtain ⟨k, hk, hk1, hk2⟩ := (sentenceLengths_iff _).1 h.1
    exfalso
    have hh : ∀ w : UInt8, v ≠ w → v.toNat ≠ w.toNat := fun w hw e => hw (UInt8.toNat_inj.1 e)
    have a1 := hh 12 h1
    have a2 := hh 15 h2
    have a3 := hh 18 h3
    have a4 := hh 21 h4
    have a5 := hh 24 h5
    simp only [UInt8.reduceToNat] at a1 a2 a3 a4 a5
    omega

/-- The crashes occur: a list of one word and entropy that needs word number 2047; a seed whose HMAC starts with 32 zero bytes; and an
empty slice. The same seed with an HMAC that starts with 1 gives a key, and malformed keys are no reason to crash. -/
example : Chk.newMnemonic (hashesIL 0) (setWordList [str "abandon"]) (List.replicate 16 255) = .panic ∧
    Chk.newMnemonic (hashesIL 0) (setWordList [str "abandon"]) (List.replicate 16 0) =
      .ok ([32].intercalate (List.replicate 12 (str "abandon")), none) ∧
    Chk.rootKeyFromSeed (hashesIL 0) (List.replicate 32 48) = .panic ∧
    Chk.rootKeyFromSeed (hashesIL 1) (List.replicate 32 48) ≠ .panic ∧
    Chk.expandPublicKey [] = .panic ∧
    Chk.newChildKey (hashesIL 1) {} Key.zero 7 = .ok (Key.zero, some .unSupportedHDVersionBytes) := by
  refine ⟨by decide +kernel, by decide +kernel, by decide +kernel, by decide +kernel, rfl, ?_⟩
  rw [Chk.newChildKey_ok]
  decide +kernel

end Bips
