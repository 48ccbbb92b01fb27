import Verif.Model.Child
import Verif.Lemmas.Point
import Verif.Props.Serial
import Verif.Props.Registry

/-! Lemmas about `NewMasterKey`, `NewChildKey`, `PublicKeyExtended`. -/

namespace Bips
open Spec

theorem copyAt_all (b src : Bytes) (h : src.length = b.length) : copyAt b 0 b.length src = src := by
  have := slice_copyAt_same b 0 b.length src (by simpa using h) (Nat.zero_le _) le_rfl
  have hl := copyAt_length b 0 b.length src (Nat.zero_le _) le_rfl
  have h2 := slice_zero_length (copyAt b 0 b.length src)
  rw [hl, this] at h2
  exact h2.symm

theorem copyAt_zero33 (src : Bytes) (h : src.length = 33) : copyAt (List.replicate 33 0) 0 33 src = src := by
  have := copyAt_all (List.replicate 33 0) src (by simpa using h)
  simpa using this

theorem copyAt_one33 (src : Bytes) (h : src.length = 32) : copyAt (List.replicate 33 0) 1 33 src = 0 :: src := by
  have h1 := slice_copyAt_same (List.replicate 33 0) 1 33 src (by simpa using h) (by omega) (by simp)
  have h2 := slice_copyAt_disjoint (List.replicate 33 0) 1 33 src (by simpa using h) (by omega) (by simp) 0 1 (by omega)
  have hl := copyAt_length (List.replicate 33 0) 1 33 src (by omega) (by simp)
  have h3 := slice_append_slice (copyAt (List.replicate 33 0) 1 33 src) 0 1 33 (by omega) (by omega) (by rw [hl]; simp)
  rw [h1, h2] at h3
  have h4 := slice_zero_length (copyAt (List.replicate 33 0) 1 33 src)
  rw [hl, List.length_replicate, ← h3] at h4
  rw [← h4]
  rfl

theorem slice_eq_take (b : Bytes) (j : Nat) : slice b 0 j = b.take j := by simp [slice]

theorem slice_eq_drop (b : Bytes) (i : Nat) (j : Nat) (h : b.length ≤ j) : slice b i j = b.drop i := by
  rw [slice, List.take_of_length_le h]

theorem uint32Bytes_eq (i : UInt32) : uint32Bytes i = ser32 i.toNat := rfl

/-- The HMAC message and key of a derivation step. -/
theorem getIntermediary_eq (H : Hashes) (k : Key) (i : UInt32) :
    k.getIntermediary H i = H.hmacSha512 k.getChainCode
      ((if 2 ^ 31 ≤ i.toNat then 0 :: k.getPvtKeyBytes
        else if k.isPrivate then publicKeyForPrivateKey k.getPvtKeyBytes else k.getKeyBytes) ++ ser32 i.toNat) := by
  have hi : i ≥ firstHardenedChild ↔ 2 ^ 31 ≤ i.toNat := Iff.rfl
  unfold Key.getIntermediary
  have e1 : copyAt (List.replicate 33 0) 1 33 (slice k.bytes pvtKeyStart pvtKeyEnd) = 0 :: k.getPvtKeyBytes :=
    copyAt_one33 _ k.getPvtKeyBytes_length
  have e2 : copyAt (List.replicate 33 0) 0 33 (publicKeyForPrivateKey (slice k.bytes pvtKeyStart pvtKeyEnd)) =
      publicKeyForPrivateKey k.getPvtKeyBytes := copyAt_zero33 _ (publicKeyForPrivateKey_length _)
  have e3 : copyAt (List.replicate 33 0) 0 33 (slice k.bytes pubKeyStart 78) = k.getKeyBytes :=
    copyAt_zero33 _ k.getKeyBytes_length
  simp only [e1, e2, e3, hi]
  rfl

/-! ### Registry lookups -/

/-- The version bytes are registered as private. -/
def PvtVersion (v : UInt32) : Prop := ∃ e, Registered e ∧ e.pvtKeyFlag = v

/-- The version bytes are registered as public. -/
def PubVersion (v : UInt32) : Prop := ∃ e, Registered e ∧ e.pubKeyFlag = v

/-- The public version going with a private version: the one registered with it, or xpub. -/
def neuterVersion (v : UInt32) : UInt32 :=
  match entries.find? (fun e => e.pvtKeyFlag = v) with
  | some e => e.pubKeyFlag
  | none => 0x0488b21e

section lookup
variable {order : List (Bytes × List VersionBytes)} (ho : order.Perm pathTable)
include ho

theorem pvtFlag_nil (v : UInt32) : (Registry.init order).pvtFlag v = [] ↔ ¬ PvtVersion v := by
  constructor
  · rintro h ⟨e, he⟩
    have := (C53_registry_indices order ho e v).1.2 he
    rw [h] at this; simp at this
  · intro h
    by_contra hne
    obtain ⟨e, he⟩ := List.exists_mem_of_ne_nil _ hne
    exact h ⟨e, (C53_registry_indices order ho e v).1.1 he⟩

theorem pubFlag_nil (v : UInt32) : (Registry.init order).pubFlag v = [] ↔ ¬ PubVersion v := by
  constructor
  · rintro h ⟨e, he⟩
    have := (C53_registry_indices order ho e v).2.2.1.2 he
    rw [h] at this; simp at this
  · intro h
    by_contra hne
    obtain ⟨e, he⟩ := List.exists_mem_of_ne_nil _ hne
    exact h ⟨e, (C53_registry_indices order ho e v).2.2.1.1 he⟩

theorem pvtFlag_cons {v : UInt32} {hd : VersionBytes} {tl} (h : (Registry.init order).pvtFlag v = hd :: tl) :
    Registered hd ∧ hd.pvtKeyFlag = v :=
  (C53_registry_indices order ho hd v).1.1 (by rw [h]; simp)

theorem pubFlag_cons {v : UInt32} {hd : VersionBytes} {tl} (h : (Registry.init order).pubFlag v = hd :: tl) :
    Registered hd ∧ hd.pubKeyFlag = v :=
  (C53_registry_indices order ho hd v).2.2.1.1 (by rw [h]; simp)

end lookup

theorem neuterVersion_of {e : VersionBytes} (he : Registered e) : neuterVersion e.pvtKeyFlag = e.pubKeyFlag := by
  have hm := (registered_iff e).1 he
  unfold neuterVersion
  cases hf : entries.find? (fun x => x.pvtKeyFlag = e.pvtKeyFlag) with
  | none =>
    rw [List.find?_eq_none] at hf
    exact absurd (hf e hm) (by simp)
  | some x =>
    have h1 : x.pvtKeyFlag = e.pvtKeyFlag := by simpa using List.find?_some hf
    exact (pub_of_pvt x (List.mem_of_find?_eq_some hf) e hm).1 h1

theorem neuterVersion_default {v : UInt32} (h : ¬ PvtVersion v) : neuterVersion v = 0x0488b21e := by
  unfold neuterVersion
  cases hf : entries.find? (fun x => x.pvtKeyFlag = v) with
  | none => rfl
  | some x =>
    exact absurd ⟨x, (registered_iff x).2 (List.mem_of_find?_eq_some hf), by simpa using List.find?_some hf⟩ h

theorem neuterVersion_pub (v : UInt32) : PubVersion (neuterVersion v) := by
  by_cases h : PvtVersion v
  · obtain ⟨e, he, rfl⟩ := h
    exact ⟨e, he, (neuterVersion_of he).symm⟩
  · rw [neuterVersion_default h]
    exact ⟨bitcoinxprvxpub, (registered_iff _).2 (by decide +kernel), rfl⟩

theorem pvt_not_pub {v : UInt32} (h : PvtVersion v) : ¬ PubVersion v := fun h' => (C55_flags_unambiguous v).1 ⟨h, h'⟩

/-! ### Fields of constructed keys -/

theorem Key.fields_inj {a b : Key} (h : a.fields = b.fields) : a = b := C20_fields_determine_key a b h

theorem fields_setVersion (k : Key) (v : Bytes) (h : v.length = 4) :
    (k.setVersion v).fields = { k.fields with version := getUint32 v } := (C20_lenses k).2.1 v h
theorem fields_setDepth (k : Key) (d : UInt8) : (k.setDepth d).fields = { k.fields with depth := [d] } :=
  (C20_lenses k).2.2.1 d
theorem fields_setFingerPrint (k : Key) (f : Bytes) (h : f.length = 4) :
    (k.setFingerPrint f).fields = { k.fields with fingerPrint := f } := (C20_lenses k).2.2.2.1 f h
theorem fields_setChildNumber (k : Key) (f : Bytes) (h : f.length = 4) :
    (k.setChildNumber f).fields = { k.fields with childNumber := f } := (C20_lenses k).2.2.2.2.1 f h
theorem fields_setChainCode (k : Key) (f : Bytes) (h : f.length = 32) :
    (k.setChainCode f).fields = { k.fields with chainCode := f } := (C20_lenses k).2.2.2.2.2.1 f h
theorem fields_setPubKeyBytes (k : Key) (f : Bytes) (h : f.length = 33) :
    (k.setPubKeyBytes f).fields = { k.fields with keyBytes := f } := (C20_lenses k).2.2.2.2.2.2.1 f h
theorem fields_setPvtKeyBytes (k : Key) (f : Bytes) (h : f.length = 32) :
    (k.setPvtKeyBytes f).fields = { k.fields with keyBytes := k.byteAt pubKeyStart :: f } :=
  ((C20_lenses k).2.2.2.2.2.2.2 f h).1

theorem byteAt_of_fields (k : Key) {a : UInt8} {l : Bytes} (h : k.fields.keyBytes = a :: l) :
    k.byteAt pubKeyStart = a := by
  have : k.getKeyBytes = a :: l := h
  rw [Key.getKeyBytes_eq] at this
  exact (List.cons.inj this).1

theorem isPrivate_of_keyBytes (k : Key) {a : UInt8} {l : Bytes} (h : k.getKeyBytes = a :: l) :
    k.isPrivate = (a == 0) ∧ k.getPvtKeyBytes = l := by
  rw [Key.getKeyBytes_eq] at h
  obtain ⟨h1, h2⟩ := List.cons.inj h
  exact ⟨by rw [Key.isPrivate, h1], h2⟩

theorem zero_fields : Key.zero.fields = ⟨0, [0], List.replicate 4 0, List.replicate 4 0, List.replicate 32 0,
    List.replicate 33 0⟩ := by decide +kernel

/-! ### Length facts: no slice-to-array conversion panics -/

theorem affineDouble_lt (q : Nat × Nat) : (affineDouble q).1 < 256 ^ 32 := by
  unfold affineDouble
  split
  · decide
  · exact lt_trans (Nat.mod_lt _ secpP_prime.pos) secpP_lt

theorem curveAdd_lt (q r : Nat × Nat) (hq : q.1 < 256 ^ 32) (hr : r.1 < 256 ^ 32) : (curveAdd q r).1 < 256 ^ 32 := by
  have hm : ∀ n, n % secpP < 256 ^ 32 := fun n => lt_trans (Nat.mod_lt _ secpP_prime.pos) secpP_lt
  unfold curveAdd
  split
  · exact hr
  split
  · exact hq
  split
  · split
    · exact affineDouble_lt _
    · decide
  split
  · decide
  · exact hm _

theorem expand_fst_lt (b : Bytes) (h : b.length = 33) : (expandPublicKey b).1 < 256 ^ 32 := by
  match b, h with
  | k0 :: rest, h =>
    have := setBytes_lt rest
    have hl : rest.length = 32 := by simpa using h
    rw [hl] at this
    rw [expandPublicKey, expandCons]
    split <;> exact this

theorem addPublicKeys_length (a b : Bytes) (ha : a.length = 33) (hb : b.length = 33) :
    (addPublicKeys a b).length = 33 :=
  compressPublicKey_length _ (curveAdd_lt _ _ (expand_fst_lt a ha) (expand_fst_lt b hb))

theorem addPrivateKeys_length (a b : Bytes) : (addPrivateKeys a b).length = 32 := by
  rw [addPrivateKeys_eq]; simp

/-! ### Derivation, in general form -/

theorem slice_version (k : Key) : getUint32 (slice k.bytes versionStart versionEnd) = k.getVersion := by
  unfold Key.getVersion; exact rfl

theorem getVersion_bytes (k : Key) : slice k.bytes versionStart versionEnd = putUint32 k.getVersion := k.version_bytes

/-- Private parent, any registry with an entry for its version: all fields of the child and the error. -/
theorem newChildKey_private_any (H : Hashes) (R : Registry)
    (k : Key) (i : UInt32) (hp : k.isPrivate = true) (hv : R.pvtFlag k.getVersion ≠ []) :
    let I := k.getIntermediary H i
    let s' := (setBytes (I.take 32) + setBytes k.getPvtKeyBytes) % secpN
    (k.newChildKey H R i).1.fields =
      ⟨k.getVersion, [k.byteAt depthStart + 1],
        (H.ripemd160 (H.sha256 (publicKeyForPrivateKey k.getPvtKeyBytes))).take 4, ser32 i.toNat, I.drop 32,
        0 :: ser256 s'⟩ ∧
    (k.newChildKey H R i).2 = if s' = 0 then some .invalidPrivateKey else none := by
  intro I s'
  have hI : I.length = 64 := by simp only [I, getIntermediary_eq]; simp
  have hne : ¬ (R.pvtFlag k.getVersion).length = 0 := by
    rw [List.length_eq_zero_iff]; exact hv
  set base := (((Key.zero.setChildNumber (uint32Bytes i)).setChainCode (slice I 32 64)).setDepth
    (k.byteAt depthStart + 1)).setVersion (slice k.bytes versionStart versionEnd) with hbase
  set c2 := base.setFingerPrint (slice (hashRipeMD160onSha256 H (publicKeyForPrivateKey (slice k.bytes pvtKeyStart pubKeyEnd))) 0 4) with hc2
  set kbs := addPrivateKeys (slice I 0 32) (slice k.bytes pvtKeyStart 78) with hkbs
  set c3 := c2.setPvtKeyBytes (slice kbs 0 32) with hc3
  have hres : k.newChildKey H R i = (c3, validatePrivateKey c3.getPvtKeyBytes) := by
    unfold Key.newChildKey
    simp only [hp, slice_version, Bool.not_true, Bool.false_and, Bool.false_eq_true, if_false, if_true, if_neg hne]
    rfl
  have hkl : kbs = ser256 s' := by
    rw [hkbs, addPrivateKeys_eq, slice_eq_take]
    rfl
  have hk32 : slice kbs 0 32 = ser256 s' := by
    rw [hkl, slice_eq_take, List.take_of_length_le (by simp)]
  have hfb : base.fields = ⟨k.getVersion, [k.byteAt depthStart + 1], List.replicate 4 0, ser32 i.toNat, I.drop 32,
      List.replicate 33 0⟩ := by
    rw [hbase, fields_setVersion _ _ (k.slice_len 0 4 (by omega)), fields_setDepth,
      fields_setChainCode _ _ (by rw [slice_length _ _ _ (by omega)]), fields_setChildNumber _ _ (by simp [uint32Bytes]),
      zero_fields, slice_eq_drop _ _ _ (by omega)]
    rfl
  have hfp : (slice (hashRipeMD160onSha256 H (publicKeyForPrivateKey (slice k.bytes pvtKeyStart pubKeyEnd))) 0 4) =
      (H.ripemd160 (H.sha256 (publicKeyForPrivateKey k.getPvtKeyBytes))).take 4 := slice_eq_take _ _
  have hf2 : c2.fields = ⟨k.getVersion, [k.byteAt depthStart + 1],
      (H.ripemd160 (H.sha256 (publicKeyForPrivateKey k.getPvtKeyBytes))).take 4, ser32 i.toNat, I.drop 32,
      List.replicate 33 0⟩ := by
    rw [hc2, hfp, fields_setFingerPrint _ _ (by simp), hfb]
  have hb0 : c2.byteAt pubKeyStart = 0 := byteAt_of_fields c2 (l := List.replicate 32 0) (by rw [hf2]; rfl)
  have hf3 : c3.fields = ⟨k.getVersion, [k.byteAt depthStart + 1],
      (H.ripemd160 (H.sha256 (publicKeyForPrivateKey k.getPvtKeyBytes))).take 4, ser32 i.toNat, I.drop 32,
      0 :: ser256 s'⟩ := by
    rw [hc3, hk32, fields_setPvtKeyBytes _ _ (by simp), hf2, hb0]
  have hpv : c3.getPvtKeyBytes = ser256 s' := by
    have : c3.getKeyBytes = 0 :: ser256 s' := congrArg KeyFields.keyBytes hf3
    exact (isPrivate_of_keyBytes c3 this).2
  have hs' : s' < secpN := Nat.mod_lt _ secpN_prime.pos
  rw [hres]
  refine ⟨hf3, ?_⟩
  dsimp only
  rw [hpv, validatePrivateKey_eq _ (by simp), setBytes_ser256 hs']
  by_cases h0 : s' = 0
  · rw [if_pos h0, if_neg (by omega)]
  · rw [if_neg h0, if_pos ⟨by omega, hs'⟩]

/-- Private parent, registered version: all fields of the child and the error. -/
theorem newChildKey_private (H : Hashes) {order : List (Bytes × List VersionBytes)} (ho : order.Perm pathTable)
    (k : Key) (i : UInt32) (hp : k.isPrivate = true) (hv : PvtVersion k.getVersion) :
    let I := k.getIntermediary H i
    let s' := (setBytes (I.take 32) + setBytes k.getPvtKeyBytes) % secpN
    (k.newChildKey H (Registry.init order) i).1.fields =
      ⟨k.getVersion, [k.byteAt depthStart + 1],
        (H.ripemd160 (H.sha256 (publicKeyForPrivateKey k.getPvtKeyBytes))).take 4, ser32 i.toNat, I.drop 32,
        0 :: ser256 s'⟩ ∧
    (k.newChildKey H (Registry.init order) i).2 = if s' = 0 then some .invalidPrivateKey else none :=
  newChildKey_private_any H _ k i hp fun h => (pvtFlag_nil ho _).1 h hv

/-- Public parent, any registry with an entry for its version, non-hardened index: all fields of the child, which gets the
version of the first entry, and the error. -/
theorem newChildKey_public_any (H : Hashes) (R : Registry) (k : Key) (i : UInt32) (hi : i.toNat < 2 ^ 31)
    (hp : k.isPrivate = false) {hd : VersionBytes} {tl : List VersionBytes} (hcons : R.pubFlag k.getVersion = hd :: tl) :
    let I := k.getIntermediary H i
    let IL := setBytes (I.take 32)
    (IL % secpN = 0 →
      (k.newChildKey H R i).1.fields =
        ⟨hd.pubKeyFlag, [k.byteAt depthStart + 1], List.replicate 4 0, ser32 i.toNat, I.drop 32, List.replicate 33 0⟩ ∧
      (k.newChildKey H R i).2 = some .invalidPublicKey) ∧
    (IL % secpN ≠ 0 →
      (k.newChildKey H R i).1.fields =
        ⟨hd.pubKeyFlag, [k.byteAt depthStart + 1], (H.ripemd160 (H.sha256 k.getKeyBytes)).take 4, ser32 i.toNat,
          I.drop 32, addPublicKeys (publicKeyForPrivateKey (I.take 32)) k.getKeyBytes⟩ ∧
      (k.newChildKey H R i).2 = none) := by
  intro I IL
  have hI : I.length = 64 := by simp only [I, getIntermediary_eq]; simp
  have hni : decide (i ≥ firstHardenedChild) = false := by
    rw [decide_eq_false_iff_not]
    have : i ≥ firstHardenedChild ↔ 2 ^ 31 ≤ i.toNat := Iff.rfl
    rw [this]; omega
  set base := (((Key.zero.setChildNumber (uint32Bytes i)).setChainCode (slice I 32 64)).setDepth
    (k.byteAt depthStart + 1)).setVersion hd.pubKeyFlagBytes with hbase
  set c2 := base.put fingerPrintStart fingerPrintEnd ((hashRipeMD160onSha256 H (slice k.bytes pubKeyStart 78)).take 4) with hc2
  set kbs := addPublicKeys (publicKeyForPrivateKey (slice I 0 32)) (slice k.bytes pubKeyStart 78) with hkbs
  have hval : validateChildPublicKey (publicKeyForPrivateKey (slice I 0 32)) =
      if IL % secpN = 0 then some .invalidPublicKey else none := by
    rw [validateChildPublicKey_eq, slice_eq_take]
  have hres : k.newChildKey H R i =
      if IL % secpN = 0 then (base, some .invalidPublicKey) else (c2.setPubKeyBytes (slice kbs 0 33), none) := by
    unfold Key.newChildKey
    simp only [hp, hni, slice_version, Bool.and_false, Bool.false_eq_true, if_false, hcons]
    change (match validateChildPublicKey (publicKeyForPrivateKey (slice I 0 32)) with
      | some err => (base, some err)
      | none => (c2.setPubKeyBytes (slice kbs 0 33), none)) = _
    rw [hval]
    by_cases h0 : IL % secpN = 0
    · rw [if_pos h0, if_pos h0]
    · rw [if_neg h0, if_neg h0]
  have hfb : base.fields = ⟨hd.pubKeyFlag, [k.byteAt depthStart + 1], List.replicate 4 0, ser32 i.toNat, I.drop 32,
      List.replicate 33 0⟩ := by
    rw [hbase, fields_setVersion _ _ (by simp [VersionBytes.pubKeyFlagBytes]), fields_setDepth,
      fields_setChainCode _ _ (by rw [slice_length _ _ _ (by omega)]), fields_setChildNumber _ _ (by simp [uint32Bytes]),
      zero_fields, slice_eq_drop _ _ _ (by omega), VersionBytes.pubKeyFlagBytes, getUint32_putUint32]
    rfl
  have hf2 : c2.fields = ⟨hd.pubKeyFlag, [k.byteAt depthStart + 1], (H.ripemd160 (H.sha256 k.getKeyBytes)).take 4,
      ser32 i.toNat, I.drop 32, List.replicate 33 0⟩ := by
    have := fields_setFingerPrint base ((hashRipeMD160onSha256 H (slice k.bytes pubKeyStart 78)).take 4)
      (by simp [hashRipeMD160onSha256, hashRipeMD160])
    rw [hfb] at this
    exact this
  constructor
  · intro h0
    rw [hres, if_pos h0]
    exact ⟨hfb, rfl⟩
  · intro h0
    rw [hres, if_neg h0]
    refine ⟨?_, rfl⟩
    have hkl : kbs.length = 33 := addPublicKeys_length _ _ (publicKeyForPrivateKey_length _) k.getKeyBytes_length
    have hk : slice kbs 0 33 = kbs := by rw [slice_eq_take, List.take_of_length_le (by omega)]
    dsimp only
    rw [hk, fields_setPubKeyBytes _ _ hkl, hf2, hkbs, slice_eq_take]
    rfl

/-- Public parent, registered version, non-hardened index: all fields of the child and the error. -/
theorem newChildKey_public (H : Hashes) {order : List (Bytes × List VersionBytes)} (ho : order.Perm pathTable)
    (k : Key) (i : UInt32) (hi : i.toNat < 2 ^ 31) (hp : k.isPrivate = false) (hv : PubVersion k.getVersion) :
    let I := k.getIntermediary H i
    let IL := setBytes (I.take 32)
    (IL % secpN = 0 →
      (k.newChildKey H (Registry.init order) i).1.fields =
        ⟨k.getVersion, [k.byteAt depthStart + 1], List.replicate 4 0, ser32 i.toNat, I.drop 32, List.replicate 33 0⟩ ∧
      (k.newChildKey H (Registry.init order) i).2 = some .invalidPublicKey) ∧
    (IL % secpN ≠ 0 →
      (k.newChildKey H (Registry.init order) i).1.fields =
        ⟨k.getVersion, [k.byteAt depthStart + 1], (H.ripemd160 (H.sha256 k.getKeyBytes)).take 4, ser32 i.toNat,
          I.drop 32, addPublicKeys (publicKeyForPrivateKey (I.take 32)) k.getKeyBytes⟩ ∧
      (k.newChildKey H (Registry.init order) i).2 = none) := by
  intro I IL
  obtain ⟨hd, tl, hcons⟩ : ∃ hd tl, (Registry.init order).pubFlag k.getVersion = hd :: tl := by
    cases h : (Registry.init order).pubFlag k.getVersion with
    | nil => exact absurd hv ((pubFlag_nil ho _).1 h)
    | cons a l => exact ⟨a, l, rfl⟩
  have h := newChildKey_public_any H _ k i hi hp hcons
  rw [(pubFlag_cons ho hcons).2] at h
  exact h

/-- Unregistered version. -/
theorem newChildKey_unregistered (H : Hashes) {order : List (Bytes × List VersionBytes)} (ho : order.Perm pathTable)
    (k : Key) (i : UInt32) (hi : k.isPrivate = true ∨ i.toNat < 2 ^ 31)
    (hv : if k.isPrivate then ¬ PvtVersion k.getVersion else ¬ PubVersion k.getVersion) :
    k.newChildKey H (Registry.init order) i = (Key.zero, some .unSupportedHDVersionBytes) := by
  have hi' : i ≥ firstHardenedChild ↔ 2 ^ 31 ≤ i.toNat := Iff.rfl
  have hg : (!k.isPrivate && decide (i ≥ firstHardenedChild)) = false := by
    rcases hi with h | h
    · simp [h]
    · have : decide (i ≥ firstHardenedChild) = false := by rw [decide_eq_false_iff_not, hi']; omega
      simp [this]
  unfold Key.newChildKey
  simp only [hg, slice_version, Bool.false_eq_true, if_false]
  cases hp : k.isPrivate with
  | true =>
    rw [hp, if_pos rfl] at hv
    rw [if_pos rfl, if_pos]
    rw [(pvtFlag_nil ho _).2 hv]; rfl
  | false =>
    rw [hp] at hv
    rw [if_neg (by simp), (pubFlag_nil ho _).2 (by simpa using hv)]

theorem newChildKey_hardened_public (H : Hashes) (R : Registry) (k : Key) (i : UInt32) (hp : k.isPrivate = false)
    (hi : 2 ^ 31 ≤ i.toNat) : k.newChildKey H R i = (Key.zero, some .hardenedChildPublicKey) := by
  have : decide (i ≥ firstHardenedChild) = true := by rw [decide_eq_true_iff]; exact hi
  unfold Key.newChildKey
  simp only [hp, this, Bool.not_false, Bool.true_and, if_true]

/-- The public version a registry gives a private key: that of the first entry for its version, or xpub. -/
def Registry.neuter (R : Registry) (v : UInt32) : UInt32 :=
  match R.pvtFlag v with
  | [] => 0x0488b21e
  | e :: _ => e.pubKeyFlag

/-- Neutering a private key, any registry. -/
theorem publicKeyExtended_private_any (R : Registry) (k : Key) (hp : k.isPrivate = true) :
    (k.publicKeyExtended R).fields =
      { k.fields with version := R.neuter k.getVersion, keyBytes := publicKeyForPrivateKey k.getPvtKeyBytes } := by
  have key : ∀ vs : Bytes, vs = putUint32 (R.neuter k.getVersion) →
      ((k.put pubKeyStart pubKeyEnd (publicKeyForPrivateKey (slice k.bytes pvtKeyStart 78))).setVersion vs).fields =
      { k.fields with version := R.neuter k.getVersion, keyBytes := publicKeyForPrivateKey k.getPvtKeyBytes } := by
    rintro vs rfl
    rw [fields_setVersion _ _ (by simp), getUint32_putUint32]
    have := fields_setPubKeyBytes k (publicKeyForPrivateKey (slice k.bytes pvtKeyStart 78))
      (publicKeyForPrivateKey_length _)
    unfold Key.setPubKeyBytes at this
    rw [this]
    rfl
  unfold Key.publicKeyExtended
  simp only [hp, if_true, slice_version]
  apply key
  unfold Registry.neuter
  cases R.pvtFlag k.getVersion with
  | nil => rfl
  | cons a l => rfl

/-- Neutering a private key. -/
theorem publicKeyExtended_private {order : List (Bytes × List VersionBytes)} (ho : order.Perm pathTable) (k : Key)
    (hp : k.isPrivate = true) : (k.publicKeyExtended (Registry.init order)).fields =
      { k.fields with version := neuterVersion k.getVersion, keyBytes := publicKeyForPrivateKey k.getPvtKeyBytes } := by
  rw [publicKeyExtended_private_any _ k hp]
  unfold Registry.neuter
  cases h : (Registry.init order).pvtFlag k.getVersion with
  | nil => rw [neuterVersion_default ((pvtFlag_nil ho _).1 h)]
  | cons a l =>
    obtain ⟨h1, h2⟩ := pvtFlag_cons ho h
    rw [← h2, neuterVersion_of h1]

/-- Neutering a public key. -/
theorem publicKeyExtended_public {order : List (Bytes × List VersionBytes)} (ho : order.Perm pathTable) (k : Key)
    (hp : k.isPrivate = false) : (PubVersion k.getVersion → k.publicKeyExtended (Registry.init order) = k) ∧
    (¬ PubVersion k.getVersion →
      (k.publicKeyExtended (Registry.init order)).fields = { k.fields with version := 0x0488b21e }) := by
  unfold Key.publicKeyExtended
  simp only [hp, slice_version, Bool.false_eq_true, if_false]
  constructor
  · intro hv
    cases h : (Registry.init order).pubFlag k.getVersion with
    | nil => exact absurd hv ((pubFlag_nil ho _).1 h)
    | cons a l =>
      apply Key.fields_inj
      dsimp only
      rw [fields_setVersion _ _ (k.slice_len 0 4 (by omega))]
      rfl
  · intro hv
    rw [(pubFlag_nil ho _).2 hv]
    dsimp only
    rw [fields_setVersion _ _ (by simp [VersionBytes.pubKeyFlagBytes])]
    congr 1

end Bips
