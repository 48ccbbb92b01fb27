import Verif.Spec.ExtendedKey
import Verif.Props.Distinct

/-!
# C90: malformed extended keys

BIP-32 lists in its Test Vector 5 extended keys that must be refused. For all hash functions, all orders in which the registry is
filled, and all byte strings.
-/

namespace Bips
open Spec

/-- The version bytes of private keys. -/
def prvBytes (v : Bytes) : Prop := ∃ e, Registered e ∧ v = ser32 e.pvtKeyFlag.toNat

/-- The version bytes of public keys. -/
def pubBytes (v : Bytes) : Prop := ∃ e, Registered e ∧ v = ser32 e.pubKeyFlag.toNat

/-- **C90**, the claim in full (false of the code): `Deserialize` accepts exactly the valid extended keys followed by their
checksum. -/
def C90_full : Prop := ∀ (H : Hashes) (data : Bytes), (deserialize H data).2 = none ↔
  ∃ b, ValidExtended prvBytes pubBytes b ∧ data = b ++ (H.sha256 (H.sha256 b)).take 4

/-! ### Points -/

/-- Bytes that are the compressed form of a point, by what `ExpandPublicKey` makes of them. -/
theorem serP_iff (c : UInt8) (r : Bytes) (hr : r.length = 32) :
    (∃ K : Pt, K ≠ 0 ∧ c :: r = serP K) ↔
      (c = 2 ∨ c = 3) ∧ (expandPublicKey (c :: r)).1 < secpP ∧
        (expandPublicKey (c :: r)).2 ^ 2 % secpP = ((expandPublicKey (c :: r)).1 ^ 3 + 7) % secpP := by
  constructor
  · rintro ⟨K, hK, h⟩
    rw [h, expandPublicKey_serP K hK]
    refine ⟨?_, (coords_lt K).1, ?_⟩
    · cases K with
      | zero => exact absurd rfl hK
      | some x y hxy =>
        have := (List.cons.inj h).1
        rw [this]
        split <;> simp
    · cases K with
      | zero => exact absurd rfl hK
      | some x y hxy =>
        rw [coords_some]
        have := (secp_nonsingular_iff x y).1 hxy
        apply (ZMod.natCast_eq_natCast_iff' _ _ _).1
        push_cast
        rw [cast_val, cast_val, this]
  · rintro ⟨hc, h1, h2⟩
    have hx : (expandPublicKey (c :: r)).1 = setBytes r := by
      rw [expandPublicKey, expandCons]; split <;> rfl
    rw [hx] at h1 h2
    set Y := modSqrt (setBytes r ^ 3 + secpB) with hY
    have hYlt : Y < secpP := modSqrt_lt _
    have he : (expandPublicKey (c :: r)).2 =
        if (UInt64.ofNat c.toNat - 2 : UInt64) ≠ UInt64.ofNat (Y % 2) then secpP - Y else Y := by
      rw [expandPublicKey, expandCons, ← hY]; split <;> rfl
    have hcb : c = if decide (c = 2) then (2 : UInt8) else 3 := by
      rcases hc with rfl | rfl <;> rfl
    have hs := sign_iff (decide (c = 2)) Y
    rw [← hcb] at hs
    simp only [decide_eq_true_eq] at hs
    have hn : secp.Nonsingular ((setBytes r : Nat) : Fp) (((expandPublicKey (c :: r)).2 : Nat) : Fp) := by
      rw [secp_nonsingular_iff]
      have := (ZMod.natCast_eq_natCast_iff' _ _ secpP).2 h2
      push_cast at this
      exact this
    have hy0 := secp_y_ne_zero hn
    have hodd := secpP_odd
    have hle : (expandPublicKey (c :: r)).2 ≤ secpP := by
      rw [he]; split <;> omega
    have hlt : (expandPublicKey (c :: r)).2 < secpP := by
      rcases Nat.lt_or_eq_of_le hle with h | h
      · exact h
      · rw [h] at hy0; simp at hy0
    have hYpos : Y ≠ 0 := by
      intro h0
      rw [h0] at he
      split at he
      · omega
      · rw [he] at hy0; simp at hy0
    have hpar : (c = 2 ↔ (expandPublicKey (c :: r)).2 % 2 = 0) := by
      rw [he]
      split
      · rename_i hne
        rw [hs] at hne
        constructor
        · intro h
          have : Y % 2 ≠ 0 := fun e => hne ⟨fun _ => e, fun _ => h⟩
          omega
        · intro h
          by_contra h'
          exact hne ⟨fun e => absurd e h', fun e => by omega⟩
      · rename_i hne
        rw [hs, not_not] at hne
        exact hne
    refine ⟨.some _ _ hn, WeierstrassCurve.Affine.Point.some_ne_zero hn, ?_⟩
    simp only [serP]
    rw [ZMod.val_natCast_of_lt h1, ZMod.val_natCast_of_lt hlt, ser256]
    have hb : beBytes 32 (setBytes r) = r := by
      have := beBytes_setBytes r
      rwa [hr] at this
    rw [hb]
    clear hn hlt hle hy0 he h2 hb
    generalize (expandPublicKey (c :: r)).2 = y at hpar
    rcases hc with rfl | rfl
    · rw [if_pos (hpar.1 rfl)]
    · rw [if_neg (fun h => absurd (hpar.2 h) (by decide))]

/-! ### The fields in the bytes -/

theorem bytes_version (k : Key) : k.bytes.take 4 = ser32 k.getVersion.toNat := by
  have := k.version_bytes
  rwa [slice_eq_take] at this

theorem bytes_depth (k : Key) : k.bytes.getD 4 0 = k.byteAt depthStart := by
  rw [Key.byteAt, List.getD_eq_getElem?_getD, List.getElem?_eq_getElem (by rw [k.len]; decide)]; rfl

theorem bytes_first (k : Key) : k.bytes.getD 45 0 = k.byteAt pubKeyStart := by
  rw [Key.byteAt, List.getD_eq_getElem?_getD, List.getElem?_eq_getElem (by rw [k.len]; decide)]; rfl

theorem bytes_key (k : Key) : k.bytes.drop 45 = k.byteAt pubKeyStart :: k.getPvtKeyBytes := by
  rw [← Key.getKeyBytes_eq]
  exact (slice_eq_drop _ _ _ (by rw [k.len])).symm

theorem bytes_secret (k : Key) : k.bytes.drop 46 = k.getPvtKeyBytes :=
  (slice_eq_drop _ _ _ (by rw [k.len])).symm

theorem bytes_fingerPrint (k : Key) : (k.bytes.drop 5).take 4 = k.getFingerPrint := by
  rw [List.take_drop]; rfl

theorem bytes_childNumber (k : Key) : (k.bytes.drop 9).take 4 = k.getChildNumber := by
  rw [List.take_drop]; rfl

theorem bytes_parent (k : Key) : (k.bytes.drop 5).take 8 = List.replicate 8 0 ↔
    k.getFingerPrint = List.replicate 4 0 ∧ k.getChildNumber = List.replicate 4 0 := by
  have h : (k.bytes.drop 5).take 8 = k.getFingerPrint ++ k.getChildNumber := by
    rw [← bytes_fingerPrint, ← bytes_childNumber, show 8 = 4 + 4 from rfl, List.take_add, List.drop_drop]
  rw [h, show List.replicate 8 (0 : UInt8) = List.replicate 4 0 ++ List.replicate 4 0 from rfl]
  exact ⟨fun h => List.append_inj h (by simp), fun h => by rw [h.1, h.2]⟩

theorem prvBytes_iff (k : Key) : prvBytes (k.bytes.take 4) ↔ PvtVersion k.getVersion := by
  rw [bytes_version]
  exact ⟨fun ⟨e, he, h⟩ => ⟨e, he, (ser32_inj h).symm⟩, fun ⟨e, he, h⟩ => ⟨e, he, by rw [h]⟩⟩

theorem pubBytes_iff (k : Key) : pubBytes (k.bytes.take 4) ↔ PubVersion k.getVersion := by
  rw [bytes_version]
  exact ⟨fun ⟨e, he, h⟩ => ⟨e, he, (ser32_inj h).symm⟩, fun ⟨e, he, h⟩ => ⟨e, he, by rw [h]⟩⟩

/-- What `Deserialize` accepts: any 78 bytes with their checksum. -/
theorem accepted_iff (H : Hashes) (data : Bytes) (k : Key) :
    deserialize H data = (k, none) ↔ data = k.bytes ++ (H.sha256 (H.sha256 k.bytes)).take 4 := by
  obtain ⟨h1, h2⟩ := deserialize_eq H data
  constructor
  · intro h
    rw [h] at h1 h2
    dsimp only at h1 h2
    split at h2
    · simp at h2
    · rename_i hl
      rw [not_not] at hl
      split at h2
      · rename_i hc
        rw [hl] at h1
        simp only [Nat.sub_self, List.replicate_zero, List.append_nil] at h1
        rw [h1, ← hc, List.take_append_drop]
      · simp at h2
  · intro h
    have hl : data.length = 82 := by rw [h]; simp [k.len]
    have ht : data.take 78 = k.bytes := by rw [h, List.take_left' k.len]
    have hd : data.drop 78 = (H.sha256 (H.sha256 k.bytes)).take 4 := by rw [h, List.drop_left' k.len]
    refine Prod.ext (Key.ext' ?_) ?_
    · rw [h1, hl]; simpa using ht
    · rw [h2, if_neg (by omega), ht, if_pos hd]

/-- The checks a caller has to add, in terms of the package's own functions. -/
def Key.Checked (R : Registry) (k : Key) : Prop :=
  (k.getDepth = [0] → k.getFingerPrint = List.replicate 4 0 ∧ k.getChildNumber = List.replicate 4 0) ∧
  if k.isPrivate then R.pvtFlag k.getVersion ≠ [] ∧ validatePrivateKey k.getPvtKeyBytes = none
  else R.pubFlag k.getVersion ≠ [] ∧ (k.byteAt pubKeyStart = 2 ∨ k.byteAt pubKeyStart = 3) ∧
    (expandPublicKey k.getKeyBytes).1 < secpP ∧
    (expandPublicKey k.getKeyBytes).2 ^ 2 % secpP = ((expandPublicKey k.getKeyBytes).1 ^ 3 + 7) % secpP

section
variable (H : Hashes) (order : List (Bytes × List VersionBytes)) (ho : order.Perm pathTable)

theorem serP_head {K : Pt} {a : UInt8} {l : Bytes} (h : a :: l = serP K) : a = 2 ∨ a = 3 := by
  cases K with
  | zero => simp [serP] at h
  | some x y hxy =>
    rw [(List.cons.inj h).1]
    split <;> simp

theorem scalar_iff (b : Bytes) (hb : b.length = 32) :
    (∃ s, 1 ≤ s ∧ s < secpN ∧ b = ser256 s) ↔ 1 ≤ setBytes b ∧ setBytes b < secpN := by
  constructor
  · intro h
    obtain ⟨s, h1, h2, h3⟩ := h
    have e : setBytes b = s := by rw [h3, setBytes_ser256 h2]
    rw [e]
    exact And.intro h1 h2
  · intro h
    have := beBytes_setBytes b
    rw [hb] at this
    exact Exists.intro (setBytes b) (And.intro h.1 (And.intro h.2 this.symm))

include ho in
theorem checked_iff (k : Key) : ValidExtended prvBytes pubBytes k.bytes ↔ k.Checked (Registry.init order) := by
  unfold ValidExtended Key.Checked
  rw [prvBytes_iff, pubBytes_iff, bytes_depth, bytes_parent, bytes_key, Key.getDepth_eq]
  have hd : (k.byteAt depthStart = 0) ↔ [k.byteAt depthStart] = [0] := by simp
  rw [← hd]
  simp only [k.len, true_and]
  refine and_congr_right fun _ => ?_
  have hr := serP_iff (k.byteAt pubKeyStart) k.getPvtKeyBytes k.getPvtKeyBytes_length
  cases hp : k.isPrivate with
  | true =>
    have h0 : k.byteAt pubKeyStart = 0 := by
      have := (Key.isPrivate_iff k).1 hp
      rw [Key.getKeyBytes_eq] at this
      exact (List.cons.inj this).1
    rw [if_pos rfl, Ne, pvtFlag_nil ho, not_not, validatePrivateKey_eq _ k.getPvtKeyBytes_length, h0]
    have hs := scalar_iff k.getPvtKeyBytes k.getPvtKeyBytes_length
    constructor
    · rintro (⟨hv, s, h1, h2, h3⟩ | ⟨-, K, -, h3⟩)
      · refine ⟨hv, ?_⟩
        rw [if_pos (hs.1 ⟨s, h1, h2, (List.cons.inj h3).2⟩)]
      · rcases serP_head h3 with h | h <;> exact absurd h (by decide)
    · rintro ⟨hv, h⟩
      left
      refine ⟨hv, ?_⟩
      split at h
      · rename_i hh
        obtain ⟨s, h1, h2, h3⟩ := hs.2 hh
        exact ⟨s, h1, h2, by rw [← h3]⟩
      · simp at h
  | false =>
    have h0 : k.byteAt pubKeyStart ≠ 0 := by
      intro h
      have : k.isPrivate = true := (Key.isPrivate_iff k).2 (by rw [Key.getKeyBytes_eq, h])
      rw [hp] at this; simp at this
    rw [if_neg (by simp), Ne, pubFlag_nil ho, not_not, Key.getKeyBytes_eq]
    constructor
    · rintro (⟨-, s, -, -, h3⟩ | ⟨hv, h⟩)
      · exact absurd (List.cons.inj h3).1 h0
      · exact ⟨hv, hr.1 h⟩
    · rintro ⟨hv, h⟩
      exact .inr ⟨hv, hr.2 h⟩

/-! ### C90 -/

/-- **C90**, the part that holds: every valid extended key is accepted, as bytes and as text, and read as it is. Missing: others
are accepted, too (`C90_accepts_any`). -/
theorem C90_valid_accepted_partial (b : Bytes) (hb : ValidExtended prvBytes pubBytes b) :
    ∃ k : Key, k.bytes = b ∧ deserialize H (b ++ (H.sha256 (H.sha256 b)).take 4) = (k, none) ∧
      b58Deserialize H (b58Encode (b ++ (H.sha256 (H.sha256 b)).take 4)) = (k, none) := by
  have h := (accepted_iff H _ ⟨b, hb.1⟩).2 rfl
  refine ⟨⟨b, hb.1⟩, rfl, h, ?_⟩
  rw [b58Deserialize, b58Decode_encode]
  exact h

/-- **C90**, what is accepted: any 78 bytes followed by their checksum. -/
theorem C90_accepts_any (data : Bytes) : (deserialize H data).2 = none ↔
    ∃ b, b.length = 78 ∧ data = b ++ (H.sha256 (H.sha256 b)).take 4 := by
  constructor
  · intro h
    exact ⟨(deserialize H data).1.bytes, (deserialize H data).1.len,
      (accepted_iff H data (deserialize H data).1).1 (Prod.ext rfl h)⟩
  · rintro ⟨b, hb, h⟩
    rw [(accepted_iff H data ⟨b, hb⟩).2 h]

include ho in
/-- **C90**, exactly: the valid extended keys are those that are accepted and pass the checks of `Key.Checked`, which a caller can
make with the functions of the package. -/
theorem C90_checked_iff (data : Bytes) :
    (∃ b, ValidExtended prvBytes pubBytes b ∧ data = b ++ (H.sha256 (H.sha256 b)).take 4) ↔
    ∃ k, deserialize H data = (k, none) ∧ k.Checked (Registry.init order) := by
  constructor
  · rintro ⟨b, hb, h⟩
    exact ⟨⟨b, hb.1⟩, (accepted_iff H data ⟨b, hb.1⟩).2 h, (checked_iff order ho ⟨b, hb.1⟩).1 hb⟩
  · rintro ⟨k, h, hk⟩
    exact ⟨k.bytes, (checked_iff order ho k).2 hk, (accepted_iff H data k).1 h⟩

theorem pub_not_prv {v : Bytes} : ¬ (prvBytes v ∧ pubBytes v) := by
  rintro ⟨⟨e, he, h⟩, e', he', h'⟩
  exact pvt_not_pub ⟨e, he, rfl⟩ ⟨e', he', (ser32_inj (h.symm.trans h')).symm⟩

/-- **C90.** The defects listed by Test Vector 5 are all there are. -/
theorem C90_defects (b : Bytes) (hb : b.length = 78) :
    ¬ ValidExtended prvBytes pubBytes b ↔ ∃ d : Defect, d.In prvBytes pubBytes b := by
  obtain ⟨k, rfl⟩ : ∃ k : Key, k.bytes = b := ⟨⟨b, hb⟩, rfl⟩
  have hpp := @pub_not_prv (k.bytes.take 4)
  have hpar : ((k.bytes.drop 5).take 8 = List.replicate 8 0) ↔
      (k.bytes.drop 5).take 4 = List.replicate 4 0 ∧ (k.bytes.drop 9).take 4 = List.replicate 4 0 := by
    rw [bytes_parent, bytes_fingerPrint, bytes_childNumber]
  have hsc := scalar_iff k.getPvtKeyBytes k.getPvtKeyBytes_length
  have hP : (∃ K : Pt, K ≠ 0 ∧ k.byteAt pubKeyStart :: k.getPvtKeyBytes = serP K) ↔
      (k.byteAt pubKeyStart = 2 ∨ k.byteAt pubKeyStart = 3) ∧
        ∃ y : Nat, setBytes k.getPvtKeyBytes < secpP ∧ y ^ 2 % secpP = (setBytes k.getPvtKeyBytes ^ 3 + 7) % secpP := by
    constructor
    · intro h
      obtain ⟨h1, h2, h3⟩ := (serP_iff _ _ k.getPvtKeyBytes_length).1 h
      have hx : (expandPublicKey (k.byteAt pubKeyStart :: k.getPvtKeyBytes)).1 = setBytes k.getPvtKeyBytes := by
        rw [expandPublicKey, expandCons]; split <;> rfl
      rw [hx] at h2 h3
      exact And.intro h1 (Exists.intro _ (And.intro h2 h3))
    · rintro ⟨hc, y, h1, h2⟩
      have hn : secp.Nonsingular ((setBytes k.getPvtKeyBytes : Nat) : Fp) ((y : Nat) : Fp) := by
        rw [secp_nonsingular_iff]
        have := (ZMod.natCast_eq_natCast_iff' _ _ secpP).2 h2
        push_cast at this
        exact this
      have hQ := WeierstrassCurve.Affine.Point.some_ne_zero hn
      have hn' : secp.Nonsingular ((setBytes k.getPvtKeyBytes : Nat) : Fp) (-((y : Nat) : Fp)) := by
        rw [secp_nonsingular_iff, neg_sq]
        exact (secp_nonsingular_iff _ _).1 hn
      have hQ' := WeierstrassCurve.Affine.Point.some_ne_zero hn'
      have hb : ser256 ((setBytes k.getPvtKeyBytes : Nat) : Fp).val = k.getPvtKeyBytes := by
        rw [ZMod.val_natCast_of_lt h1, ser256]
        have := beBytes_setBytes k.getPvtKeyBytes
        rwa [k.getPvtKeyBytes_length] at this
      have hy0 := secp_y_ne_zero hn
      have hval : (-((y : Nat) : Fp)).val = secpP - ((y : Nat) : Fp).val := by
        have : NeZero ((y : Nat) : Fp) := ⟨hy0⟩
        exact ZMod.val_neg_of_ne_zero _
      have hlt : ((y : Nat) : Fp).val < secpP := ZMod.val_lt _
      have hodd := secpP_odd
      have hpar : ((y : Nat) : Fp).val % 2 = 0 ↔ ¬ (-((y : Nat) : Fp)).val % 2 = 0 := by rw [hval]; omega
      by_cases hy : ((y : Nat) : Fp).val % 2 = 0
      · rcases hc with hc | hc
        · refine ⟨.some _ _ hn, hQ, ?_⟩
          simp only [serP]; rw [if_pos hy, hb, hc]
        · refine ⟨.some _ _ hn', hQ', ?_⟩
          simp only [serP]; rw [if_neg (hpar.1 hy), hb, hc]
      · rcases hc with hc | hc
        · refine ⟨.some _ _ hn', hQ', ?_⟩
          simp only [serP]; rw [if_pos (not_not.1 fun h => hy (hpar.2 h)), hb, hc]
        · refine ⟨.some _ _ hn, hQ, ?_⟩
          simp only [serP]; rw [if_neg hy, hb, hc]
  have h45 : k.bytes.getD 45 0 = k.byteAt pubKeyStart := bytes_first k
  constructor
  · intro hnv
    by_contra hd
    have hd' : ∀ d : Defect, ¬ d.In prvBytes pubBytes k.bytes := fun d h => hd ⟨d, h⟩
    refine hnv ⟨k.len, ?_, ?_⟩
    · intro h4
      rw [hpar]
      constructor
      · by_contra h; exact hd' .fingerprintAtDepthZero ⟨h4, h⟩
      · by_contra h; exact hd' .childNumberAtDepthZero ⟨h4, h⟩
    · rw [bytes_key]
      by_cases hprv : prvBytes (k.bytes.take 4)
      · left
        refine ⟨hprv, ?_⟩
        have h0 : k.byteAt pubKeyStart = 0 := by
          by_contra h
          by_cases h23 : k.byteAt pubKeyStart = 2 ∨ k.byteAt pubKeyStart = 3
          · exact hd' .privateVersionPublicKey ⟨hprv, by rw [h45]; exact h23⟩
          · exact hd' .privatePrefix ⟨hprv, by rw [h45]; exact ⟨h, fun e => h23 (.inl e), fun e => h23 (.inr e)⟩⟩
        have hr : 1 ≤ setBytes k.getPvtKeyBytes ∧ setBytes k.getPvtKeyBytes < secpN := by
          by_contra h
          refine hd' .scalarOutOfRange ⟨hprv, by rw [h45]; exact h0, ?_⟩
          rw [bytes_secret, parse256]
          generalize secpN = n at h ⊢
          generalize setBytes k.getPvtKeyBytes = x at h ⊢
          omega
        obtain ⟨s, h1, h2, h3⟩ := hsc.2 hr
        exact Exists.intro s (And.intro h1 (And.intro h2 (by rw [h0, ← h3])))
      · have hpub : pubBytes (k.bytes.take 4) := by
          by_contra h; exact hd' .unknownVersion ⟨hprv, h⟩
        right
        refine ⟨hpub, hP.2 ?_⟩
        have h23 : k.byteAt pubKeyStart = 2 ∨ k.byteAt pubKeyStart = 3 := by
          by_contra h
          by_cases h0 : k.byteAt pubKeyStart = 0
          · exact hd' .publicVersionPrivateKey ⟨hpub, by rw [h45]; exact h0⟩
          · exact hd' .publicPrefix ⟨hpub, by rw [h45]; exact ⟨h0, fun e => h (.inl e), fun e => h (.inr e)⟩⟩
        refine ⟨h23, ?_⟩
        by_contra h
        refine hd' .notOnCurve ⟨hpub, by rw [h45]; exact h23, ?_⟩
        rw [bytes_secret]
        exact h
  · rintro ⟨d, hd⟩ ⟨-, h4, hkey⟩
    rw [bytes_key] at hkey
    have hprvkey : (∃ s, 1 ≤ s ∧ s < secpN ∧ k.byteAt pubKeyStart :: k.getPvtKeyBytes = 0 :: ser256 s) →
        k.byteAt pubKeyStart = 0 ∧ 1 ≤ setBytes k.getPvtKeyBytes ∧ setBytes k.getPvtKeyBytes < secpN := by
      intro h
      obtain ⟨s, h1, h2, h3⟩ := h
      have := List.cons.inj h3
      exact And.intro this.1 (hsc.1 (Exists.intro s (And.intro h1 (And.intro h2 this.2))))
    cases d with
    | publicVersionPrivateKey =>
      rcases hkey with ⟨hv, -⟩ | ⟨-, h⟩
      · exact hpp ⟨hv, hd.1⟩
      · have := hd.2
        rw [h45] at this
        rcases (hP.1 h).1 with e | e <;> rw [e] at this <;> exact absurd this (by decide)
    | privateVersionPublicKey =>
      rcases hkey with ⟨-, h⟩ | ⟨hv, -⟩
      · have := hd.2
        rw [h45, (hprvkey h).1] at this
        exact absurd this (by decide)
      · exact hpp ⟨hd.1, hv⟩
    | publicPrefix =>
      rcases hkey with ⟨hv, -⟩ | ⟨-, h⟩
      · exact hpp ⟨hv, hd.1⟩
      · have := hd.2
        rw [h45] at this
        exact (hP.1 h).1.elim this.2.1 this.2.2
    | privatePrefix =>
      rcases hkey with ⟨-, h⟩ | ⟨hv, -⟩
      · have := hd.2
        rw [h45] at this
        exact this.1 (hprvkey h).1
      · exact hpp ⟨hd.1, hv⟩
    | fingerprintAtDepthZero => exact hd.2 (hpar.1 (h4 hd.1)).1
    | childNumberAtDepthZero => exact hd.2 (hpar.1 (h4 hd.1)).2
    | unknownVersion => exact hkey.elim (fun h => hd.1 h.1) (fun h => hd.2 h.1)
    | scalarOutOfRange =>
      rcases hkey with ⟨-, h⟩ | ⟨hv, -⟩
      · have h1 := (hprvkey h).2
        have h2 := hd.2.2
        rw [bytes_secret, parse256] at h2
        generalize secpN = n at h1 h2
        generalize setBytes k.getPvtKeyBytes = x at h1 h2
        omega
      · exact hpp ⟨hd.1, hv⟩
    | notOnCurve =>
      rcases hkey with ⟨hv, -⟩ | ⟨-, h⟩
      · exact hpp ⟨hv, hd.1⟩
      · apply hd.2.2
        rw [bytes_secret]
        exact (hP.1 h).2

/-- A valid extended key: xprv, depth 1, secret 1. -/
example : ValidExtended prvBytes pubBytes
    ([4, 0x88, 0xad, 0xe4] ++ [1] ++ [1, 2, 3, 4] ++ [0, 0, 0, 9] ++ List.replicate 32 7 ++ 0 :: ser256 1) := by
  refine ⟨by decide +kernel, fun h => absurd h (by decide +kernel), .inl ⟨⟨bitcoinxprvxpub, ?_, by decide +kernel⟩, 1, le_rfl,
    by decide +kernel, by decide +kernel⟩⟩
  exact (registered_iff _).2 (by decide +kernel)

/-! ### No defect is refused -/

instance : DecidablePred prvBytes := fun v =>
  decidable_of_iff (∃ e ∈ entries, v = ser32 e.pvtKeyFlag.toNat) (by simp only [prvBytes, registered_iff])

instance : DecidablePred pubBytes := fun v =>
  decidable_of_iff (∃ e ∈ entries, v = ser32 e.pubKeyFlag.toNat) (by simp only [pubBytes, registered_iff])

/-- 78 bytes by their fields; the chain code is fixed. -/
def extended (version : Bytes) (depth : UInt8) (parent child : Bytes) (prefix_ : UInt8) (key : Bytes) : Bytes :=
  version ++ [depth] ++ parent ++ child ++ List.replicate 32 7 ++ [prefix_] ++ key

/-- A key with the defect and no other: version xprv or xpub, depth 0 without parent, secret 1 or x = 1, where not said
otherwise. -/
def defective : Defect → Bytes
  | .publicVersionPrivateKey => extended [4, 0x88, 0xb2, 0x1e] 0 (List.replicate 4 0) (List.replicate 4 0) 0 (beBytes 32 1)
  | .privateVersionPublicKey => extended [4, 0x88, 0xad, 0xe4] 0 (List.replicate 4 0) (List.replicate 4 0) 2 (beBytes 32 1)
  | .publicPrefix => extended [4, 0x88, 0xb2, 0x1e] 0 (List.replicate 4 0) (List.replicate 4 0) 4 (beBytes 32 1)
  | .privatePrefix => extended [4, 0x88, 0xad, 0xe4] 0 (List.replicate 4 0) (List.replicate 4 0) 1 (beBytes 32 1)
  | .fingerprintAtDepthZero => extended [4, 0x88, 0xad, 0xe4] 0 [1, 2, 3, 4] (List.replicate 4 0) 0 (beBytes 32 1)
  | .childNumberAtDepthZero => extended [4, 0x88, 0xad, 0xe4] 0 (List.replicate 4 0) [0, 0, 0, 1] 0 (beBytes 32 1)
  | .unknownVersion => extended (List.replicate 4 0) 0 (List.replicate 4 0) (List.replicate 4 0) 0 (beBytes 32 1)
  | .scalarOutOfRange => extended [4, 0x88, 0xad, 0xe4] 0 (List.replicate 4 0) (List.replicate 4 0) 0 (beBytes 32 secpN)
  | .notOnCurve => extended [4, 0x88, 0xb2, 0x1e] 0 (List.replicate 4 0) (List.replicate 4 0) 2 (beBytes 32 5)

theorem defective_length (d : Defect) : (defective d).length = 78 := by
  cases d <;> decide +kernel

/-- No point of the curve has x = 5. -/
theorem five_not_on_curve : ¬ ∃ y : Nat, 5 < secpP ∧ y ^ 2 % secpP = (5 ^ 3 + 7) % secpP := by
  rintro ⟨y, -, h⟩
  have h' := (ZMod.natCast_eq_natCast_iff' _ _ secpP).2 h
  push_cast at h'
  have ha : ((132 : Nat) : Fp) = ((y : Nat) : Fp) ^ 2 := by rw [h']; norm_num
  have hy : ((y : Nat) : Fp) ≠ 0 := by
    intro h0
    rw [h0] at ha
    have : ((132 : Nat) : Fp) = ((0 : Nat) : Fp) := by rw [ha]; simp
    exact absurd ((ZMod.natCast_eq_natCast_iff' _ _ secpP).1 this) (by decide +kernel)
  have hr : ((modSqrt 132 : Nat) : Fp) ^ 2 = ((132 : Nat) : Fp) := by
    rw [ha]
    rcases modSqrt_sq 132 _ hy ha with e | e <;> rw [e]
    rw [neg_sq]
  have : ((modSqrt 132 ^ 2 : Nat) : Fp) = ((132 : Nat) : Fp) := by push_cast; push_cast at hr; exact hr
  exact absurd ((ZMod.natCast_eq_natCast_iff' _ _ secpP).1 this) (by decide +kernel)

/-- **C90.** No defect is refused: for each there is a key that has this one and no other, and it is accepted whatever the hash
function, as bytes and as text. -/
theorem C90_no_defect_refused (d : Defect) :
    (∀ d' : Defect, d'.In prvBytes pubBytes (defective d) ↔ d' = d) ∧
    ∃ k : Key, k.bytes = defective d ∧
      deserialize H (defective d ++ (H.sha256 (H.sha256 (defective d))).take 4) = (k, none) ∧
      b58Deserialize H (b58Encode (defective d ++ (H.sha256 (H.sha256 (defective d))).take 4)) = (k, none) := by
  refine ⟨?_, ?_⟩
  · intro d'
    constructor
    · intro h
      cases d <;> cases d' <;> first
        | rfl
        | (exfalso; revert h; unfold Defect.In; decide +kernel)
        | (exfalso; obtain ⟨h1, h2, -⟩ := h; revert h1 h2; decide +kernel)
    · rintro rfl
      cases d' with
      | notOnCurve =>
        refine ⟨by decide +kernel, by decide +kernel, ?_⟩
        have : parse256 ((defective .notOnCurve).drop 46) = 5 := by decide +kernel
        rw [this]
        exact five_not_on_curve
      | _ => unfold Defect.In; decide +kernel
  · have h := (accepted_iff H _ ⟨defective d, defective_length d⟩).2 rfl
    refine ⟨⟨defective d, defective_length d⟩, rfl, h, ?_⟩
    rw [b58Deserialize, b58Decode_encode]
    exact h

/-- The full claim is false. -/
theorem C90_full_false : ¬ C90_full := by
  intro h
  have h1 := (C90_no_defect_refused (hashesIL 1) .scalarOutOfRange).1 .scalarOutOfRange
  obtain ⟨k, hk, hd, -⟩ := (C90_no_defect_refused (hashesIL 1) .scalarOutOfRange).2
  obtain ⟨b, hb, e⟩ := (h (hashesIL 1) _).1 (by rw [hd])
  have hbl := hb.1
  have : b = defective .scalarOutOfRange := by
    have := congrArg (List.take 78) e
    rw [List.take_left' (defective_length _), List.take_left' hbl] at this
    exact this.symm
  rw [this] at hb
  exact (C90_defects _ (defective_length _)).2 ⟨.scalarOutOfRange, h1.2 rfl⟩ hb

/-! ### What derivation makes of them -/

include ho in
/-- **C90.** What `NewChildKey` checks: the kind of the key against its version bytes, and the result. Neither the range of the
secret nor the point is looked at. -/
theorem C90_derives_iff (k : Key) (i : UInt32) :
    let IL := parse256 ((H.hmacSha512 k.getChainCode
      ((if 2 ^ 31 ≤ i.toNat then 0 :: k.getPvtKeyBytes
        else if k.isPrivate then storedPoint (point (parse256 k.getPvtKeyBytes)) else k.getKeyBytes) ++ ser32 i.toNat)).take 32)
    (k.newChildKey H (Registry.init order) i).2 = none ↔
      (k.isPrivate = true ∧ prvBytes (k.bytes.take 4) ∧ (IL + parse256 k.getPvtKeyBytes) % secpN ≠ 0) ∨
      (k.isPrivate = false ∧ pubBytes (k.bytes.take 4) ∧ i.toNat < 2 ^ 31 ∧ IL % secpN ≠ 0) := by
  intro IL
  have hIL : IL = setBytes ((k.getIntermediary H i).take 32) := by
    simp only [IL, parse256]
    rw [getIntermediary_eq, publicKeyForPrivateKey_eq, storedPoint_eq]
  rw [prvBytes_iff, pubBytes_iff, hIL, parse256]
  cases hp : k.isPrivate with
  | true =>
    simp only [true_and, reduceCtorEq, false_and, or_false]
    by_cases hv : PvtVersion k.getVersion
    · rw [(newChildKey_private H ho k i hp hv).2]
      simp [hv]
    · rw [newChildKey_unregistered H ho k i (.inl hp) (by rw [hp]; simpa using hv)]
      simp [hv]
  | false =>
    simp only [true_and, reduceCtorEq, false_and, false_or]
    by_cases hi : i.toNat < 2 ^ 31
    · by_cases hv : PubVersion k.getVersion
      · have hc := newChildKey_public H ho k i hi hp hv
        by_cases h0 : setBytes ((k.getIntermediary H i).take 32) % secpN = 0
        · rw [(hc.1 h0).2]; simp [h0]
        · rw [(hc.2 h0).2]; exact ⟨fun _ => ⟨hv, hi, h0⟩, fun _ => rfl⟩
      · rw [newChildKey_unregistered H ho k i (.inr hi) (by rw [hp]; simpa using hv)]
        simp [hv]
    · rw [newChildKey_hardened_public H _ k i hp (by omega)]
      exact ⟨fun h => absurd h (by simp), fun h => absurd h.2.1 hi⟩

/-- The key with the defect. -/
def defectiveKey (d : Defect) : Key := ⟨defective d, defective_length d⟩

include ho in
/-- **C90.** Of the nine defects `NewChildKey` finds the four in which kind and version bytes do not go together; children of keys
with the other five are derived without an error (here with a hash function for which the left half is 1). -/
theorem C90_derives_from (d : Defect) :
    ((defectiveKey d).newChildKey (hashesIL 1) (Registry.init order) 0).2 = none ↔
      d ≠ .publicVersionPrivateKey ∧ d ≠ .privateVersionPublicKey ∧ d ≠ .privatePrefix ∧ d ≠ .unknownVersion := by
  have h := C90_derives_iff (hashesIL 1) order ho (defectiveKey d) 0
  dsimp only at h
  rw [hashesIL_take, show parse256 (beBytes 32 1) = 1 by decide +kernel] at h
  rw [h]
  cases d <;> simp only [ne_eq, reduceCtorEq, not_true_eq_false, not_false_eq_true, and_true, and_false,
    iff_true, iff_false] <;> decide +kernel

end

end Bips
