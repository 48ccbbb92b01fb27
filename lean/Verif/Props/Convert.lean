import Verif.Props.OwnVersions
import Verif.Props.Distinct
import Verif.Props.Derive

/-!
# C96: changing the version bytes of a key

Wallets ask for the same key as xprv, yprv or zprv, xpub, ypub or zpub (SLIP-132); `SetVersion` makes one of the other. Here is
that it does not matter when this is done: before deriving, between two steps, or after neutering.
-/

namespace Bips
open Spec

/-- The version goes with the kind of the key. -/
def FitsKind (k : Key) (v : UInt32) : Prop := if k.isPrivate then PvtVersion v else PubVersion v

theorem fields_convert (k : Key) (v : UInt32) : (k.setVersionUint32 v).fields = { k.fields with version := v } :=
  (C20_lenses k).1 v

theorem convert_keyBytes (k : Key) (v : UInt32) : (k.setVersionUint32 v).getKeyBytes = k.getKeyBytes :=
  congrArg KeyFields.keyBytes (fields_convert k v)

theorem convert_version (k : Key) (v : UInt32) : (k.setVersionUint32 v).getVersion = v :=
  congrArg KeyFields.version (fields_convert k v)

theorem convert_chainCode (k : Key) (v : UInt32) : (k.setVersionUint32 v).getChainCode = k.getChainCode :=
  congrArg KeyFields.chainCode (fields_convert k v)

theorem convert_depth (k : Key) (v : UInt32) : (k.setVersionUint32 v).getDepth = k.getDepth :=
  congrArg KeyFields.depth (fields_convert k v)

theorem convert_kind (k : Key) (v : UInt32) :
    (k.setVersionUint32 v).isPrivate = k.isPrivate ∧ (k.setVersionUint32 v).getPvtKeyBytes = k.getPvtKeyBytes := by
  have h := k.getKeyBytes_eq
  have h1 := isPrivate_of_keyBytes _ ((convert_keyBytes k v).trans h)
  have h2 := isPrivate_of_keyBytes _ h
  exact ⟨h1.1.trans h2.1.symm, h1.2.trans h2.2.symm⟩

theorem convert_depthByte (k : Key) (v : UInt32) :
    (k.setVersionUint32 v).byteAt depthStart = k.byteAt depthStart := by
  have := convert_depth k v
  rw [Key.getDepth_eq, Key.getDepth_eq] at this
  exact (List.cons.inj this).1

theorem convert_intermediary (H : Hashes) (k : Key) (v i : UInt32) :
    (k.setVersionUint32 v).getIntermediary H i = k.getIntermediary H i := by
  rw [getIntermediary_eq, getIntermediary_eq, convert_chainCode, convert_keyBytes, (convert_kind k v).1, (convert_kind k v).2]

section
variable (H : Hashes) (order : List (Bytes × List VersionBytes)) (ho : order.Perm pathTable)
include ho

/-- The child of a private key, whatever is wrong with the key. -/
theorem convert_private (k : Key) (v i : UInt32) (hp : k.isPrivate = true) (hk : PvtVersion k.getVersion) (hv : PvtVersion v) :
    (k.setVersionUint32 v).newChildKey H (Registry.init order) i =
      ((k.newChildKey H (Registry.init order) i).1.setVersionUint32 v, (k.newChildKey H (Registry.init order) i).2) := by
  have a := newChildKey_private_any H (Registry.init order) k i hp (fun e => (pvtFlag_nil ho _).1 e hk)
  have b := newChildKey_private_any H (Registry.init order) (k.setVersionUint32 v) i ((convert_kind k v).1.trans hp)
    (fun e => (pvtFlag_nil ho _).1 e (by rw [convert_version]; exact hv))
  simp only [convert_intermediary, convert_version, convert_depthByte, (convert_kind k v).2] at a b
  refine Prod.ext (Key.fields_inj ?_) (b.2.trans a.2.symm)
  rw [b.1, fields_convert, a.1]

theorem convert_public (k : Key) (v i : UInt32) (hp : k.isPrivate = false) (hk : PubVersion k.getVersion) (hv : PubVersion v)
    (hi : i.toNat < 2 ^ 31) :
    (k.setVersionUint32 v).newChildKey H (Registry.init order) i =
      ((k.newChildKey H (Registry.init order) i).1.setVersionUint32 v, (k.newChildKey H (Registry.init order) i).2) := by
  obtain ⟨e, es, he⟩ := List.exists_cons_of_ne_nil (fun h => (pubFlag_nil ho _).1 h hk)
  obtain ⟨e', es', he'⟩ := List.exists_cons_of_ne_nil (fun h => (pubFlag_nil ho v).1 h hv)
  have a := newChildKey_public_any H (Registry.init order) k i hi hp he
  have b := newChildKey_public_any H (Registry.init order) (k.setVersionUint32 v) i hi ((convert_kind k v).1.trans hp)
    (by rw [convert_version]; exact he')
  have hev := (pubFlag_cons ho he').2
  simp only [convert_intermediary, convert_depthByte, convert_keyBytes, hev] at a b
  by_cases h : setBytes ((k.getIntermediary H i).take 32) % secpN = 0
  · obtain ⟨a1, a2⟩ := a.1 h
    obtain ⟨b1, b2⟩ := b.1 h
    refine Prod.ext (Key.fields_inj ?_) (b2.trans a2.symm)
    rw [b1, fields_convert, a1]
  · obtain ⟨a1, a2⟩ := a.2 h
    obtain ⟨b1, b2⟩ := b.2 h
    refine Prod.ext (Key.fields_inj ?_) (b2.trans a2.symm)
    rw [b1, fields_convert, a1]

theorem child_private {k : Key} {i : UInt32} (hp : k.isPrivate = true) (hk : PvtVersion k.getVersion) :
    (k.newChildKey H (Registry.init order) i).1.isPrivate = true ∧
    (k.newChildKey H (Registry.init order) i).1.getVersion = k.getVersion := by
  have a := (newChildKey_private_any H (Registry.init order) k i hp (fun e => (pvtFlag_nil ho _).1 e hk)).1
  exact ⟨(isPrivate_of_keyBytes _ (congrArg KeyFields.keyBytes a)).1, congrArg KeyFields.version a⟩

theorem child_public {k c : Key} {i : UInt32} (hp : k.isPrivate = false) (hk : PubVersion k.getVersion)
    (hc : k.newChildKey H (Registry.init order) i = (c, none)) : c.isPrivate = false ∧ c.getVersion = k.getVersion := by
  have hi : i.toNat < 2 ^ 31 := by
    by_contra h
    rw [newChildKey_hardened_public H _ k i hp (by omega)] at hc
    simp at hc
  obtain ⟨e, es, he⟩ := List.exists_cons_of_ne_nil (fun h => (pubFlag_nil ho _).1 h hk)
  have a := newChildKey_public_any H (Registry.init order) k i hi hp he
  simp only [hc] at a
  have h : ¬ setBytes ((k.getIntermediary H i).take 32) % secpN = 0 := fun h => by simpa using (a.1 h).2
  have f := (a.2 h).1
  refine ⟨?_, (congrArg KeyFields.version f).trans (pubFlag_cons ho he).2⟩
  have hb : c.getKeyBytes = _ := congrArg KeyFields.keyBytes f
  rw [addPublicKeys, compressPublicKey] at hb
  rw [(isPrivate_of_keyBytes _ hb).1]
  rcases Nat.mod_two_eq_zero_or_one
    (curveAdd (expandPublicKey (publicKeyForPrivateKey ((k.getIntermediary H i).take 32))) (expandPublicKey k.getKeyBytes)).2 with h | h <;>
    simp [h]

/-- **C96**, one step. Converting a key and deriving a child gives the converted child, and an error in the same cases. -/
theorem C96_child (k : Key) (v i : UInt32) (hk : FitsKind k k.getVersion) (hv : FitsKind k v) :
    ((k.setVersionUint32 v).newChildKey H (Registry.init order) i).2 = (k.newChildKey H (Registry.init order) i).2 ∧
    ∀ c, k.newChildKey H (Registry.init order) i = (c, none) →
      (k.setVersionUint32 v).newChildKey H (Registry.init order) i = (c.setVersionUint32 v, none) := by
  unfold FitsKind at hk hv
  cases hp : k.isPrivate with
  | true =>
    rw [hp, if_pos rfl] at hk hv
    rw [convert_private H order ho k v i hp hk hv]
    exact ⟨rfl, fun c hc => by rw [hc]⟩
  | false =>
    rw [hp, if_neg (by simp)] at hk hv
    by_cases hi : i.toNat < 2 ^ 31
    · rw [convert_public H order ho k v i hp hk hv hi]
      exact ⟨rfl, fun c hc => by rw [hc]⟩
    · rw [newChildKey_hardened_public H _ k i hp (by omega),
        newChildKey_hardened_public H _ _ i ((convert_kind k v).1.trans hp) (by omega)]
      exact ⟨rfl, fun c hc => by simp at hc⟩

/-- **C96**, any number of steps. -/
theorem C96_path (k : Key) (v : UInt32) (is : List UInt32) (hk : FitsKind k k.getVersion) (hv : FitsKind k v) :
    deriveAll (Key.newChildKey H (Registry.init order)) (k.setVersionUint32 v) is =
      (deriveAll (Key.newChildKey H (Registry.init order)) k is).map (·.setVersionUint32 v) := by
  induction is generalizing k with
  | nil => rfl
  | cons i is ih =>
    obtain ⟨h1, h2⟩ := C96_child H order ho k v i hk hv
    rcases hc : k.newChildKey H (Registry.init order) i with ⟨c, _ | e⟩
    · rw [deriveAll, deriveAll, h2 c hc, hc]
      have hf : FitsKind c c.getVersion ∧ FitsKind c v := by
        unfold FitsKind at hk hv ⊢
        cases hp : k.isPrivate with
        | true =>
          rw [hp, if_pos rfl] at hk hv
          have := child_private H order ho (i := i) hp hk
          rw [hc] at this
          rw [this.1, this.2]
          exact ⟨hk, hv⟩
        | false =>
          rw [hp, if_neg (by simp)] at hk hv
          have := child_public H order ho hp hk hc
          rw [this.1, this.2]
          exact ⟨hk, hv⟩
      exact ih c hf.1 hf.2
    · rw [hc] at h1
      rcases hc' : (k.setVersionUint32 v).newChildKey H (Registry.init order) i with ⟨c', _ | e'⟩
      · rw [hc'] at h1; simp at h1
      · rw [deriveAll, deriveAll, hc, hc']; rfl

/-- **C96**, neutering. Converting a private key to the private version of a registered pair and neutering it gives the neutered
key converted to the public version of the pair; converting and neutering a public key gives the converted key. -/
theorem C96_neuter (k : Key) :
    (k.isPrivate = true → ∀ e, Registered e →
      (k.setVersionUint32 e.pvtKeyFlag).publicKeyExtended (Registry.init order) =
        (k.publicKeyExtended (Registry.init order)).setVersionUint32 e.pubKeyFlag) ∧
    (k.isPrivate = false → ∀ v, PubVersion v →
      (k.setVersionUint32 v).publicKeyExtended (Registry.init order) = k.setVersionUint32 v ∧
      (k.publicKeyExtended (Registry.init order)).setVersionUint32 v = k.setVersionUint32 v) := by
  refine ⟨fun hp e he => Key.fields_inj ?_, fun hp v hv => ⟨?_, Key.fields_inj ?_⟩⟩
  · rw [publicKeyExtended_private ho _ ((convert_kind k _).1.trans hp), fields_convert, fields_convert,
      publicKeyExtended_private ho _ hp, convert_version, neuterVersion_of he, (convert_kind k _).2]
  · exact (publicKeyExtended_public ho _ ((convert_kind k v).1.trans hp)).1 (by rw [convert_version]; exact hv)
  · rw [fields_convert, fields_convert]
    by_cases h : PubVersion k.getVersion
    · rw [(publicKeyExtended_public ho k hp).1 h]
    · rw [(publicKeyExtended_public ho k hp).2 h]

/-- **C96**, what stays. The version bytes do not enter the kind of the key, its hex texts or its addresses, whatever they are and
whatever they are replaced by; putting the old ones back restores the key; and the converted key can be read from its text. -/
theorem C96_views (k : Key) (v : UInt32) (p : Bytes) (b : UInt8) :
    let c := k.setVersionUint32 v
    let R := Registry.init order
    c.isPrivate = k.isPrivate ∧ c.privateKeyHex = k.privateKeyHex ∧ c.publicKeyHex R = k.publicKeyHex R ∧
    (KeyPath.mk p c).addrHex H R = (KeyPath.mk p k).addrHex H R ∧
    (KeyPath.mk p c).addrP2SH H R b = (KeyPath.mk p k).addrP2SH H R b ∧
    c.setVersionUint32 k.getVersion = k ∧ c.getVersion = v ∧ (v ≠ 0 → b58Deserialize H (c.string H) = (c, none)) := by
  intro c R
  have hx : c.publicKeyHex R = k.publicKeyHex R := by
    rw [publicKeyHex_eq order ho, publicKeyHex_eq order ho]
    congr 1
    cases hp : k.isPrivate with
    | true =>
      have h1 := congrArg KeyFields.keyBytes (publicKeyExtended_private ho c ((convert_kind k v).1.trans hp))
      have h2 := congrArg KeyFields.keyBytes (publicKeyExtended_private ho k hp)
      exact h1.trans (by rw [(convert_kind k v).2]; exact h2.symm)
    | false =>
      rw [(C27_neuter order ho c).2.2.2.1 ((convert_kind k v).1.trans hp), (C27_neuter order ho k).2.2.2.1 hp]
      exact convert_keyBytes k v
  refine ⟨(convert_kind k v).1, ?_, hx, ?_, ?_, ?_, convert_version k v, ?_⟩
  · unfold Key.privateKeyHex
    rw [(convert_kind k v).1]
    exact congrArg (fun x => if k.isPrivate = true then hexEncode x else []) (convert_kind k v).2
  · unfold KeyPath.addrHex
    rw [hx]
  · unfold KeyPath.addrP2SH
    rw [hx]
  · apply Key.fields_inj
    rw [fields_convert, fields_convert]
    rfl
  · intro hv
    apply C16_base58_roundtrip
    intro h
    apply hv
    have h0 : c = Key.zero := Key.ext' h
    rw [← convert_version k v]
    exact (congrArg Key.getVersion h0).trans (by decide +kernel)

omit ho in
theorem registered_ne_zero {v : UInt32} (h : PvtVersion v) : v ≠ 0 := by
  obtain ⟨e, he, rfl⟩ := h
  have : ∀ e ∈ entries, e.pvtKeyFlag ≠ 0 := by decide +kernel
  exact this e ((registered_iff e).1 he)

theorem convert_loop (v : UInt32) (hv : PvtVersion v) (vals : List UInt32) (d : Bytes) (k : Key) (hp : k.isPrivate = true)
    (hk : PvtVersion k.getVersion) :
    deriveLoop H (Registry.init order) vals d (k.setVersionUint32 v) =
      (deriveLoop H (Registry.init order) vals d k).map fun x => ⟨x.path, x.key.setVersionUint32 v⟩ := by
  induction vals generalizing d k with
  | nil => rfl
  | cons i vals ih =>
    obtain ⟨h1, h2⟩ := child_private H order ho (i := i) hp hk
    rw [deriveLoop, deriveLoop, convert_private H order ho k v i hp hk hv]
    dsimp only
    rw [ih _ _ h1 (by rw [h2]; exact hk)]
    rfl

/-- **C96**, `DeriveBIP32Result`: with the converted root every path gives the same list with the same labels, every key
converted. -/
theorem C96_derive (root : Key) (v : UInt32) (hk : PvtVersion root.getVersion) (hv : PvtVersion v) (p : Bytes) :
    deriveBIP32Result H (Registry.init order) (root.setVersionUint32 v) p =
      ((deriveBIP32Result H (Registry.init order) root p).1.map fun x => ⟨x.path, x.key.setVersionUint32 v⟩,
        (deriveBIP32Result H (Registry.init order) root p).2) := by
  have hval : ∀ k : Key, PvtVersion k.getVersion → k.isValid H = true := by
    intro k h
    rw [C18_isValid_iff]
    intro e
    have h0 : k = Key.zero := Key.ext' e
    apply registered_ne_zero h
    rw [h0]
    decide +kernel
  rw [deriveBIP32Result, deriveBIP32Result, hval root hk, hval _ (by rw [convert_version]; exact hv), (convert_kind root v).1,
    convert_depthByte]
  by_cases h1 : (!true || !root.isPrivate || root.byteAt depthStart != 0) = true
  · rw [if_pos h1, if_pos h1]; rfl
  · have hp : root.isPrivate = true := by simpa using (by simpa using h1 : root.isPrivate = true ∧ _).1
    rw [if_neg h1, if_neg h1]
    by_cases h2 : (!pathIsValid p) = true
    · rw [if_pos h2, if_pos h2]; rfl
    · rw [if_neg h2, if_neg h2]
      rcases valuesAtDepth p with ⟨vals, _ | e⟩
      · dsimp only
        by_cases h3 : vals.length > 0
        · rw [if_pos h3, if_pos h3, convert_loop H order ho v hv _ _ root hp hk]; rfl
        · rw [if_neg h3, if_neg h3]; rfl
      · rfl

/-- **C96**, watch-only. An account key neutered, converted to the public version of any registered pair and handed out gives,
for non-hardened indices, the converted public halves of the keys the owner derives, wherever both derive. -/
theorem C96_watch (is : List UInt32) (hi : ∀ i ∈ is, i.toNat < 2 ^ 31) (k : Key) (s : Nat) (hk : IsXprv k s)
    (hv : PvtVersion k.getVersion) (e : VersionBytes) (he : Registered e) (k' K' : Key)
    (h1 : deriveAll (Key.newChildKey H (Registry.init order)) k is = some k')
    (h2 : deriveAll (Key.newChildKey H (Registry.init order))
      ((k.publicKeyExtended (Registry.init order)).setVersionUint32 e.pubKeyFlag) is = some K') :
    K' = (k'.publicKeyExtended (Registry.init order)).setVersionUint32 e.pubKeyFlag ∧
    deriveAll (Key.newChildKey H (Registry.init order)) (k.setVersionUint32 e.pvtKeyFlag) is =
      some (k'.setVersionUint32 e.pvtKeyFlag) ∧
    (k'.setVersionUint32 e.pvtKeyFlag).publicKeyExtended (Registry.init order) = K' := by
  have hp : k.isPrivate = true := (isPrivate_of_keyBytes _ hk.1).1
  have hN : (k.publicKeyExtended (Registry.init order)).isPrivate = false := (C27_neuter order ho k).1
  have hf : FitsKind (k.publicKeyExtended (Registry.init order)) (k.publicKeyExtended (Registry.init order)).getVersion ∧
      FitsKind (k.publicKeyExtended (Registry.init order)) e.pubKeyFlag := by
    unfold FitsKind
    rw [hN, if_neg (by simp), if_neg (by simp)]
    refine ⟨?_, e, he, rfl⟩
    have := congrArg KeyFields.version (publicKeyExtended_private ho k hp)
    exact (show (k.publicKeyExtended (Registry.init order)).getVersion = _ from this) ▸ neuterVersion_pub _
  have hfk : FitsKind k k.getVersion ∧ FitsKind k e.pvtKeyFlag := by
    unfold FitsKind
    rw [hp, if_pos rfl, if_pos rfl]
    exact ⟨hv, e, he, rfl⟩
  rw [C96_path H order ho _ _ is hf.1 hf.2] at h2
  obtain ⟨K0, hK0, rfl⟩ := Option.map_eq_some_iff.1 h2
  have hK := C25_watch_only H order ho is hi k s hk hv k' K0 h1 hK0
  have hpk : k'.isPrivate = true := by
    clear hK hK0 h2 hf hN
    induction is generalizing k s with
    | nil => simp only [deriveAll, Option.some.injEq] at h1; rw [← h1]; exact hp
    | cons i is ih =>
      obtain ⟨c, hc, hr⟩ := deriveAll_cons.1 h1
      have hcp := child_private H order ho (i := i) hp hv
      have hx := step_xprv_any hk (fun e => (pvtFlag_nil ho _).1 e hv) hc
      rw [hc] at hcp
      refine ih (fun j hj => hi j (by simp [hj])) c _ hx.1 (hx.2 ▸ hv) hr hcp.1 ?_
      unfold FitsKind
      rw [hcp.1, if_pos rfl, if_pos rfl]
      exact ⟨hx.2 ▸ hv, e, he, rfl⟩
  refine ⟨by rw [hK], ?_, ?_⟩
  · rw [C96_path H order ho _ _ is hfk.1 hfk.2, h1]; rfl
  · rw [(C96_neuter order ho k').1 hpk e he, hK]

end

/-- The hypotheses are met: an xprv and the version bytes of zprv and zpub, three steps deep. -/
example (order : List (Bytes × List VersionBytes)) (ho : order.Perm pathTable) : ∃ (H : Hashes) (k k' K' : Key) (e : VersionBytes),
    IsXprv k 5 ∧ PvtVersion k.getVersion ∧ Registered e ∧
    e.pvtKeyFlag = 0x04b2430c ∧ e.pubKeyFlag = 0x04b24746 ∧ k.getVersion ≠ e.pvtKeyFlag ∧
    deriveAll (Key.newChildKey H (Registry.init order)) k [0, 7, 2147483647] = some k' ∧
    deriveAll (Key.newChildKey H (Registry.init order))
      ((k.publicKeyExtended (Registry.init order)).setVersionUint32 e.pubKeyFlag) [0, 7, 2147483647] = some K' := by
  have hx := xprvKey_isXprv (s := 5) (by decide) (by decide)
  have he : Registered bitcoinzprvzpub := (registered_iff _).2 (by decide +kernel)
  have hver : (xprvKey 5).getVersion = 0x0488ade4 := congrArg KeyFields.version (xprvKey_fields 5)
  obtain ⟨k', h1, -⟩ := long_paths order ho [0, 7, 2147483647] (xprvKey 5) 5 hx (xprvKey_version _) (by decide)
  rcases C25_public_succeeds (hashesIL 1) order ho _ (by decide) _ _ hx (xprvKey_version _) k' h1 with h | h
  · obtain ⟨-, pre, i, post, m, t, -, -, -, hz⟩ := h
    rw [ckdI_hashesIL _ _ _ _ (by decide)] at hz
    exact absurd hz (by decide)
  · refine ⟨hashesIL 1, xprvKey 5, k', (k'.publicKeyExtended (Registry.init order)).setVersionUint32 bitcoinzprvzpub.pubKeyFlag,
      bitcoinzprvzpub, hx, xprvKey_version _, he, rfl, rfl, by rw [hver]; decide, h1, ?_⟩
    have hN : ((xprvKey 5).publicKeyExtended (Registry.init order)).isPrivate = false := (C27_neuter order ho _).1
    have hp : (xprvKey 5).isPrivate = true := (isPrivate_of_keyBytes _ hx.1).1
    rw [C96_path _ order ho, h.1]
    · rfl
    · unfold FitsKind
      rw [hN, if_neg (by simp)]
      have h3 : ((xprvKey 5).publicKeyExtended (Registry.init order)).getVersion = neuterVersion (xprvKey 5).getVersion :=
        congrArg KeyFields.version (publicKeyExtended_private ho (xprvKey 5) hp)
      rw [h3]
      exact neuterVersion_pub _
    · unfold FitsKind
      rw [hN, if_neg (by simp)]
      exact ⟨_, he, rfl⟩

end Bips
