import Verif.Props.Wallet

/-!
# C86: from a seed or a root key typed into the window to the texts shown

C71 starts from a mnemonic. The window also has fields for a seed and for an extended private key; what it shows for them is
compared with BIP-32 here.
-/

namespace Bips
open Spec

/-! ### Reading a node back from the 78 bytes -/

/-- Sizes of the parts of a node. -/
structure Sized (n : Node) : Prop where
  depth : n.depth ≤ 255
  fingerPrint : n.fingerPrint.length = 4
  chainCode : n.chainCode.length = 32
  scalar : 1 ≤ n.scalar ∧ n.scalar < secpN

theorem fields_of_bytes {k : Key} {v : UInt32} {d f c cc kb : Bytes} (hd : d.length = 1) (hf : f.length = 4)
    (hc : c.length = 4) (hcc : cc.length = 32) (hk : k.bytes = putUint32 v ++ d ++ f ++ c ++ cc ++ kb) :
    k.fields = ⟨v, d, f, c, cc, kb⟩ := by
  rw [bytes_of_fields] at hk
  have l1 : (putUint32 k.fields.version).length = 4 := by simp [putUint32]
  have l2 : k.fields.depth.length = 1 := by rw [show k.fields.depth = k.getDepth from rfl, Key.getDepth_eq]; rfl
  have l3 : k.fields.fingerPrint.length = 4 := k.getFingerPrint_length
  have l4 : k.fields.childNumber.length = 4 := k.slice_len 9 13 (by omega)
  have l5 : k.fields.chainCode.length = 32 := k.getChainCode_length
  have l6 : (putUint32 v).length = 4 := by simp [putUint32]
  obtain ⟨hk, h6⟩ := List.append_inj hk (by simp only [List.length_append]; omega)
  obtain ⟨hk, h5⟩ := List.append_inj hk (by simp only [List.length_append]; omega)
  obtain ⟨hk, h4⟩ := List.append_inj hk (by simp only [List.length_append]; omega)
  obtain ⟨hk, h3⟩ := List.append_inj hk (by simp only [List.length_append]; omega)
  obtain ⟨hk, h2⟩ := List.append_inj hk (by omega)
  have h1 := congrArg getUint32 hk
  rw [getUint32_putUint32, getUint32_putUint32] at h1
  generalize k.fields = F at *
  obtain ⟨a, b, c', d', e, f'⟩ := F
  dsimp only at *
  subst h1 h2 h3 h4 h5 h6
  rfl

theorem ser32_length (n : Nat) : (ser32 n).length = 4 := by simp [ser32]

theorem Sized.xprv_length {n : Node} (h : Sized n) : n.xprv.length = 78 := by
  rw [Node.xprv]
  simp only [List.length_append, List.length_cons, ser32_length, beBytes_length, ser256_length, h.fingerPrint, h.chainCode]

/-- The 78 bytes of a node belong to no key but its own. -/
theorem Sized.isNode {n : Node} (h : Sized n) {k : Key} (hk : k.bytes = n.xprv) : IsNode k n := by
  refine ⟨h.depth, h.scalar, fields_of_bytes rfl h.fingerPrint (ser32_length _) h.chainCode ?_⟩
  rw [hk, Node.xprv, beBytes_one h.depth]
  rfl

theorem IsNode.sized {k : Key} {n : Node} (h : IsNode k n) : Sized n := by
  refine ⟨h.depth, ?_, ?_, h.scalar⟩
  · rw [← show k.getFingerPrint = n.fingerPrint from congrArg KeyFields.fingerPrint h.fields]
    exact k.getFingerPrint_length
  · rw [← show k.getChainCode = n.chainCode from congrArg KeyFields.chainCode h.fields]
    exact k.getChainCode_length

section
variable (H : Hashes)

/-- A text with the checksum of 78 bytes is read as the key with these bytes. -/
theorem deserialize_check {t b : Bytes} (hb : b.length = 78) (ht : IsBase58Check H.sha256 t b) :
    ∃ k : Key, k.bytes = b ∧ b58Deserialize H t = (k, none) := by
  rw [IsBase58Check, isBase58_iff] at ht
  have hlen : ((H.sha256 (H.sha256 b)).take 4).length = 4 := by
    rw [List.length_take, H.sha256_length]; rfl
  have hd : b58Decode t = b ++ (H.sha256 (H.sha256 b)).take 4 := by rw [ht, b58Decode_encode]
  have h1 := (C15_deserialize_exact H (b58Decode t)).1.2 (by
    rw [hd]
    refine ⟨by rw [List.length_append, hb, hlen], ?_⟩
    rw [List.drop_left' hb, List.take_left' hb])
  have h2 := (deserialize_eq H (b58Decode t)).1
  refine ⟨(b58Deserialize H t).1, ?_, Prod.ext rfl h1⟩
  show (deserialize H (b58Decode t)).1.bytes = b
  rw [h2, hd, show 82 - (b ++ (H.sha256 (H.sha256 b)).take 4).length = 0 by rw [List.length_append, hb, hlen]]
  simp only [List.replicate_zero, List.append_nil]
  exact List.take_left' hb

variable {H}
variable {order : List (Bytes × List VersionBytes)} {S : WordState}

/-- The root key of a reachable state whose root key text is the Base58Check text of 78 bytes. -/
theorem root_of_text {R : Registry} {fs : List Frame} {u : Ui} (hrun : Ui.run H S R {} fs = .ok u) {b : Bytes}
    (hb : b.length = 78) (ht : IsBase58Check H.sha256 u.rootKeyStr b) :
    u.rootKey.bytes = b ∧ u.tabs = (deriveBIP32Result H R u.rootKey u.currentPath).1 := by
  obtain ⟨k, hk, hd⟩ := deserialize_check H hb ht
  rcases C60_tabs_partial hrun with ⟨h1, h2⟩ | ⟨-, h2⟩
  · refine ⟨?_, h1⟩
    by_cases h0 : u.rootKey.bytes = List.replicate 78 0
    · exfalso
      have e : u.rootKeyStr = [] := by
        rw [h2, show u.rootKey = Key.zero from Key.ext' h0]
        rfl
      rw [e] at hd
      have := (C15_deserialize_exact H (b58Decode [])).1.1 (congrArg Prod.snd hd)
      revert this
      rw [show (b58Decode ([] : Bytes)) = [] by decide +kernel]
      simp
    · have := C16_base58_roundtrip H u.rootKey h0
      rw [← h2, hd] at this
      rw [← (Prod.mk.inj this).1, hk]
  · rw [hd] at h2
    exact absurd rfl h2

end

section
variable (H : Hashes) (order : List (Bytes × List VersionBytes)) (ho : order.Perm pathTable) {S : WordState}

/-- What a reachable state shows for a node as root and a path. -/
def ShowsWallet (u : Ui) (n0 : Node) (cs : List Comp) : Prop :=
  u.tabs.length = cs.length + 1 ∧
  ∀ j n, j ≤ cs.length → n0.descend H.suite ((cs.take j).map Comp.value) = some n →
    ∃ kp, u.tabs[j]? = some kp ∧
      Shows H.suite H.keccak256 (pathText (cs.take j)) n (kp.labels H (Registry.init order)) ∧
      (u.selected = j → u.shown = .ok (some kp))

/-- The path entered: `cs`, with small numbers, or not valid, which counts as `m`. -/
def EntersPath (p : Bytes) (cs : List Comp) : Prop :=
  (PathText (stripSpace p) cs ∧ ∀ c ∈ cs, decValue c.digits < 2 ^ 31) ∨ (pathIsValid p = false ∧ cs = [])

include ho

theorem wallet_of_root {fs : List Frame} {u : Ui} (hrun : Ui.run H S (Registry.init order) {} fs = .ok u)
    {cs : List Comp} (hcs : EntersPath u.derivationStr cs) {n0 : Node} (h0 : IsNode u.rootKey n0) (hd : n0.depth = 0)
    (ht : u.tabs = (deriveBIP32Result H (Registry.init order) u.rootKey u.currentPath).1) :
    ShowsWallet H order u n0 cs := by
  have hpath : u.derivationPath = pathFormatted u.derivationStr := (run_inv hrun (init_inv _ _ _)).path
  have hcur : PathText (stripSpace u.currentPath) cs ∧ ∀ c ∈ cs, decValue c.digits < 2 ^ 31 := by
    have hsp := C38_white_space u.derivationStr
    rcases hcs with ⟨hc1, hc2⟩ | ⟨hc1, rfl⟩
    · have hv := smallPath_valid hc1 hc2
      refine ⟨?_, hc2⟩
      rw [Ui.currentPath, hpath, hsp.2.2.2.1, hv, if_pos rfl, pathString_eq, hsp.2.1, stripSpace_idem, stripSpace_idem]
      exact hc1
    · rw [Ui.currentPath, hpath, hsp.2.2.2.1, hc1, if_neg (by simp)]
      exact ⟨⟨.inl rfl, by simp, 0, 0, rfl⟩, by simp⟩
  obtain ⟨res, -, h6, h7, -⟩ := node_tabs H order ho h0 hd hcur.1 hcur.2 (Nat.zero_le _) (n := n0) rfl
  refine ⟨by rw [ht, h6]; exact h7, fun j n hj hn => ?_⟩
  obtain ⟨res', kp, h8, h9, h10, h11⟩ := node_tabs H order ho h0 hd hcur.1 hcur.2 hj hn
  have htab : u.tabs[j]? = some kp := by rw [ht, h8]; exact h10
  refine ⟨kp, htab, h11, fun hsel => ?_⟩
  have hlt : j < u.tabs.length := by
    by_contra hlt
    rw [List.getElem?_eq_none (by omega)] at htab
    cases htab
  rw [Ui.shown, hsel]
  have hz : u.tabs.length ≠ 0 := by omega
  rw [if_neg (by simp [hlt, hz]), if_neg (by omega), Int.toNat_natCast, htab]

/-- **C86**, a seed. In every state the window can reach in which the seed field holds, in hex, 16 bytes or more for which
BIP-32 defines a master key, each tab shows the node BIP-32 defines for that seed and that prefix of the path. -/
theorem C86_seed {fs : List Frame} {u : Ui} (hrun : Ui.run H S (Registry.init order) {} fs = .ok u) (b : Bytes)
    (hb : hexDecode u.seed = some b) (hl : 16 ≤ b.length) (cs : List Comp) (hcs : EntersPath u.derivationStr cs)
    (n0 : Node) (h0 : masterNode H.hmacSha512 b = some n0) : ShowsWallet H order u n0 cs := by
  have hne : u.seed ≠ [] := by
    intro e
    rw [e] at hb
    have : b = [] := (Option.some.inj (hb.symm.trans (show hexDecode [] = some [] from rfl)))
    rw [this] at hl
    simp at hl
  obtain ⟨⟨e, h1⟩, -, h2⟩ := (C65_chain hrun).2 (.inr hne)
  obtain ⟨root, h4, h5⟩ := masterNode_root H hb hl h0
  obtain rfl : root = u.rootKey := (Prod.mk.inj (Outcome.ok.inj (h4.symm.trans h1))).1
  exact wallet_of_root H order ho hrun hcs h5 (masterNode_depth h0) h2

/-- **C86**, a root key. In every state the window can reach in which the root key field holds the text of a private node of
depth 0 — typed by the user or put there by the window — each tab shows the node BIP-32 defines below it. -/
theorem C86_root {fs : List Frame} {u : Ui} (hrun : Ui.run H S (Registry.init order) {} fs = .ok u) (n0 : Node)
    (hn : Sized n0) (hd : n0.depth = 0) (ht : IsBase58Check H.sha256 u.rootKeyStr n0.xprv) (cs : List Comp)
    (hcs : EntersPath u.derivationStr cs) : ShowsWallet H order u n0 cs := by
  obtain ⟨h1, h2⟩ := root_of_text hrun hn.xprv_length ht
  exact wallet_of_root H order ho hrun hcs (hn.isNode h1) hd h2

omit ho in
/-- **C86**, any other key. In every state the window can reach in which the root key field holds the text of an extended
public key, or of a private key below depth 0, there is no tab. -/
theorem C86_other {fs : List Frame} {u : Ui} (hrun : Ui.run H S (Registry.init order) {} fs = .ok u) (n0 : Node)
    (hn : Sized n0)
    (ht : IsBase58Check H.sha256 u.rootKeyStr n0.xpub ∨
      (n0.depth ≠ 0 ∧ IsBase58Check H.sha256 u.rootKeyStr n0.xprv)) : u.tabs = [] := by
  have key : ∀ b : Bytes, b.length = 78 → IsBase58Check H.sha256 u.rootKeyStr b →
      (∀ k : Key, k.bytes = b → ¬ GoodRoot k) → u.tabs = [] := by
    intro b hb hc hg
    obtain ⟨h1, h2⟩ := root_of_text hrun hb hc
    rw [h2, deriveBIP32Result, if_pos]
    rw [← Bool.not_eq_false, goodRoot_iff]
    exact hg _ h1
  have hser : (serP (point n0.scalar)).length = 33 ∧ (serP (point n0.scalar)).head? ≠ some 0 := by
    have hne := point_ne_zero' hn.scalar.1 hn.scalar.2
    refine ⟨serP_length _ hne, ?_⟩
    generalize point n0.scalar = Q at hne
    cases Q with
    | zero => exact absurd rfl hne
    | some x y hxy =>
      rw [serP, List.head?_cons]
      split <;> decide
  rcases ht with ht | ⟨hd, ht⟩
  · refine key _ ?_ ht ?_
    · rw [Node.xpub]
      simp only [List.length_append, ser32_length, beBytes_length, hn.fingerPrint, hn.chainCode, hser.1]
    · intro k hk hg
      have := fields_of_bytes (k := k) (v := 0x0488b21e) (d := [UInt8.ofNat n0.depth]) rfl hn.fingerPrint (ser32_length n0.childNumber)
        hn.chainCode (kb := serP (point n0.scalar)) (by rw [hk, Node.xpub, beBytes_one hn.depth]; rfl)
      have h1 : k.getKeyBytes = serP (point n0.scalar) := congrArg KeyFields.keyBytes this
      have h2 := hg.priv
      rw [Key.isPrivate, beq_iff_eq] at h2
      apply hser.2
      rw [← h1, Key.getKeyBytes_eq, h2]
      rfl
  · refine key _ hn.xprv_length ht ?_
    · intro k hk hg
      have h1 := congrArg KeyFields.depth (hn.isNode hk).fields
      have h2 := h1.symm.trans hg.depth
      have h3 := congrArg UInt8.toNat (List.cons.inj h2).1
      rw [UInt8.toNat_ofNat', Nat.mod_eq_of_lt (by have := hn.depth; omega)] at h3
      exact hd h3

end

/-! ### Histories meeting the hypotheses -/

/-- Typing a seed and a path. -/
theorem run_seed_path (H : Hashes) (S : WordState) (R : Registry) {t : Bytes} {k : Key} {e : Option Err} (ht : t ≠ [])
    (hk : rootKeyFromSeed H t = .ok (k, e)) {p : Bytes} (hp : pathString p ≠ []) :
    ∃ u, Ui.run H S R {} [{ seedEdit := some t, derivationEdit := some p }, {}] = .ok u ∧ u.seed = t ∧
      u.derivationStr = p := by
  have h1 : Ui.frame H S R {} { seedEdit := some t, derivationEdit := some p } =
      .ok { seedField := t, derivationField := p } := frame_ok.2 ⟨{}, rfl, rfl⟩
  obtain ⟨w, hw, w1, w2, w3, w4⟩ : ∃ w, Ui.onSeedChange H R { seedField := t, derivationField := p } = .ok w ∧
      w.seed = t ∧ w.rootKeyStr = w.rootKeyField ∧ w.derivationField = p ∧ w.derivationStr = [] := by
    unfold Ui.onSeedChange Ui.rootFromSeed
    exact ⟨_, Outcome.bind_ok.2 ⟨_, hk, rfl⟩, rfl, rfl, rfl, rfl⟩
  have hu : Ui.update H S R none { seedField := t, derivationField := p } = .ok (w.onDerivationPathChange H R) := by
    unfold Ui.update
    refine Outcome.bind_ok.2 ⟨_, rfl, Outcome.bind_ok.2 ⟨_, rfl, Outcome.bind_ok.2 ⟨_, rfl, Outcome.bind_ok.2 ⟨w,
      (if_pos (by exact ht)).trans hw, ?_⟩⟩⟩⟩
    rw [if_neg (by simp [w2])]
    dsimp only
    rw [if_pos (by rw [w3, w4]; exact hp)]
  refine ⟨w.onDerivationPathChange H R, ?_, w1, w3⟩
  rw [Ui.run, h1]
  show Outcome.bind (Ui.frame _ S R { seedField := t, derivationField := p } {}) _ = _
  rw [frame_ok.2 ⟨_, hu, (layout_idle _).symm⟩]
  rfl

/-- Typing a root key and a path. -/
theorem run_root_path (H : Hashes) (S : WordState) (R : Registry) {k : Key} (hk : k.bytes ≠ List.replicate 78 0)
    {p : Bytes} (hp : pathString p ≠ []) :
    ∃ u, Ui.run H S R {} [{ rootKeyEdit := some (k.string H), derivationEdit := some p }, {}] = .ok u ∧
      u.rootKeyStr = k.string H ∧ u.derivationStr = p := by
  have ht : k.string H ≠ [] := by
    intro e
    have := C16_base58_roundtrip H k hk
    rw [e] at this
    have := (C15_deserialize_exact H (b58Decode [])).1.1 (congrArg Prod.snd this)
    revert this
    rw [show (b58Decode ([] : Bytes)) = [] by decide +kernel]
    simp
  generalize hs : k.string H = t at ht
  have h1 : Ui.frame H S R {} { rootKeyEdit := some t, derivationEdit := some p } =
      .ok { rootKeyField := t, derivationField := p } := frame_ok.2 ⟨{}, rfl, rfl⟩
  obtain ⟨w, hw, w1, w3, w4⟩ : ∃ w, Ui.onRootKeyStrChange H R { rootKeyField := t, derivationField := p } = w ∧
      w.rootKey = k ∧ w.derivationField = p ∧ w.derivationStr = [] := by
    unfold Ui.onRootKeyStrChange
    dsimp only
    rw [← hs, C16_base58_roundtrip H k hk]
    exact ⟨_, rfl, rfl, rfl, rfl⟩
  have hu : Ui.update H S R none { rootKeyField := t, derivationField := p } = .ok (w.onDerivationPathChange H R) := by
    unfold Ui.update
    refine Outcome.bind_ok.2 ⟨_, rfl, Outcome.bind_ok.2 ⟨_, rfl, Outcome.bind_ok.2 ⟨_, rfl, Outcome.bind_ok.2 ⟨_, rfl, ?_⟩⟩⟩⟩
    rw [if_pos (by exact ht.symm)]
    dsimp only
    rw [show ({ rootKeyField := t, derivationField := p, derivationPath := pathFormatted [] } : Ui) =
      { rootKeyField := t, derivationField := p } from rfl, hw]
    rw [if_pos (by rw [w3, w4]; exact hp)]
  refine ⟨w.onDerivationPathChange H R, ?_, ?_, w3⟩
  · rw [Ui.run, h1]
    show Outcome.bind (Ui.frame _ S R { rootKeyField := t, derivationField := p } {}) _ = _
    rw [frame_ok.2 ⟨_, hu, (layout_idle _).symm⟩]
    rfl
  · show w.rootKey.string H = t
    rw [w1, hs]

/-- A history as in `C86_seed`: a seed of 16 bytes with upper case digits and a path of five components with white space; all
six nodes exist. -/
example (order : List (Bytes × List VersionBytes)) (S : WordState) :
    ∃ fs u b n0 n, Ui.run (hashesIL 5) S (Registry.init order) {} fs = .ok u ∧ hexDecode u.seed = some b ∧ b.length = 16 ∧
      EntersPath u.derivationStr bip44Comps ∧ masterNode (hashesIL 5).hmacSha512 b = some n0 ∧
      n0.descend (hashesIL 5).suite ((bip44Comps.take 5).map Comp.value) = some n := by
  obtain ⟨k, hk⟩ := example_root
  obtain ⟨u, u1, u2, u3⟩ := run_seed_path (hashesIL 5) S (Registry.init order) (by decide) hk
    (p := str "m/44'/0'/0' /0/7") (by decide +kernel)
  obtain ⟨b, hb, hl⟩ : ∃ b, hexDecode (str "000102030405060708090a0b0c0d0E0F") = some b ∧ b.length = 16 :=
    ⟨_, rfl, by decide +kernel⟩
  have hp : parse256 (((hashesIL 5).hmacSha512 (str "Bitcoin seed") b).take 32) = 5 := by
    rw [hashesIL_take]; decide +kernel
  obtain ⟨n0, h0, hd, hsc⟩ : ∃ n0, masterNode (hashesIL 5).hmacSha512 b = some n0 ∧ n0.depth = 0 ∧ n0.scalar = 5 := by
    unfold masterNode
    dsimp only
    rw [hp, if_neg (by decide)]
    exact ⟨_, rfl, rfl, rfl⟩
  obtain ⟨n, hn⟩ := descend_five ((bip44Comps.take 5).map Comp.value) n0 (by rw [hd]; decide) (by rw [hd, hsc]; decide)
  exact ⟨_, u, b, n0, n, u1, by rw [u2]; exact hb, hl, .inl ⟨by rw [u3]; exact bip44_text, by decide +kernel⟩, h0, hn⟩

/-- Histories as in `C86_root` and `C86_other`: for every node there is one with its private text in the root key field, and one
with its public text. -/
theorem run_node (H : Hashes) (order : List (Bytes × List VersionBytes)) (ho : order.Perm pathTable) (S : WordState) {k : Key}
    {n0 : Node} (h : IsNode k n0) {p : Bytes} (hp : pathString p ≠ []) :
    (∃ fs u, Ui.run H S (Registry.init order) {} fs = .ok u ∧ IsBase58Check H.sha256 u.rootKeyStr n0.xprv ∧
      u.derivationStr = p) ∧
    (∃ fs u, Ui.run H S (Registry.init order) {} fs = .ok u ∧ IsBase58Check H.sha256 u.rootKeyStr n0.xpub ∧
      u.derivationStr = p) := by
  have hz : ∀ k' : Key, k'.getVersion ≠ 0 → k'.bytes ≠ List.replicate 78 0 := by
    intro k' hv e
    apply hv
    rw [show k' = Key.zero from Key.ext' e]; decide +kernel
  have h1 := hz k (by rw [h.version]; decide)
  have h2 := hz (k.publicKeyExtended (Registry.init order)) (by
    have := congrArg KeyFields.version (neuter_xprv order ho h.xprv)
    rw [show (k.publicKeyExtended (Registry.init order)).getVersion = neuterVersion k.getVersion from this, h.version]
    decide +kernel)
  obtain ⟨u, a1, a2, a3⟩ := run_root_path H S (Registry.init order) h1 hp
  obtain ⟨v, b1, b2, b3⟩ := run_root_path H S (Registry.init order) h2 hp
  refine ⟨⟨_, u, a1, ?_, a3⟩, ⟨_, v, b1, ?_, b3⟩⟩
  · rw [← h.bytes, C16_text H k h1]; exact a2
  · rw [← h.neuter order ho, C16_text H _ h2]; exact b2

/-- A node as in `C86_root`, with nothing special about it. -/
example : ∃ k n0, IsNode k n0 ∧ Sized n0 ∧ n0.depth = 0 ∧ n0.scalar = 5 := by
  have h : IsNode (xprvKey 5) ⟨0, List.replicate 4 0, 0, List.replicate 32 0, 5⟩ :=
    ⟨by decide, by decide, by rw [xprvKey_fields]; rfl⟩
  exact ⟨_, _, h, h.sized, rfl, rfl⟩

end Bips
