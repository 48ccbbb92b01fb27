import Verif.Spec.Wallet
import Verif.Props.Addr
import Verif.Props.Derive
import Verif.Props.Ui

/-!
# C71: from the mnemonic to the texts shown

`Spec/Wallet` says what a wallet shows for a mnemonic, a passphrase and a path; here this is compared with what the functions
of package util give and with what is on the screen in every reachable state of the example.
-/

namespace Bips
open Spec

/-! ### Base58 -/

theorem ofDigits_reverse (b : Nat) (l : List Nat) : Nat.ofDigits b l.reverse = ofDigitsBE b l := by
  induction l using List.reverseRecOn with
  | nil => rfl
  | append_singleton l d ih =>
    rw [List.reverse_append, List.reverse_singleton, List.singleton_append, Nat.ofDigits_cons, ih, ofDigitsBE_concat]
    ring

theorem setBytes_ofDigits (b : Bytes) : Nat.ofDigits 256 (b.reverse.map UInt8.toNat) = setBytes b := by
  rw [List.map_reverse, ofDigits_reverse]
  rfl

/-- The encoder of btcutil gives the Base58 text, and no other text is one. -/
theorem isBase58_iff (t b : Bytes) : IsBase58 t b ↔ t = b58Encode b := by
  have hch : ∀ ds : List Nat, ds.map (fun d => base58Alphabet.getD d 0) = ds.map b58Char := fun _ => rfl
  have htb : b.takeWhile (· = 0) = b.takeWhile (· == 0) := by congr
  constructor
  · rintro ⟨ds, h1, h2, h3, h4⟩
    rw [hch] at h2
    rw [ofDigits_reverse, setBytes_ofDigits] at h4
    have htd : ds.takeWhile (· = 0) = ds.takeWhile (· == 0) := by congr
    rw [htb, htd] at h3
    have hds : ds = List.replicate (b.takeWhile (· == 0)).length 0 ++ toDigitsBE 58 (setBytes b) := by
      rw [← h4, toDigitsBE_ofDigitsBE 58 (by omega) ds h1, ← h3]
      conv_lhs => rw [← List.takeWhile_append_dropWhile (p := (· == 0)) (l := ds), takeWhile_zero_eq_replicate]
    rw [h2, b58Encode_eq, hds, List.map_append]
    congr 1
    simp [List.map_const']
  · rintro rfl
    have hd := toDigitsBE_lt 58 (by omega) (setBytes b)
    refine ⟨List.replicate (b.takeWhile (· == 0)).length 0 ++ toDigitsBE 58 (setBytes b), ?_, ?_, ?_, ?_⟩
    · intro d h
      rcases List.mem_append.1 h with h | h
      · have := List.eq_of_mem_replicate h; omega
      · exact hd d h
    · rw [hch, b58Encode_eq, List.map_append]
      congr 1
      simp [List.map_const']
    · have h1 := toDigitsBE_head_ne_zero 58 (by omega) (setBytes b)
      have h2 := List.takeWhile_append_dropWhile (p := (· == 0)) (l := toDigitsBE 58 (setBytes b))
      rw [h1] at h2
      have h3 : (toDigitsBE 58 (setBytes b)).takeWhile (· == 0) = [] := by simpa using h2
      have h4 : (toDigitsBE 58 (setBytes b)).takeWhile (· = 0) = [] := by rw [← h3]; congr
      rw [List.takeWhile_append_of_pos (by intro a ha; simp [List.eq_of_mem_replicate ha]), h4, htb]
      simp
    · rw [ofDigits_reverse, setBytes_ofDigits, ofDigitsBE_append, ofDigitsBE_toDigitsBE 58 (by omega)]
      have : ∀ k, ofDigitsBE 58 (List.replicate k 0) = 0 := by
        intro k
        induction k with
        | zero => rfl
        | succ k ih => rw [List.replicate_succ, ofDigitsBE_cons, ih]; simp
      rw [this]; simp

/-- **C16**, the text: `String` of a key that is not all zero is its Base58Check text, and the only one. -/
theorem C16_text (H : Hashes) (k : Key) (h : k.bytes ≠ List.replicate 78 0) (t : Bytes) :
    IsBase58Check H.sha256 t k.bytes ↔ t = k.string H := by
  have hk : k ≠ Key.zero := fun e => h (by rw [e]; rfl)
  rw [IsBase58Check, isBase58_iff, Key.string, Key.b58Serialize_ne_zero H k hk]

/-- **C51**, the text: an address is the Base58 text of version, HASH160 of the public key and checksum. -/
theorem C51_text (H : Hashes) (order : List (Bytes × List VersionBytes)) (ho : order.Perm pathTable) (p : Bytes) (k : Key)
    (Q : Pt) (h : HoldsPoint k Q) (v : UInt8) :
    IsBase58Check H.sha256 ((KeyPath.mk p k).addrP2SH H (Registry.init order) v)
      (v :: hash160 H.sha256 H.ripemd160 (serP Q)) := by
  have e : (KeyPath.mk p k).addrP2SH H (Registry.init order) v =
      b58Encode (addrPayload H.sha256 v (hash160 H.sha256 H.ripemd160 (serP Q))) := by
    rw [KeyPath.addrP2SH]
    dsimp only
    rw [(C35_hex_views order ho k).2.2.1.1, (publicBytes_of_holds order ho h).1]
    rfl
  exact (isBase58_iff _ _).2 e

/-! ### Nodes -/

/-- The hash functions of a specification. -/
def Hashes.suite (H : Hashes) : Suite := ⟨H.hmacSha512, H.sha256, H.ripemd160⟩

/-- `k` is the extended private key of the node `n`. -/
structure IsNode (k : Key) (n : Node) : Prop where
  depth : n.depth ≤ 255
  scalar : 1 ≤ n.scalar ∧ n.scalar < secpN
  fields : k.fields = ⟨0x0488ade4, [UInt8.ofNat n.depth], n.fingerPrint, ser32 n.childNumber, n.chainCode,
    0 :: ser256 n.scalar⟩

theorem IsNode.xprv {k : Key} {n : Node} (h : IsNode k n) : IsXprv k n.scalar :=
  ⟨congrArg KeyFields.keyBytes h.fields, h.scalar⟩

theorem IsNode.version {k : Key} {n : Node} (h : IsNode k n) : k.getVersion = 0x0488ade4 :=
  congrArg KeyFields.version h.fields

theorem pvtVersion_xprv : PvtVersion 0x0488ade4 :=
  ⟨bitcoinxprvxpub, (registered_iff _).2 (by decide +kernel), rfl⟩

theorem bytes_of_fields (k : Key) : k.bytes = putUint32 k.fields.version ++ k.fields.depth ++ k.fields.fingerPrint ++
    k.fields.childNumber ++ k.fields.chainCode ++ k.fields.keyBytes := by
  rw [Key.bytes_eq_fields k, Key.version_bytes]
  rfl

theorem beBytes_one {n : Nat} (h : n ≤ 255) : beBytes 1 n = [UInt8.ofNat n] := by
  have : n % 256 = n := Nat.mod_eq_of_lt (by omega)
  simp [beBytes, this]

theorem IsNode.bytes {k : Key} {n : Node} (h : IsNode k n) : k.bytes = n.xprv := by
  rw [bytes_of_fields, h.fields, Node.xprv, beBytes_one h.depth]
  rfl

section
variable (H : Hashes) (order : List (Bytes × List VersionBytes)) (ho : order.Perm pathTable)
include ho

theorem IsNode.neuter {k : Key} {n : Node} (h : IsNode k n) :
    (k.publicKeyExtended (Registry.init order)).bytes = n.xpub := by
  rw [bytes_of_fields, neuter_xprv order ho h.xprv, h.version, h.fields, Node.xpub, beBytes_one h.depth]
  rw [show neuterVersion 0x0488ade4 = 0x0488b21e by decide +kernel]
  rfl

/-- One step. -/
theorem IsNode.child {k : Key} {n n' : Node} (h : IsNode k n) (i : UInt32) (hc : n.child H.suite i.toNat = some n') :
    IsNode (k.newChildKey H (Registry.init order) i).1 n' := by
  rw [Node.child] at hc
  by_cases hd : n.depth = 255
  · rw [if_pos hd] at hc; cases hc
  rw [if_neg hd] at hc
  have hcc : k.getChainCode = n.chainCode := congrArg KeyFields.chainCode h.fields
  have hdd : k.getDepth = [UInt8.ofNat n.depth] := congrArg KeyFields.depth h.fields
  obtain ⟨⟨s', c'⟩, h1, h2⟩ := Option.map_eq_some_iff.1 hc
  have h1' : ckdPriv H.hmacSha512 n.scalar k.getChainCode i.toNat = some (s', c') := by rw [hcc]; exact h1
  have hIL : parse256 ((ckdI H n.scalar k.getChainCode i.toNat).take 32) < secpN := by
    by_contra hn
    rw [ckdPriv_eq, if_pos (.inl (by omega))] at h1'
    cases h1'
  have hs' : s' ≠ 0 ∧ s' < secpN := by
    rw [ckdPriv_eq] at h1'
    split at h1'
    · cases h1'
    · rename_i hn
      have := (Prod.mk.inj (Option.some.inj h1')).1
      rw [← this]
      exact ⟨fun e => hn (.inr e), Nat.mod_lt _ secpN_prime.pos⟩
  have := C22_ckdPriv_partial H order ho k n.scalar i h.xprv (by rw [h.version]; exact pvtVersion_xprv) hIL
  rw [h1'] at this
  dsimp only at this h2
  subst h2
  have hdep := h.depth
  refine ⟨by dsimp only; omega, ⟨Nat.pos_of_ne_zero hs'.1, hs'.2⟩, ?_⟩
  rw [this.2, h.version, hdd]
  dsimp only [List.map_cons, List.map_nil]
  congr 2
  rw [UInt8.ofNat_add]; rfl

/-- Any number of steps. -/
theorem IsNode.descend {k : Key} {n n' : Node} (h : IsNode k n) (is : List UInt32)
    (hc : n.descend H.suite (is.map UInt32.toNat) = some n') :
    IsNode (blindSteps H (Registry.init order) k is) n' := by
  induction is generalizing k n with
  | nil => cases hc; exact h
  | cons i is ih =>
    rw [List.map_cons, Node.descend] at hc
    obtain ⟨n1, h1, h2⟩ := Option.bind_eq_some_iff.1 hc
    exact ih (h.child H order ho i h1) h2

omit ho in
theorem masterNode_root {seed b : Bytes} (hb : hexDecode seed = some b) (hl : 16 ≤ b.length) {n : Node}
    (hn : masterNode H.hmacSha512 b = some n) :
    ∃ k, rootKeyFromSeed H seed = .ok (k, none) ∧ IsNode k n := by
  rw [masterNode] at hn
  split at hn
  · cases hn
  · rename_i h0
    obtain ⟨k, h1, h2⟩ := ((C44_root_key_exact H seed).2.2 b hb hl).2 h0
    obtain rfl := Option.some.inj hn
    refine ⟨k, h1, ⟨by simp, ⟨?_, ?_⟩, ?_⟩⟩
    · exact Nat.pos_of_ne_zero fun e => h0 (.inl e)
    · exact Nat.lt_of_not_le fun e => h0 (.inr e)
    · rw [h2]
      dsimp only
      rw [show ser32 0 = [0, 0, 0, 0] by decide]
      rfl

theorem IsNode.labels {k : Key} {n : Node} (h : IsNode k n) {p : Bytes} (hp : stripSpace p = p) :
    Shows H.suite H.keccak256 p n ((KeyPath.mk p k).labels H (Registry.init order)) := by
  have hx := h.xprv
  have hX := neuter_xprv_isXpub order ho hx
  have hz : k.bytes ≠ List.replicate 78 0 := by
    intro e
    have : k.getVersion = 0 := by
      rw [show k = Key.zero from Key.ext' e]; decide +kernel
    rw [h.version] at this
    revert this; decide
  have hz' : (k.publicKeyExtended (Registry.init order)).bytes ≠ List.replicate 78 0 := by
    intro e
    have h1 := congrArg KeyFields.version (neuter_xprv order ho hx)
    have h2 : (k.publicKeyExtended (Registry.init order)).getVersion = 0 := by
      rw [show k.publicKeyExtended (Registry.init order) = Key.zero from Key.ext' e]; decide +kernel
    have h3 : neuterVersion k.getVersion = 0 := h1.symm.trans h2
    rw [h.version] at h3
    revert h3; decide +kernel
  obtain ⟨h1, h2, -⟩ := intermediary_xprv H hx 0
  refine ⟨k.string H, (k.publicKeyExtended (Registry.init order)).string H,
    (KeyPath.mk p k).addrHex H (Registry.init order), ?_, ?_, ?_, ?_⟩
  · have e1 : pathString p = p := by rw [pathString_eq, hp]
    have e2 : k.privateKeyHex = hex (ser256 n.scalar) := by
      rw [Key.privateKeyHex, h2, if_pos rfl, hexEncode_eq_hex, ← (isPrivate_of_keyBytes k hx.1).2]
      rfl
    have e3 : (k.publicKeyExtended (Registry.init order)).publicKeyHex (Registry.init order) = hex (serP (point n.scalar)) := by
      rw [Key.publicKeyHex, (C27_neuter order ho k).1, if_neg (by simp), hexEncode_eq_hex, ← hX.1]
      rfl
    rw [KeyPath.labels, e1, e2, e3]
  · have := (C16_text H k hz (k.string H)).2 rfl
    rwa [h.bytes] at this
  · have := (C16_text H _ hz' _).2 rfl
    rwa [h.neuter order ho] at this
  · exact C50_addrHex_partial H order ho p k _ (.inl ⟨_, hx, rfl⟩)

omit ho in
/-- The value of a component with a small number. -/
theorem compVal_small {c : Comp} (h : decValue c.digits < 2 ^ 31) : (compVal c).toNat = c.value := by
  rw [compVal, UInt32.toNat_add, UInt32.toNat_ofNat', Comp.value]
  cases c.hardened
  · simp only [Bool.false_eq_true, if_false, UInt32.toNat_zero]; omega
  · simp only [if_true, hard_toNat]; omega

omit ho in
/-- The label of a prefix of a path with small numbers. -/
theorem canonicalPath_small {cs : List Comp} (h : ∀ c ∈ cs, decValue c.digits < 2 ^ 31) :
    canonicalPath (cs.map compVal) = pathText cs := by
  rw [canonicalPath, pathText, List.flatMap_map]
  congr 1
  apply List.flatMap_congr
  intro c hc
  have hs := h c hc
  rw [compVal_small hs, Comp.value]
  cases c.hardened
  · simp only [Bool.false_eq_true, if_false, Nat.add_zero, List.append_nil]
    rw [if_neg (by omega)]; rfl
  · simp only [if_true, Nat.add_sub_cancel]
    rw [if_pos (by omega)]; rfl

omit ho in
theorem smallPath_valid {p : Bytes} {cs : List Comp} (hcs : PathText (stripSpace p) cs)
    (hs : ∀ c ∈ cs, decValue c.digits < 2 ^ 31) : pathIsValid p = true :=
  (C36_valid_iff_grammar p).2 ⟨cs, hcs, fun c hc => by have := hs c hc; omega⟩

omit ho in
theorem IsNode.goodRoot {k : Key} {n : Node} (h : IsNode k n) (hd : n.depth = 0) : GoodRoot k := by
  obtain ⟨-, h2, -⟩ := intermediary_xprv (hashesIL 0) h.xprv 0
  refine ⟨?_, h2, ?_⟩
  · intro e
    have : k.getVersion = 0 := by
      rw [show k = Key.zero from Key.ext' e]; decide +kernel
    rw [h.version] at this
    revert this; decide
  · have := congrArg KeyFields.depth h.fields
    rwa [hd] at this

omit ho in
theorem masterNode_depth {hmac : Bytes → Bytes → Bytes} {b : Bytes} {n : Node} (h : masterNode hmac b = some n) :
    n.depth = 0 := by
  rw [masterNode] at h
  split at h
  · cases h
  · obtain rfl := Option.some.inj h; rfl

/-- The tabs of a root key along a path with small numbers. -/
theorem node_tabs {root : Key} {n0 n : Node} (h : IsNode root n0) (hd : n0.depth = 0) {p : Bytes} {cs : List Comp}
    (hcs : PathText (stripSpace p) cs) (hs : ∀ c ∈ cs, decValue c.digits < 2 ^ 31) {j : Nat} (hj : j ≤ cs.length)
    (hn : n0.descend H.suite ((cs.take j).map Comp.value) = some n) :
    ∃ res kp, deriveBIP32Result H (Registry.init order) root p = (res, none) ∧ res.length = cs.length + 1 ∧
      res[j]? = some kp ∧ Shows H.suite H.keccak256 (pathText (cs.take j)) n (kp.labels H (Registry.init order)) := by
  have hv := (valuesAtDepth_of_text hcs).1 fun c hc => by
    have := hs c hc
    unfold CompOk
    omega
  have hst : ∀ c ∈ cs.take j, decValue c.digits < 2 ^ 31 := fun c hc => hs c (List.mem_of_mem_take hc)
  have hN : IsNode (blindSteps H (Registry.init order) root ((cs.map compVal).take j)) n := by
    apply h.descend H order ho
    rw [← hn, ← List.map_take, List.map_map]
    congr 1
    apply List.map_congr_left
    intro c hc
    exact compVal_small (hst c hc)
  refine ⟨_, ⟨canonicalPath ((cs.map compVal).take j), blindSteps H (Registry.init order) root ((cs.map compVal).take j)⟩,
    derive_eq H _ (h.goodRoot hd) hv, by simp, ?_, ?_⟩
  · rw [List.getElem?_map, List.getElem?_range (by simp; omega)]
    rfl
  · rw [← canonicalPath_small hst, List.map_take]
    apply hN.labels H order ho
    rw [canonicalPath_compsText, stripSpace_append, stripSpace_compsText]
    rfl

omit ho in
theorem seed_of_mnemonic {l : List Bytes} (hg : GoodList l) {m : Bytes} (pp : Bytes)
    (hm : isMnemonicValid H (setWordList l) m = .ok true) :
    ∃ t, deriveSeedFromMnemonic H (setWordList l) m pp = .ok (t, none) ∧
      hexDecode t = some (bip39Seed H.hmacSha512 m pp) ∧ (bip39Seed H.hmacSha512 m pp).length = 64 := by
  obtain ⟨t, h1, -, -, -, h2⟩ := (C43_seed_text H hg m pp).1 hm
  exact ⟨t, h1, h2, by simp [bip39Seed]⟩

/-- **C71.** A mnemonic the package accepts, a passphrase and a path (hardened components first, numbers below 2³¹): the
functions of package util, called one after the other, give for every prefix of the path the node BIP-39 and BIP-32
define, and the texts made of it are the ones of the documents. -/
theorem C71_wallet {l : List Bytes} (hg : GoodList l) (m pp : Bytes) (hm : isMnemonicValid H (setWordList l) m = .ok true)
    (p : Bytes) (cs : List Comp) (hcs : PathText (stripSpace p) cs) (hs : ∀ c ∈ cs, decValue c.digits < 2 ^ 31)
    (n0 : Node) (h0 : masterNode H.hmacSha512 (bip39Seed H.hmacSha512 m pp) = some n0) :
    ∃ seed root res, deriveSeedFromMnemonic H (setWordList l) m pp = .ok (seed, none) ∧
      rootKeyFromSeed H seed = .ok (root, none) ∧
      deriveBIP32Result H (Registry.init order) root p = (res, none) ∧ res.length = cs.length + 1 ∧
      ∀ j n, j ≤ cs.length → n0.descend H.suite ((cs.take j).map Comp.value) = some n →
        ∃ kp, res[j]? = some kp ∧
          Shows H.suite H.keccak256 (pathText (cs.take j)) n (kp.labels H (Registry.init order)) := by
  obtain ⟨seed, h1, h2, h3⟩ := seed_of_mnemonic H hg pp hm
  obtain ⟨root, h4, h5⟩ := masterNode_root H h2 (by omega) h0
  obtain ⟨res, -, h6, h7, -⟩ := node_tabs H order ho h5 (masterNode_depth h0) hcs hs (Nat.zero_le _) (n := n0) rfl
  refine ⟨seed, root, res, h1, h4, h6, h7, fun j n hj hn => ?_⟩
  obtain ⟨res', kp, h8, -, h9, h10⟩ := node_tabs H order ho h5 (masterNode_depth h0) hcs hs hj hn
  obtain rfl : res = res' := (Prod.mk.inj (h6.symm.trans h8)).1
  exact ⟨kp, h9, h10⟩

/-- **C71**, the tabs. In every state the example can reach with a mnemonic the package accepts and a valid master key there
is one tab for `m` and one for each component of the path entered (the path `m`, if the one entered is not valid); each
shows the texts of the node BIP-39 and BIP-32 define for the mnemonic, the passphrase and that prefix of the path. -/
theorem C71_tabs {l : List Bytes} (hg : GoodList l) {fs : List Frame} {u : Ui}
    (hrun : Ui.run H (setWordList l) (Registry.init order) {} fs = .ok u)
    (hm : isMnemonicValid H (setWordList l) u.mnemonic = .ok true) (cs : List Comp)
    (hcs : (PathText (stripSpace u.derivationStr) cs ∧ ∀ c ∈ cs, decValue c.digits < 2 ^ 31) ∨
      (pathIsValid u.derivationStr = false ∧ cs = []))
    (n0 : Node) (h0 : masterNode H.hmacSha512 (bip39Seed H.hmacSha512 u.mnemonic u.passphrase) = some n0) :
    u.tabs.length = cs.length + 1 ∧
    ∀ j n, j ≤ cs.length → n0.descend H.suite ((cs.take j).map Comp.value) = some n →
      ∃ kp, u.tabs[j]? = some kp ∧
        Shows H.suite H.keccak256 (pathText (cs.take j)) n (kp.labels H (Registry.init order)) := by
  obtain ⟨seed, h1, h2, h3⟩ := seed_of_mnemonic H hg u.passphrase hm
  have hne : u.mnemonic ≠ [] := by
    intro e
    rw [e] at hm
    cases hm
  obtain ⟨c1, c2⟩ := C65_chain hrun
  obtain ⟨e, c1⟩ := c1 hne
  obtain rfl : seed = u.seed := (Prod.mk.inj (Outcome.ok.inj (h1.symm.trans c1))).1
  obtain ⟨⟨e', c2⟩, -, c3⟩ := c2 (.inl hne)
  obtain ⟨root, h4, h5⟩ := masterNode_root H h2 (by omega) h0
  obtain rfl : root = u.rootKey := (Prod.mk.inj (Outcome.ok.inj (h4.symm.trans c2))).1
  have hpath : u.derivationPath = pathFormatted u.derivationStr := (run_inv hrun (init_inv _ _ _)).path
  have hcur : PathText (stripSpace u.currentPath) cs ∧ ∀ c ∈ cs, decValue c.digits < 2 ^ 31 := by
    have hsp := C38_white_space u.derivationStr
    rcases hcs with ⟨hc1, hc2⟩ | ⟨hc1, rfl⟩
    · have hv := smallPath_valid hc1 hc2
      refine ⟨?_, hc2⟩
      rw [Ui.currentPath, hpath, hsp.2.2.2.1, hv, if_pos rfl, pathString_eq, hsp.2.1, stripSpace_idem, stripSpace_idem]
      exact hc1
    · rw [Ui.currentPath, hpath, hsp.2.2.2.1, hc1, if_neg (by simp)]
      exact ⟨⟨.inl rfl, by simp, 0, 0, rfl⟩, by simp⟩
  obtain ⟨res, -, h6, h7, -⟩ := node_tabs H order ho h5 (masterNode_depth h0) hcur.1 hcur.2 (Nat.zero_le _) (n := n0) rfl
  refine ⟨by rw [c3, h6]; exact h7, fun j n hj hn => ?_⟩
  obtain ⟨res', kp, h8, -, h10, h11⟩ := node_tabs H order ho h5 (masterNode_depth h0) hcur.1 hcur.2 hj hn
  exact ⟨kp, by rw [c3, h8]; exact h10, h11⟩

/-- **C71**, the screen: the selected tab is the one whose texts are shown. -/
theorem C71_screen {l : List Bytes} (hg : GoodList l) {fs : List Frame} {u : Ui}
    (hrun : Ui.run H (setWordList l) (Registry.init order) {} fs = .ok u)
    (hm : isMnemonicValid H (setWordList l) u.mnemonic = .ok true) (cs : List Comp)
    (hcs : (PathText (stripSpace u.derivationStr) cs ∧ ∀ c ∈ cs, decValue c.digits < 2 ^ 31) ∨
      (pathIsValid u.derivationStr = false ∧ cs = []))
    (n0 n : Node) (h0 : masterNode H.hmacSha512 (bip39Seed H.hmacSha512 u.mnemonic u.passphrase) = some n0)
    (j : Nat) (hj : u.selected = j)
    (hn : n0.descend H.suite ((cs.take j).map Comp.value) = some n) :
    ∃ kp, u.shown = .ok (some kp) ∧
      Shows H.suite H.keccak256 (pathText (cs.take j)) n (kp.labels H (Registry.init order)) := by
  obtain ⟨hlen, htabs⟩ := C71_tabs H order ho hg hrun hm cs hcs n0 h0
  obtain ⟨hi, o, hsh, hk⟩ := C59_index H (setWordList l) (Registry.init order) hrun
  have hlt : j < u.tabs.length := by
    rcases hi with hi | ⟨i, hi, hi'⟩ | ⟨-, hi⟩
    · omega
    · omega
    · rw [hi] at hlen; simp at hlen
  obtain ⟨kp, htab, h11⟩ := htabs j n (by omega) hn
  refine ⟨kp, ?_, h11⟩
  rw [Ui.shown, hj]
  have hz : u.tabs.length ≠ 0 := by omega
  rw [if_neg (by simp [hlt, hz]), if_neg (by omega), Int.toNat_natCast, htab]

end

/-- Typing a mnemonic and a path and clicking on a tab leads to a state as in `C71_screen`. -/
theorem run_wallet (H : Hashes) (S : WordState) (R : Registry) {m t : Bytes} {k : Key} {e : Option Err}
    (hm : m ≠ []) (ht : deriveSeedFromMnemonic H S m [] = .ok (t, none)) (hk : rootKeyFromSeed H t = .ok (k, e))
    {p : Bytes} (hp : pathString p ≠ []) (j : Nat) :
    ∃ u, Ui.run H S R {} [{ mnemonicEdit := some m, derivationEdit := some p }, { tabClicks := [j] }] = .ok u ∧
      u.mnemonic = m ∧ u.passphrase = [] ∧ u.derivationStr = p ∧ (j < u.tabs.length → u.selected = j) := by
  have h1 : Ui.frame H S R {} { mnemonicEdit := some m, derivationEdit := some p } =
      .ok { mnemonicField := m, derivationField := p } := frame_ok.2 ⟨{}, rfl, rfl⟩
  obtain ⟨v, hv, hv1, hv2, hv3⟩ : ∃ v : Ui, Ui.update H S R none { mnemonicField := m, derivationField := p } = .ok v ∧
      v.mnemonic = m ∧ v.passphrase = [] ∧ v.derivationStr = p := by
    obtain ⟨w, h4, w1, w2, w3, w4, w5, w6, w7⟩ : ∃ w, Ui.onMnemonicChange H S R { mnemonicField := m, derivationField := p } =
        .ok w ∧ w.mnemonic = m ∧ w.passphraseField = w.passphrase ∧ w.passphrase = [] ∧ w.seedField = w.seed ∧
          w.rootKeyStr = w.rootKeyField ∧ w.derivationField = p ∧ w.derivationStr = [] := by
      unfold Ui.onMnemonicChange Ui.rootFromSeed
      exact ⟨_, Outcome.bind_ok.2 ⟨_, ht, Outcome.bind_ok.2 ⟨_, hk, rfl⟩⟩, rfl, rfl, rfl, rfl, rfl, rfl, rfl⟩
    refine ⟨w.onDerivationPathChange H R, ?_, w1, w3, w6⟩
    unfold Ui.update
    refine Outcome.bind_ok.2 ⟨_, rfl, Outcome.bind_ok.2 ⟨w, (if_pos (by exact hm)).trans h4, Outcome.bind_ok.2 ⟨w,
      if_neg (by simp [w2]), Outcome.bind_ok.2 ⟨w, if_neg (by simp [w4]), ?_⟩⟩⟩⟩
    rw [if_neg (by simp [w5])]
    dsimp only
    rw [if_pos (by rw [w6, w7]; exact hp)]
  refine ⟨v.layout { tabClicks := [j] }, ?_, ?_⟩
  · rw [Ui.run, h1]
    show Outcome.bind (Ui.frame _ S R { mnemonicField := m, derivationField := p } { tabClicks := [j] }) _ = _
    rw [frame_ok.2 ⟨v, hv, rfl⟩]
    rfl
  · unfold Ui.layout
    dsimp only [Option.getD]
    by_cases hl : v.tabs.length = 0
    · rw [if_pos hl]
      exact ⟨hv1, hv2, hv3, fun h => absurd h (by simp [hl])⟩
    · rw [if_neg hl]
      simp only [Bool.false_eq_true, if_false, List.foldl_cons, List.foldl_nil, Ui.clickTab]
      by_cases hj : j < v.tabs.length
      · rw [if_pos hj]; exact ⟨hv1, hv2, hv3, fun _ => rfl⟩
      · rw [if_neg hj]; exact ⟨hv1, hv2, hv3, fun h => absurd h hj⟩

/-- With `IL = 5` always, nothing along a path of up to 255 components is invalid. -/
theorem descend_five (is : List Nat) (n : Node) (h : n.depth + is.length ≤ 255) (hs : 1 ≤ n.scalar ∧ n.scalar ≤ 5 * (n.depth + 1)) :
    ∃ n', n.descend (hashesIL 5).suite is = some n' := by
  induction is generalizing n with
  | nil => exact ⟨n, rfl⟩
  | cons i is ih =>
    have hN : 2000 < secpN := by decide
    rw [List.length_cons] at h
    have hc : n.child (hashesIL 5).suite i = some
        ⟨n.depth + 1, (hash160 (hashesIL 5).sha256 (hashesIL 5).ripemd160 (serP (point n.scalar))).take 4, i,
          (ckdI (hashesIL 5) n.scalar n.chainCode i).drop 32, (5 + n.scalar) % secpN⟩ := by
      rw [Node.child, if_neg (by omega)]
      show Option.map _ (ckdPriv (hashesIL 5).hmacSha512 n.scalar n.chainCode i) = _
      rw [ckdPriv_eq, ckdI_hashesIL _ _ _ _ (by decide), Nat.mod_eq_of_lt (by omega), if_neg (by omega)]
      rfl
    rw [Node.descend, hc]
    apply ih
    · dsimp only; omega
    · dsimp only
      rw [Nat.mod_eq_of_lt (by omega)]
      omega

/-- Histories as in `C71_screen`, for every mnemonic, for a path with white space, with the last tab selected. -/
example (order : List (Bytes × List VersionBytes)) (ho : order.Perm pathTable) {l : List Bytes} (hg : GoodList l) (m : Bytes)
    (hm : isMnemonicValid (hashesIL 5) (setWordList l) m = .ok true) :
    ∃ fs u n0 n, Ui.run (hashesIL 5) (setWordList l) (Registry.init order) {} fs = .ok u ∧ u.mnemonic = m ∧
      PathText (stripSpace u.derivationStr) bip44Comps ∧ (∀ c ∈ bip44Comps, decValue c.digits < 2 ^ 31) ∧
      masterNode (hashesIL 5).hmacSha512 (bip39Seed (hashesIL 5).hmacSha512 u.mnemonic u.passphrase) = some n0 ∧
      u.selected = (5 : Nat) ∧ n0.descend (hashesIL 5).suite ((bip44Comps.take 5).map Comp.value) = some n := by
  obtain ⟨t, h1, h2, h3⟩ := seed_of_mnemonic (hashesIL 5) hg [] hm
  have hp : parse256 (((hashesIL 5).hmacSha512 (str "Bitcoin seed") (bip39Seed (hashesIL 5).hmacSha512 m [])).take 32) = 5 := by
    rw [hashesIL_take]; decide +kernel
  obtain ⟨n0, h0, hd, hsc⟩ : ∃ n0, masterNode (hashesIL 5).hmacSha512 (bip39Seed (hashesIL 5).hmacSha512 m []) = some n0 ∧
      n0.depth = 0 ∧ n0.scalar = 5 := by
    unfold masterNode
    dsimp only
    rw [hp, if_neg (by decide)]
    exact ⟨_, rfl, rfl, rfl⟩
  obtain ⟨k, h4, -⟩ := masterNode_root (hashesIL 5) h2 (by omega) h0
  have hne : m ≠ [] := by rintro rfl; cases hm
  obtain ⟨u, u1, u2, u3, u4, u5⟩ := run_wallet (hashesIL 5) (setWordList l) (Registry.init order) hne h1 h4
    (p := str "m/44'/0'/0' /0/7") (by decide +kernel) 5
  obtain ⟨n, hn⟩ := descend_five ((bip44Comps.take 5).map Comp.value) n0 (by rw [hd]; decide) (by rw [hd, hsc]; decide)
  have hpt : PathText (stripSpace u.derivationStr) bip44Comps := by rw [u4]; exact bip44_text
  have hs : ∀ c ∈ bip44Comps, decValue c.digits < 2 ^ 31 := by decide +kernel
  refine ⟨_, u, n0, n, u1, u2, hpt, hs, by rw [u2, u3]; exact h0, u5 ?_, hn⟩
  rw [(C71_tabs (hashesIL 5) order ho hg u1 (by rw [u2]; exact hm) _ (.inl ⟨hpt, hs⟩) n0 (by rw [u2, u3]; exact h0)).1]
  decide

end Bips
