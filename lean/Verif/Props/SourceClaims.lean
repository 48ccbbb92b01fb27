import Verif.Props.Source
import Verif.Props.WalletTyped
import Verif.Props.Checked

/-!
# C114: what a caller relies on, of the text itself

The calls below are calls of the translated text (`Ends`); what they are given and what they result in is described by the specifications
(`Encodes`, `Layout`, `bip39Seed`, `masterNode`, `Node.child`, `IsBase58Check`, `Shows`) and byte strings. The model of the functions occurs in
the proofs only; what remains of it in the statements is the state the text is run in: the tables `SetWordList` and `init` leave.
-/

namespace Bips

open Spec Src

/-- The surroundings after `SetWordList(l)` and the initialisation of package bip32 in the order `order`. -/
def worldOf (H : Hashes) (l : List Bytes) (order : List (Bytes × List VersionBytes)) (read : Nat → Bytes) : World :=
  ⟨H, Registry.init order, setWordList l, read⟩

theorem entropy_short {e : Bytes} (he : e.length ∈ entropySizes) : e.length < 2 ^ 59 := by
  have : ∀ n ∈ entropySizes, n < 2 ^ 59 := by decide
  exact this _ he

section
variable (H : Hashes) {l : List Bytes} (hg : GoodList l) (order : List (Bytes × List VersionBytes)) (read : Nat → Bytes)
include hg

/-- **C114**, mnemonics: `NewMnemonic` gives the sentence of BIP-39, and `EntropyFromMnemonic` gives the entropy back, whatever white space is
between the words; entropies of other sizes are refused. -/
theorem C114_mnemonic (e : Bytes) :
    (e.length ∈ entropySizes → ∃ ws, Encodes H.sha256 l e ws ∧
      Ends (worldOf H l order read) .bip39_NewMnemonic [.bytes e] (.ok [.str ([32].intercalate ws), .err none]) ∧
      ∀ s, Layout s ws →
        Ends (worldOf H l order read) .bip39_EntropyFromMnemonic [.str s] (.ok [.bytes e, .err none]) ∧
        Ends (worldOf H l order read) .bip39_IsMnemonicValid [.str s] (.ok [.bool true])) ∧
    (e.length ∉ entropySizes → e.length < 2 ^ 59 →
      Ends (worldOf H l order read) .bip39_NewMnemonic [.bytes e] (.ok [.str [], .err (some .entropyLengthInvalid)])) := by
  have hw := C113_words (worldOf H l order read)
  refine ⟨fun he => ?_, fun he hl => ?_⟩
  · obtain ⟨ws, h1, h2, -⟩ := C03_bip39_encoding H hg e he
    refine ⟨ws, h2, ?_, fun s hs => ?_⟩
    · have := hw.2.2.2.2.2.2.2.2.2.2.1 e (entropy_short he)
      rwa [show newMnemonic (worldOf H l order read).H (worldOf H l order read).S e = _ from h1] at this
    · have h3 := (entropy_iff H hg s e).2 ⟨ws, hs, he, h2⟩
      constructor
      · have := hw.2.2.2.2.2.2.2.2.1 s
        rwa [show entropyFromMnemonic (worldOf H l order read).H (worldOf H l order read).S s = _ from h3] at this
      · have := hw.2.2.2.2.2.2.2.2.2.1 s
        rwa [show isMnemonicValid (worldOf H l order read).H (worldOf H l order read).S s = .ok true by
          rw [isMnemonicValid, show entropyFromMnemonic (worldOf H l order read).H (worldOf H l order read).S s = _ from h3]; rfl] at this
  · have := hw.2.2.2.2.2.2.2.2.2.2.1 e hl
    rwa [show newMnemonic (worldOf H l order read).H (worldOf H l order read).S e = _ from
      (C05_sizes H hg (fun n => List.replicate n 0) (by simp) 0 e).2.2.2 he] at this

/-- **C114**, mnemonics: `EntropyFromMnemonic` always ends with a result, never in a panic, and accepts exactly the sentences of BIP-39, with
their entropy; `IsMnemonicValid` says whether it does. `DeriveSeedFromMnemonic` gives the hex text of the seed of BIP-39 exactly then. -/
theorem C114_accepts (s pp : Bytes) :
    ∃ e x, Ends (worldOf H l order read) .bip39_EntropyFromMnemonic [.str s] (.ok [.bytes e, .err x]) ∧
      Ends (worldOf H l order read) .bip39_IsMnemonicValid [.str s] (.ok [.bool x.isNone]) ∧
      (∀ e', (∃ ws, Layout s ws ∧ ws.length ∈ sentenceLengths ∧ e'.length ∈ entropySizes ∧ Encodes H.sha256 l e' ws) ↔ x = none ∧ e' = e) ∧
      Ends (worldOf H l order read) .util_DeriveSeedFromMnemonic [.str s, .str pp]
        (.ok [.str (if x = none then hex (bip39Seed H.hmacSha512 s pp) else []), .err x]) := by
  have hw := C113_words (worldOf H l order read)
  cases h : entropyFromMnemonic H (setWordList l) s with
  | panic => exact absurd h (C04_errors H hg s _ (layout_fields s)).2.2.2
  | ok r =>
    obtain ⟨e, x⟩ := r
    have hv : isMnemonicValid H (setWordList l) s = .ok x.isNone := by
      rw [isMnemonicValid, h]
    refine ⟨e, x, ?_, ?_, fun e' => ?_, ?_⟩
    · have := hw.2.2.2.2.2.2.2.2.1 s
      rwa [show entropyFromMnemonic (worldOf H l order read).H (worldOf H l order read).S s = _ from h] at this
    · have := hw.2.2.2.2.2.2.2.2.2.1 s
      rwa [show isMnemonicValid (worldOf H l order read).H (worldOf H l order read).S s = _ from hv] at this
    · rw [← C04_accepts_exactly H hg s e', h]
      simp only [Outcome.ok.injEq, Prod.mk.injEq]
      exact ⟨fun ⟨a, b⟩ => ⟨b, a.symm⟩, fun ⟨a, b⟩ => ⟨b.symm, a⟩⟩
    · have := (C113_util (worldOf H l order read)).2.1 s pp
      cases x with
      | none =>
        have h1 : deriveSeedFromMnemonic H (setWordList l) s pp = .ok (hexEncode (newSeed H s pp), none) := by
          rw [deriveSeedFromMnemonic, h]
        rw [show deriveSeedFromMnemonic (worldOf H l order read).H (worldOf H l order read).S s pp = _ from h1] at this
        have h2 : newSeed H s pp = bip39Seed H.hmacSha512 s pp := (C08_seed H (setWordList l) s pp).2.2.1
        rw [if_pos rfl, ← hexEncode_eq_hex, ← h2]
        generalize newSeed H s pp = b at this ⊢
        exact this
      | some x =>
        obtain ⟨e', h1, h2⟩ := (C43_seed_text H hg s pp).2.1 hv
        rw [show deriveSeedFromMnemonic (worldOf H l order read).H (worldOf H l order read).S s pp = _ from h2] at this
        rw [h] at h1
        obtain rfl := Option.some.inj (Prod.mk.inj (Outcome.ok.inj h1)).2
        rw [if_neg (by simp)]
        exact this
end

/-- **C114**, extended keys: `String` gives the Base58Check text of a key that is not all zero, the only one there is, and `B58Deserialize`
reads it back. -/
theorem C114_text (W : World) (b : Bytes) (hb : b.length = 78) (h : b ≠ List.replicate 78 0) :
    ∃ t, IsBase58Check W.H.sha256 t b ∧ (∀ t', IsBase58Check W.H.sha256 t' b → t' = t) ∧
      Ends W .bip32_Key_String [.bytes b] (.ok [.str t]) ∧
      Ends W .bip32_B58Deserialize [.str t] (.ok [.bytes b, .err none]) := by
  have h1 := C16_text W.H ⟨b, hb⟩ h
  have hw := C113_keys W
  refine ⟨Key.string W.H ⟨b, hb⟩, (h1 _).2 rfl, fun t' ht => (h1 _).1 ht,
    hw.2.2.2.2.2.2.2.2.2.2.2.2.2.2.2.2.2.2.2.1 ⟨b, hb⟩, ?_⟩
  have := hw.2.2.2.2.2.2.2.2.2.2.2.2.2.2.2.2.2.2.2.2.2.1 (Key.string W.H ⟨b, hb⟩)
  rwa [C16_base58_roundtrip W.H ⟨b, hb⟩ h] at this

section
variable (H : Hashes) (l : List Bytes) (order : List (Bytes × List VersionBytes)) (ho : order.Perm pathTable) (read : Nat → Bytes)

/-- **C114**, root keys: `RootKeyFromSeed` of the hex text of at least 16 bytes gives the master key of BIP-32, or panics where BIP-32 says
the seed has none. -/
theorem C114_root (W : World) (b : Bytes) (hb : 16 ≤ b.length) :
    (∀ n, masterNode W.H.hmacSha512 b = some n → Sized n ∧
      Ends W .util_RootKeyFromSeed [.str (hex b)] (.ok [.bytes n.xprv, .err none])) ∧
    (masterNode W.H.hmacSha512 b = none → Ends W .util_RootKeyFromSeed [.str (hex b)] .panic) := by
  have hd : hexDecode (hex b) = some b := by rw [← hexEncode_eq_hex, hexDecode_hexEncode]
  have hw := (C113_util W).2.2.2.1 (hex b)
  refine ⟨fun n hn => ?_, fun hn => ?_⟩
  · obtain ⟨k, h1, h2⟩ := masterNode_root W.H hd hb hn
    rw [h1] at hw
    refine ⟨h2.sized, ?_⟩
    rw [← h2.bytes]
    exact hw
  · rw [masterNode] at hn
    split at hn
    · rename_i h0
      rw [((C44_root_key_exact W.H (hex b)).2.2 b hd hb).1 h0] at hw
      exact hw
    · cases hn

include ho

/-- **C114**, derivation: `NewChildKey` of the extended private key of a node gives that of the child of BIP-32; `PublicKeyExtended` gives
the extended public key; and below the hardened indices `NewChildKey` of that gives the extended public key of the same child (unless the
left half of the HMAC is zero, see C24). -/
theorem C114_child (n n' : Node) (hn : Sized n) (i : UInt32) (hc : n.child H.suite i.toNat = some n') :
    Sized n' ∧
    Ends (worldOf H l order read) .bip32_Key_NewChildKey [.bytes n.xprv, .u32 i] (.ok [.bytes n'.xprv, .err none]) ∧
    Ends (worldOf H l order read) .bip32_Key_PublicKeyExtended [.bytes n.xprv] (.ok [.bytes n.xpub]) ∧
    (i.toNat < 2 ^ 31 → 0 < parse256 ((H.hmacSha512 n.chainCode (serP (point n.scalar) ++ ser32 i.toNat)).take 32) →
      Ends (worldOf H l order read) .bip32_Key_NewChildKey [.bytes n.xpub, .u32 i] (.ok [.bytes n'.xpub, .err none])) := by
  obtain ⟨k, hk⟩ : ∃ k, IsNode k n := ⟨⟨n.xprv, hn.xprv_length⟩, hn.isNode rfl⟩
  have hw := C113_derivation (worldOf H l order read)
  have hk' := hk.child H order ho i hc
  have he : (k.newChildKey H (Registry.init order) i).2 = none := by
    obtain ⟨h1, h2⟩ := C22_ckdPriv_exact H order ho k n.scalar i hk.xprv (by rw [hk.version]; exact pvtVersion_xprv)
    rw [h1, if_neg]
    intro e
    have h3 := congrArg KeyFields.keyBytes (h2.symm.trans hk'.fields)
    dsimp only at h3
    rw [e] at h3
    have h4 := congrArg setBytes (List.cons.inj h3).2
    rw [setBytes_ser256 secpN_prime.pos, setBytes_ser256 hk'.scalar.2] at h4
    have := hk'.scalar.1
    omega
  refine ⟨hk'.sized, ?_, ?_, fun hi hp => ?_⟩
  · have := hw.2.2.1 k i
    rw [hk.bytes] at this
    rw [← hk'.bytes, ← he]
    exact this
  · have := hw.2.2.2.1 k
    rw [hk.bytes] at this
    rw [← hk.neuter order ho]
    exact this
  · have hcc : k.getChainCode = n.chainCode := congrArg KeyFields.chainCode hk.fields
    have hI : ckdI H n.scalar k.getChainCode i.toNat = H.hmacSha512 n.chainCode (serP (point n.scalar) ++ ser32 i.toNat) := by
      rw [ckdI, if_neg (by omega), hcc]
    have hIL : parse256 ((ckdI H n.scalar k.getChainCode i.toNat).take 32) < secpN := by
      rw [Node.child] at hc
      by_contra hn
      split at hc
      · cases hc
      · obtain ⟨r, h1, -⟩ := Option.map_eq_some_iff.1 hc
        have h1' : ckdPriv H.hmacSha512 n.scalar k.getChainCode i.toNat = some r := by rw [hcc]; exact h1
        rw [ckdPriv_eq, if_pos (.inl (by omega))] at h1'
        cases h1'
    have h2 := C24_neuter_commutes H order ho k _ n.scalar i hk.xprv (by rw [hk.version]; exact pvtVersion_xprv) hi (Prod.ext rfl he)
      (by rw [Nat.mod_eq_of_lt hIL, hI]; omega)
    have := hw.2.2.1 (k.publicKeyExtended (Registry.init order)) i
    rw [show Key.newChildKey (worldOf H l order read).H (worldOf H l order read).R _ i = _ from h2, hk.neuter order ho] at this
    rw [← hk'.neuter order ho]
    exact this

/-- **C114**, the whole way: a sentence BIP-39 accepts, a passphrase and a path. `DeriveSeedFromMnemonic`, `RootKeyFromSeed` and
`DeriveBIP32Result`, called one after the other, give one entry for each prefix of the path: the text of the prefix and the extended private
key of the node; and the calls for the labels give the texts a wallet shows for the node. -/
theorem C114_wallet (hg : GoodList l) (m pp e : Bytes) (ws : List Bytes) (hm : Layout m ws) (he : e.length ∈ entropySizes)
    (hE : Encodes H.sha256 l e ws) (p : Bytes) (cs : List Comp) (hcs : PathText (stripSpace p) cs)
    (hs : ∀ c ∈ cs, decValue c.digits < 2 ^ 31)
    (n0 : Node) (h0 : masterNode H.hmacSha512 (bip39Seed H.hmacSha512 m pp) = some n0) :
    ∃ seed, ∃ tabs : List (Bytes × Bytes),
      Ends (worldOf H l order read) .util_DeriveSeedFromMnemonic [.str m, .str pp] (.ok [.str seed, .err none]) ∧
      Ends (worldOf H l order read) .util_RootKeyFromSeed [.str seed] (.ok [.bytes n0.xprv, .err none]) ∧
      Ends (worldOf H l order read) .util_Generator_DeriveBIP32Result [.list [.bytes n0.xprv], .str p]
        (.ok [.list (tabs.map fun t => .list [.str t.1, .bytes t.2]), .err none]) ∧
      tabs.length = cs.length + 1 ∧
      ∀ j n, j ≤ cs.length → n0.descend H.suite ((cs.take j).map Comp.value) = some n →
        tabs[j]? = some (pathText (cs.take j), n.xprv) ∧
        ∃ xprv xpub pvtHex pubHex addr,
          Ends (worldOf H l order read) .bip32_Path_String [.str (pathText (cs.take j))] (.ok [.str (pathText (cs.take j))]) ∧
          Ends (worldOf H l order read) .bip32_Key_String [.bytes n.xprv] (.ok [.str xprv]) ∧
          Ends (worldOf H l order read) .bip32_Key_PublicKeyExtended [.bytes n.xprv] (.ok [.bytes n.xpub]) ∧
          Ends (worldOf H l order read) .bip32_Key_String [.bytes n.xpub] (.ok [.str xpub]) ∧
          Ends (worldOf H l order read) .bip32_Key_PrivateKeyHex [.bytes n.xprv] (.ok [.str pvtHex]) ∧
          Ends (worldOf H l order read) .bip32_Key_PublicKeyHex [.bytes n.xpub] (.ok [.str pubHex]) ∧
          Ends (worldOf H l order read) .util_KeyPath_AddrHex [.list [.str (pathText (cs.take j)), .bytes n.xprv]] (.ok [.str addr]) ∧
          Shows H.suite H.keccak256 (pathText (cs.take j)) n [pathText (cs.take j), xprv, xpub, pvtHex, pubHex, addr] := by
  have hw := C113_util (worldOf H l order read)
  have hwk := C113_keys (worldOf H l order read)
  have hwd := C113_derivation (worldOf H l order read)
  have hv : isMnemonicValid H (setWordList l) m = .ok true := by
    rw [isMnemonicValid, (entropy_iff H hg m e).2 ⟨ws, hm, he, hE⟩]; rfl
  obtain ⟨seed, h1, h2, h3⟩ := seed_of_mnemonic H hg pp hv
  obtain ⟨root, h4, h5⟩ := masterNode_root H h2 (by omega) h0
  have hvs := (valuesAtDepth_of_text hcs).1 fun c hc => by
    have := hs c hc
    unfold CompOk
    omega
  have hder := derive_eq H (Registry.init order) (h5.goodRoot (masterNode_depth h0)) hvs
  refine ⟨seed, (List.range ((cs.map compVal).length + 1)).map fun j => (canonicalPath ((cs.map compVal).take j),
    (blindSteps H (Registry.init order) root ((cs.map compVal).take j)).bytes), ?_, ?_, ?_, by simp, fun j n hj hn => ?_⟩
  · have := hw.2.1 m pp
    rwa [show deriveSeedFromMnemonic (worldOf H l order read).H (worldOf H l order read).S m pp = _ from h1] at this
  · have := hw.2.2.2.1 seed
    rw [show rootKeyFromSeed (worldOf H l order read).H seed = _ from h4] at this
    rw [← h5.bytes]
    exact this
  · have := hw.2.2.2.2.2.2.1 root p
    rw [show deriveBIP32Result (worldOf H l order read).H (worldOf H l order read).R root p = _ from hder, h5.bytes] at this
    rw [List.map_map]
    simp only [both, List.map_map] at this
    exact this
  · have hst : ∀ c ∈ cs.take j, decValue c.digits < 2 ^ 31 := fun c hc => hs c (List.mem_of_mem_take hc)
    have hN : IsNode (blindSteps H (Registry.init order) root ((cs.map compVal).take j)) n := by
      apply h5.descend H order ho
      rw [← hn, ← List.map_take, List.map_map]
      congr 1
      apply List.map_congr_left
      intro c hc
      exact compVal_small (hst c hc)
    have hp : canonicalPath ((cs.map compVal).take j) = pathText (cs.take j) := by
      rw [← canonicalPath_small hst, List.map_take]
    have hstrip : stripSpace (pathText (cs.take j)) = pathText (cs.take j) := by
      rw [← canonicalPath_small hst, canonicalPath_compsText, stripSpace_append, stripSpace_compsText]
      rfl
    have hshow := hN.labels H order ho hstrip
    refine ⟨?_, ?_⟩
    · rw [List.getElem?_map, List.getElem?_range (by simp; omega)]
      simp only [Option.map_some]
      rw [hp, hN.bytes]
    generalize blindSteps H (Registry.init order) root ((cs.map compVal).take j) = k at hN hshow
    have hpk := hN.neuter order ho
    refine ⟨k.string H, (k.publicKeyExtended (Registry.init order)).string H, k.privateKeyHex,
      (k.publicKeyExtended (Registry.init order)).publicKeyHex (Registry.init order),
      (KeyPath.mk (pathText (cs.take j)) k).addrHex H (Registry.init order), ?_, ?_, ?_, ?_, ?_, ?_, ?_, ?_⟩
    · have := (C113_paths (worldOf H l order read)).1 (pathText (cs.take j))
      rwa [pathString_eq, hstrip] at this
    · rw [← hN.bytes]
      exact hwk.2.2.2.2.2.2.2.2.2.2.2.2.2.2.2.2.2.2.2.1 k
    · rw [← hN.bytes, ← hpk]
      exact hwd.2.2.2.1 k
    · rw [← hpk]
      exact hwk.2.2.2.2.2.2.2.2.2.2.2.2.2.2.2.2.2.2.2.1 _
    · rw [← hN.bytes]
      exact hwd.2.2.2.2.1 k
    · rw [← hpk]
      exact hwd.2.2.2.2.2 _
    · rw [← hN.bytes]
      exact hw.2.2.2.2.2.2.2.1 ⟨pathText (cs.take j), k⟩
    · rw [KeyPath.labels, pathString_eq] at hshow
      dsimp only at hshow
      rwa [hstrip] at hshow

end

/-! ### Panics -/

/-- The call ends with results. -/
def Returns (W : World) (f : Fn) (args : List Val) : Prop := ∃ vs, Ends W f args (.ok vs)

theorem returns_outcome {α : Type} {W : World} {f : Fn} {args : List Val} {g : α → List Val} {o : Outcome α} (h : Ends W f args (outcome g o))
    (ho : o ≠ .panic) : Returns W f args := by
  cases o with
  | ok a => exact ⟨_, h⟩
  | panic => exact absurd rfl ho

theorem panic_outcome {α : Type} {W : World} {f : Fn} {args : List Val} {g : α → List Val} {o : Outcome α} (h : Ends W f args (outcome g o)) :
    Ends W f args .panic ↔ o = .panic := by
  constructor
  · intro h'
    cases o with
    | ok a => exact absurd (h.unique h') (by simp [outcome])
    | panic => rfl
  · rintro rfl; exact h

/-- **C114**, panics: in every state of the word tables and of the registry, good or not, these calls return, whatever text, bytes, key or
number they are given. -/
theorem C114_returns (W : World) :
    (∀ m, Returns W .bip39_EntropyFromMnemonic [.str m]) ∧ (∀ m, Returns W .bip39_IsMnemonicValid [.str m]) ∧
    (∀ m (raw : List Bool), m.length < 2 ^ 59 → Returns W .bip39_MnemonicToByteArray [.str m, .list (raw.map .bool)]) ∧
    (∀ m p, m.length < 2 ^ 59 → Returns W .bip39_NewSeedWithErrorChecking [.str m, .str p]) ∧
    (∀ m p, Returns W .bip39_NewSeed [.str m, .str p]) ∧ (∀ n, Returns W .bip39_NewEntropy [.int n]) ∧
    (∀ m p, Returns W .util_DeriveSeedFromMnemonic [.str m, .str p]) ∧
    (∀ p, Returns W .bip32_Path_ValuesAtDepth [.str p]) ∧ (∀ p d, Returns W .bip32_Path_ValueAtDepth [.str p, .u8 d]) ∧
    (∀ p d v, Returns W .bip32_Path_ReplaceValueAtDepth [.str p, .u8 d, .u32 v]) ∧
    (∀ seed, Returns W .bip32_NewMasterKey [.bytes seed]) ∧
    (∀ data, Returns W .bip32_Deserialize [.bytes data]) ∧ (∀ s, Returns W .bip32_B58Deserialize [.str s]) ∧
    (∀ b i, b.length = 78 → Returns W .bip32_Key_NewChildKey [.bytes b, .u32 i]) ∧
    (∀ b, b.length = 78 → Returns W .bip32_Key_PublicKeyExtended [.bytes b] ∧ Returns W .bip32_Key_PublicKeyHex [.bytes b] ∧
      Returns W .bip32_Key_PrivateKeyHex [.bytes b] ∧ Returns W .bip32_Key_String [.bytes b] ∧ Returns W .bip32_Key_IsValid [.bytes b]) ∧
    (∀ b p, b.length = 78 → Returns W .util_Generator_DeriveBIP32Result [.list [.bytes b], .str p] ∧
      Returns W .util_KeyPath_AddrHex [.list [.str p, .bytes b]] ∧ ∀ v, Returns W .util_KeyPath_AddrP2SH [.list [.str p, .bytes b], .u8 v]) ∧
    (∀ b p s e, b.length = 78 → Returns W .util_KeyPathRange_GenerateRange [.list [.u32 s, .u32 e, .list [.str p, .bytes b], .list []]]) := by
  have hw := C113_words W
  have hp := C113_paths W
  have hk := C113_keys W
  have hd := C113_derivation W
  have hu := C113_util W
  obtain ⟨s1, s2, s3⟩ : (∀ m, entropyFromMnemonic W.H W.S m ≠ .panic) ∧ (∀ m raw, mnemonicToByteArray W.H W.S m raw ≠ .panic) ∧
      ∀ m p, newSeedWithErrorChecking W.H W.S m p ≠ .panic :=
    ⟨fun m => (C80_no_panic W.H W.S m [] []).1, fun m raw => (C80_no_panic W.H W.S m [] raw).2.1, fun m p => (C80_no_panic W.H W.S m p []).2.2.1⟩
  refine ⟨fun m => returns_outcome (hw.2.2.2.2.2.2.2.2.1 m) (s1 m), fun m => returns_outcome (hw.2.2.2.2.2.2.2.2.2.1 m) ?_,
    fun m raw hm => returns_outcome (hw.2.2.2.2.2.2.2.2.2.2.2.1 m raw hm) (s2 m raw),
    fun m p hm => returns_outcome (hw.2.2.2.2.2.2.2.2.2.2.2.2.2.1 m p hm) (s3 m p), fun m p => ⟨_, hw.2.2.2.2.2.2.2.2.2.2.2.2.1 m p⟩,
    fun n => ⟨_, hw.2.2.2.2.2.1 n⟩, fun m p => returns_outcome (hu.2.1 m p) ?_, fun p => ⟨_, hp.2.2.1 p⟩,
    fun p d => returns_outcome (hp.2.2.2.2.1 p d) ?_, fun p d v => returns_outcome (hp.2.2.2.2.2 p d v) ?_,
    fun s => ⟨_, hd.1 s⟩, fun s => ⟨_, hk.2.2.2.2.2.2.2.2.2.2.2.2.2.2.2.2.2.2.2.2.1 s⟩, fun s => ⟨_, hk.2.2.2.2.2.2.2.2.2.2.2.2.2.2.2.2.2.2.2.2.2.1 s⟩,
    fun b i hb => ⟨_, hd.2.2.1 ⟨b, hb⟩ i⟩,
    fun b hb => ⟨⟨_, hd.2.2.2.1 ⟨b, hb⟩⟩, ⟨_, hd.2.2.2.2.2 ⟨b, hb⟩⟩, ⟨_, hd.2.2.2.2.1 ⟨b, hb⟩⟩,
      ⟨_, hk.2.2.2.2.2.2.2.2.2.2.2.2.2.2.2.2.2.2.2.1 ⟨b, hb⟩⟩, ⟨_, hk.2.2.2.2.2.2.2.2.2.2.2.2.2.2.2.2.2.2.2.2.2.2 ⟨b, hb⟩⟩⟩,
    fun b p hb => ⟨⟨_, hu.2.2.2.2.2.2.1 ⟨b, hb⟩ p⟩, ⟨_, hu.2.2.2.2.2.2.2.1 ⟨p, ⟨b, hb⟩⟩⟩, fun v => ⟨_, hu.2.2.2.2.2.2.2.2.1 ⟨p, ⟨b, hb⟩⟩ v⟩⟩,
    fun b p s e hb => ⟨_, hu.2.2.2.2.2.2.2.2.2 ⟨s, e, ⟨p, ⟨b, hb⟩⟩, []⟩⟩⟩
  · have := s1 m
    rw [isMnemonicValid]
    cases h : entropyFromMnemonic W.H W.S m with
    | panic => exact absurd h this
    | ok r => obtain ⟨a, _ | b⟩ := r <;> simp
  · have := s1 m
    rw [deriveSeedFromMnemonic]
    cases h : entropyFromMnemonic W.H W.S m with
    | panic => exact absurd h this
    | ok r => obtain ⟨a, _ | b⟩ := r <;> simp
  · exact (C39_valueAtDepth_exact p d).2.2
  · exact Chk.replaceValueAtDepth_ne p d v

/-- **C114**, panics: exactly when the others panic. `NewMnemonic` and `GenerateMnemonic`: on a word list on which BIP-39 has no sentence for the
entropy. `RootKeyFromSeed`: on a seed without a master key. The methods of keys called on a nil pointer panic. -/
theorem C114_panics (W : World) :
    (∀ e, e.length < 2 ^ 59 → (Ends W .bip39_NewMnemonic [.bytes e] .panic ↔
      e.length ∈ entropySizes ∧ ∀ ws, ¬ Encodes W.H.sha256 W.S.list e ws)) ∧
    (∀ c, (∀ n, (W.read n).length = n) → (Ends W .util_GenerateMnemonic [.u8 c] .panic ↔
      c.toNat ∈ sentenceLengths ∧ ∀ ws, ¬ Encodes W.H.sha256 W.S.list (W.read (c.toNat / 3 * 4)) ws)) ∧
    (∀ seed, Ends W .util_RootKeyFromSeed [.str seed] .panic ↔
      ∃ b, hexDecode seed = some b ∧ 16 ≤ b.length ∧ masterNode W.H.hmacSha512 b = none) := by
  have hu := C113_util W
  refine ⟨fun e he => ?_, fun c hr => ?_, fun seed => ?_⟩
  · rw [panic_outcome ((C113_words W).2.2.2.2.2.2.2.2.2.2.1 e he)]
    have := C94_mnemonics W.H W.S [] e [] (fun n => List.replicate n 0) 0
    rw [← this.2.2.2.2, this.2.2.2.1]
  · rw [panic_outcome (hu.1 c hr)]
    have := C94_util W.H W.R W.S [] [] [] [] Key.zero ⟨[], Key.zero⟩ c ⟨0, 0, ⟨[], Key.zero⟩, []⟩ W.read hr
    rw [← this.2.2.2.2.2.2.2.2, this.2.2.2.2.2.2.2.1]
  · rw [panic_outcome (hu.2.2.2.1 seed)]
    have := C94_util W.H W.R W.S [] [] seed [] Key.zero ⟨[], Key.zero⟩ 0 ⟨0, 0, ⟨[], Key.zero⟩, []⟩ (fun n => List.replicate n 0) (by simp)
    rw [← this.2.1, this.2.2.1]
    have hm : ∀ b, masterNode W.H.hmacSha512 b = none ↔ (parse256 ((W.H.hmacSha512 (str "Bitcoin seed") b).take 32) = 0 ∨
        secpN ≤ parse256 ((W.H.hmacSha512 (str "Bitcoin seed") b).take 32)) := by
      intro b
      rw [masterNode]
      split <;> simp_all
    simp only [hm]

/-! ### Cases -/

/-- A case of `C114_mnemonic`, `C114_accepts` and `C114_wallet`: any list of the repo, any hash functions with `IL = 5`, the entropy of 16 zero
bytes, the path `m/44'/0'/0' /0/7`; every prefix has a node. -/
example (l : List Bytes) (hg : GoodList l) (pp : Bytes) :
    ∃ m ws n0, Layout m ws ∧ (List.replicate 16 (0 : UInt8)).length ∈ entropySizes ∧
      Encodes (hashesIL 5).sha256 l (List.replicate 16 0) ws ∧ PathText (stripSpace (str "m/44'/0'/0' /0/7")) bip44Comps ∧
      (∀ c ∈ bip44Comps, decValue c.digits < 2 ^ 31) ∧
      masterNode (hashesIL 5).hmacSha512 (bip39Seed (hashesIL 5).hmacSha512 m pp) = some n0 ∧
      ∀ j ≤ bip44Comps.length, ∃ n, n0.descend (hashesIL 5).suite ((bip44Comps.take j).map Comp.value) = some n := by
  obtain ⟨ws, h1, h2, -⟩ := C03_bip39_encoding (hashesIL 5) hg (List.replicate 16 0) (by decide)
  have hp : parse256 (((hashesIL 5).hmacSha512 (str "Bitcoin seed")
      (bip39Seed (hashesIL 5).hmacSha512 ([32].intercalate ws) pp)).take 32) = 5 := by
    rw [hashesIL_take]; decide +kernel
  obtain ⟨n0, h0, hd, hsc⟩ : ∃ n0, masterNode (hashesIL 5).hmacSha512
      (bip39Seed (hashesIL 5).hmacSha512 ([32].intercalate ws) pp) = some n0 ∧ n0.depth = 0 ∧ n0.scalar = 5 := by
    unfold masterNode
    dsimp only
    rw [hp, if_neg (by decide)]
    exact ⟨_, rfl, rfl, rfl⟩
  refine ⟨_, ws, n0, layout_intercalate (c := 0x20) (by decide) ws (encodes_words _ hg h2), by decide, h2, bip44_text, by decide +kernel, h0,
    fun j hj => descend_five _ n0 ?_ (by rw [hd, hsc]; decide)⟩
  rw [hd, List.length_map, List.length_take]
  have : bip44Comps.length = 5 := rfl
  omega

/-- A case of `C114_child`: the node with scalar 5 and its child 7; and of `C114_text`: its key. -/
example : ∃ n n' : Node, Sized n ∧ n.child (hashesIL 5).suite (7 : UInt32).toNat = some n' ∧
    0 < parse256 (((hashesIL 5).hmacSha512 n.chainCode (serP (point n.scalar) ++ ser32 (7 : UInt32).toNat)).take 32) ∧
    n.xprv.length = 78 ∧ n.xprv ≠ List.replicate 78 0 := by
  have h : IsNode (xprvKey 5) ⟨0, List.replicate 4 0, 0, List.replicate 32 0, 5⟩ :=
    ⟨by decide, by decide, by rw [xprvKey_fields]; rfl⟩
  obtain ⟨n', hn'⟩ := descend_five [7] ⟨0, List.replicate 4 0, 0, List.replicate 32 0, 5⟩ (by decide) (by decide)
  rw [Node.descend] at hn'
  obtain ⟨n1, h1, -⟩ := Option.bind_eq_some_iff.1 hn'
  refine ⟨_, n1, h.sized, h1, ?_, h.sized.xprv_length, fun e => ?_⟩
  · rw [hashesIL_take]; decide +kernel
  · have := congrArg (·.take 4) e
    revert this
    decide

/-- A case of `C114_root` and `C114_panics`: 64 zero bytes have a master key with `IL = 5`, and none with `IL = 0`. -/
example : (∃ n, masterNode (hashesIL 5).hmacSha512 (List.replicate 64 0) = some n) ∧
    masterNode (hashesIL 0).hmacSha512 (List.replicate 64 0) = none := by
  constructor
  · unfold masterNode
    dsimp only
    rw [hashesIL_take, if_neg (by decide +kernel)]
    exact ⟨_, rfl⟩
  · unfold masterNode
    dsimp only
    rw [hashesIL_take, if_pos (by decide +kernel)]

end Bips
