import Verif.Props.Footprint
import Verif.Props.Source
import Verif.Props.Child

/-!
# C123: the tables name no function in vain

For the word list, its index, the random source and the registry: every function of packages bip32, bip39 and util named in the tables of
`Verif.Props.Footprint` does depend on the part, but for three. `PublicKeyHex` and the two addresses look at the registry and do not depend on it.
-/

namespace Bips

open Src Spec

/-- The result of a function depends on a part: two worlds that differ in this part only, and arguments for which the function ends differently. -/
def Depends (p : Part) (f : Fn) : Prop :=
  ∃ (W W' : World) (vs : List Val) (r r' : Res (List Val)), (∀ q, q ≠ p → q.same W W') ∧ Ends W f vs r ∧ Ends W' f vs r' ∧ r ≠ r'

/-- Functions of package main. -/
def ofMain : Fn → Bool
  | .main_onKeyPathChange | .main_onAutoCreateMnemonicClicked | .main_onMnemonicChange | .main_onMnemonicPassphraseChange | .main_onSeedChange |
    .main_onRootKeyStrChange | .main_OnDerivationPathChange | .main_update | .main_labels => true
  | _ => false

/-- Functions that look at the registry to no effect (bip32/bip32.go:236-242, util/key_path.go:16-44). -/
def keyOnly : Fn → Bool
  | .bip32_Key_PublicKeyHex | .util_KeyPath_AddrHex | .util_KeyPath_AddrP2SH => true
  | _ => false

/-- The public key does not depend on the registry. -/
theorem publicKeyHex_any (R R' : Registry) (k : Key) : k.publicKeyHex R = k.publicKeyHex R' := by
  unfold Key.publicKeyHex
  split
  · rename_i hp
    have h : ∀ R : Registry, slice (k.publicKeyExtended R).bytes pubKeyStart pubKeyEnd =
        slice (k.put pubKeyStart pubKeyEnd (publicKeyForPrivateKey (slice k.bytes pvtKeyStart 78))).bytes pubKeyStart pubKeyEnd := by
      intro R
      unfold Key.publicKeyExtended
      simp only [hp, if_true]
      unfold Key.setVersion
      refine Key.slice_put_disjoint _ _ _ _ (by decide) (by decide) ?_ _ _ (.inr (by decide))
      split <;> rfl
    rw [h R, h R']
  · rfl

/-- **C123**: public keys and addresses are the same whatever the registry. -/
theorem C123_key_only (W W' : World) (hH : W.H = W'.H) (k : Key) (b : KeyPath) (v : UInt8) :
    (∃ r, Ends W .bip32_Key_PublicKeyHex [.bytes k.bytes] r ∧ Ends W' .bip32_Key_PublicKeyHex [.bytes k.bytes] r) ∧
    (∃ r, Ends W .util_KeyPath_AddrHex [keyPathVal b] r ∧ Ends W' .util_KeyPath_AddrHex [keyPathVal b] r) ∧
    (∃ r, Ends W .util_KeyPath_AddrP2SH [keyPathVal b, .u8 v] r ∧ Ends W' .util_KeyPath_AddrP2SH [keyPathVal b, .u8 v] r) := by
  refine ⟨⟨_, .of 4 32 fun L n hL => key_PublicKeyHex W L hL n k, ?_⟩, ⟨_, .of 5 32 fun L n hL => util_AddrHex W L hL n b, ?_⟩,
    ⟨_, .of 5 32 fun L n hL => util_AddrP2SH W L hL n b v, ?_⟩⟩
  · rw [publicKeyHex_any W.R W'.R]
    exact .of 4 32 fun L n hL => key_PublicKeyHex W' L hL n k
  · rw [show b.addrHex W.H W.R = b.addrHex W'.H W'.R by unfold KeyPath.addrHex; rw [publicKeyHex_any W.R W'.R, hH]]
    exact .of 5 32 fun L n hL => util_AddrHex W' L hL n b
  · rw [show b.addrP2SH W.H W.R v = b.addrP2SH W'.H W'.R v by unfold KeyPath.addrP2SH; rw [publicKeyHex_any W.R W'.R, hH]]
    exact .of 5 32 fun L n hL => util_AddrP2SH W' L hL n b v

/-- Words of the English list (bip39/wordlists/english.go:8). -/
def englishState : WordState := setWordList english.list

/-- A random source that yields zeros, or ones. -/
def same (b : UInt8) (n : Nat) : Bytes := List.replicate n b

/-- A registry with an entry for each private version. -/
def fullRegistry : Registry := { pvtFlag := fun _ => [{ defaultMainnetVersion with pubKeyFlag := 0 }] }

section
variable {H : Hashes} {R : Registry} {S : WordState} {read : Nat → Bytes} {f : Fn} {vs : List Val} {r r' : Res (List Val)}

theorem depends_words {l : List Bytes} (h : Ends ⟨H, R, S, read⟩ f vs r) (h' : Ends ⟨H, R, ⟨l, S.map⟩, read⟩ f vs r') (hn : r ≠ r') : Depends .words f :=
  ⟨_, _, vs, r, r', by intro q hq; cases q <;> first | exact absurd rfl hq | exact rfl, h, h', hn⟩

theorem depends_index {map : Bytes → Option Nat} (h : Ends ⟨H, R, S, read⟩ f vs r) (h' : Ends ⟨H, R, ⟨S.list, map⟩, read⟩ f vs r') (hn : r ≠ r') :
    Depends .index f :=
  ⟨_, _, vs, r, r', by intro q hq; cases q <;> first | exact absurd rfl hq | exact rfl, h, h', hn⟩

theorem depends_random {read' : Nat → Bytes} (h : Ends ⟨H, R, S, read⟩ f vs r) (h' : Ends ⟨H, R, S, read'⟩ f vs r') (hn : r ≠ r') : Depends .random f :=
  ⟨_, _, vs, r, r', by intro q hq; cases q <;> first | exact absurd rfl hq | exact rfl, h, h', hn⟩

theorem depends_registry {R' : Registry} (h : Ends ⟨H, R, S, read⟩ f vs r) (h' : Ends ⟨H, R', S, read⟩ f vs r') (hn : r ≠ r') : Depends .registry f :=
  ⟨_, _, vs, r, r', by intro q hq; cases q <;> first | exact absurd rfl hq | exact rfl, h, h', hn⟩

end

theorem mnemonic_of (H : Hashes) (b : UInt8) : ∃ m, newMnemonic H (englishState) (List.replicate 16 b) = .ok (m, none) ∧
    entropyFromMnemonic H (englishState) m = .ok (List.replicate 16 b, none) := by
  obtain ⟨m, h1, h2, -⟩ := C01_roundtrip H english_list_good (List.replicate 16 b) (by simp [entropySizes])
  exact ⟨m, h1, h2⟩

theorem no_mnemonic (H : Hashes) (map : Bytes → Option Nat) : newMnemonic H ⟨[], map⟩ (List.replicate 16 0) = .panic := by
  simp [newMnemonic, validateEntropyBitSize, encodeWords]

theorem no_entropy (H : Hashes) (l : List Bytes) (m : Bytes) (h : ∃ e, entropyFromMnemonic H (englishState) m = .ok (e, none)) :
    ∃ e, entropyFromMnemonic H ⟨l, fun _ => none⟩ m = .ok ([], some e) := by
  obtain ⟨e, h⟩ := h
  unfold entropyFromMnemonic at h ⊢
  rcases hs : splitMnemonicWords m with ⟨ws, _ | _⟩
  · exact ⟨_, rfl⟩
  · cases ws with
    | nil =>
      unfold splitMnemonicWords at hs
      simp only at hs
      split at hs
      · simp at hs
      · rename_i hc
        simp only [Prod.mk.injEq, and_true] at hs
        rw [hs] at hc
        simp at hc
    | cons w ws => exact ⟨_, rfl⟩

theorem version_child (H : Hashes) (i : UInt32) : ((xprvKey 1).newChildKey H fullRegistry i).1 ≠ Key.zero ∧
    ((xprvKey 1).newChildKey H {} i) = (Key.zero, some .unSupportedHDVersionBytes) := by
  have hp : (xprvKey 1).isPrivate = true := by decide +kernel
  constructor
  · intro h
    have h1 := congrArg KeyFields.version (newChildKey_private_any H fullRegistry (xprvKey 1) i hp (by simp [fullRegistry])).1
    rw [h, show Key.zero.fields.version = 0 by decide +kernel] at h1
    have h2 : (xprvKey 1).getVersion = 0x0488ade4 := congrArg KeyFields.version (xprvKey_fields 1)
    exact absurd (h1.trans h2) (by decide)
  · unfold Key.newChildKey
    simp [hp]

theorem bytes_ne {k k' : Key} (h : k ≠ k') : k.bytes ≠ k'.bytes := fun e => h (Key.ext' e)

theorem exact_words (f : Fn) (hf : usesWords f = true) (hm : ofMain f = false) : Depends .words f := by
  obtain ⟨m, hm1, -⟩ := mnemonic_of (hashesIL 1) 0
  generalize hS : englishState = S at hm1
  cases f <;> first | exact absurd hf (by decide) | exact absurd hm (by decide) | skip
  · refine depends_words (H := hashesIL 1) (R := {}) (S := ⟨[[]], fun _ => none⟩) (read := same 0) (l := []) (.of 1 32 fun L n _ => words_GetWordList _ L n)
      (.of 1 32 fun L n _ => words_GetWordList _ L n) ?_
    simp [getWordList]
  · refine depends_words (H := hashesIL 1) (R := {}) (S := S) (read := same 0) (l := [])
      (.of 3 32 fun L n hL => words_NewMnemonic _ L hL n (List.replicate 16 0) (by simp))
      (.of 3 32 fun L n hL => words_NewMnemonic _ L hL n (List.replicate 16 0) (by simp)) ?_
    simp only [hm1, no_mnemonic]
    simp [outcome]
  · refine depends_words (H := hashesIL 1) (R := {}) (S := S) (read := same 0) (l := [])
      (.of 4 32 fun L n hL => util_GenerateMnemonic_eq _ L hL (by simp [same]) n 12)
      (.of 4 32 fun L n hL => util_GenerateMnemonic_eq _ L hL (by simp [same]) n 12) ?_
    have h0 : newEntropy (same 0) 128 = (List.replicate 16 0, none) := rfl
    simp only [generateMnemonic, if_true, h0, hm1, no_mnemonic]
    simp [outcome]

theorem exact_index (f : Fn) (hf : usesIndex f = true) (hm : ofMain f = false) : Depends .index f := by
  obtain ⟨s, e, hs, hse⟩ := english_sentence (hashesIL 1)
  rw [show setWordList english.list = englishState from rfl] at hse
  obtain ⟨x, hx⟩ := no_entropy (hashesIL 1) englishState.list s ⟨e, hse⟩
  have hs : s.length < 2 ^ 59 := by omega
  generalize englishState = S at hse hx
  cases f <;> first | exact absurd hf (by decide) | exact absurd hm (by decide) | skip
  · refine depends_index (H := hashesIL 1) (R := {}) (S := ⟨[], fun _ => some 1⟩) (read := same 0) (map := fun _ => none)
      (.of 1 32 fun L n _ => words_GetWordIndex _ L n []) (.of 1 32 fun L n _ => words_GetWordIndex _ L n []) ?_
    simp [getWordIndex]
  · refine depends_index (H := hashesIL 1) (R := {}) (S := S) (read := same 0) (map := fun _ => none)
      (.of 2 32 fun L n hL => words_EntropyFromMnemonic _ L n s) (.of 2 32 fun L n hL => words_EntropyFromMnemonic _ L n s) ?_
    simp only [hse, hx]
    simp [outcome, both]
  · refine depends_index (H := hashesIL 1) (R := {}) (S := S) (read := same 0) (map := fun _ => none)
      (.of 3 32 fun L n hL => words_MnemonicToByteArray _ L hL n s [true] hs) (.of 3 32 fun L n hL => words_MnemonicToByteArray _ L hL n s [true] hs) ?_
    simp only [mnemonicToByteArray, hse, hx]
    simp [outcome, both]
  · refine depends_index (H := hashesIL 1) (R := {}) (S := S) (read := same 0) (map := fun _ => none)
      (.of 4 32 fun L n hL => words_NewSeedWithErrorChecking _ L hL n s [] hs)
      (.of 4 32 fun L n hL => words_NewSeedWithErrorChecking _ L hL n s [] hs) ?_
    simp only [newSeedWithErrorChecking, mnemonicToByteArray, hse, hx]
    simp [outcome, both]
  · refine depends_index (H := hashesIL 1) (R := {}) (S := S) (read := same 0) (map := fun _ => none)
      (.of 3 32 fun L n hL => words_IsMnemonicValid _ L n s) (.of 3 32 fun L n hL => words_IsMnemonicValid _ L n s) ?_
    simp only [isMnemonicValid, hse, hx]
    simp [outcome]
  · refine depends_index (H := hashesIL 1) (R := {}) (S := S) (read := same 0) (map := fun _ => none)
      (.of 3 32 fun L n hL => util_DeriveSeedFromMnemonic_eq _ L n s []) (.of 3 32 fun L n hL => util_DeriveSeedFromMnemonic_eq _ L n s []) ?_
    simp only [deriveSeedFromMnemonic, hse, hx]
    simp [outcome, both]

theorem exact_random (f : Fn) (hf : usesRandom f = true) (hm : ofMain f = false) : Depends .random f := by
  obtain ⟨m, hm1, hm2⟩ := mnemonic_of (hashesIL 1) 0
  obtain ⟨m', hm1', hm2'⟩ := mnemonic_of (hashesIL 1) 1
  have hne : m ≠ m' := by
    rintro rfl
    rw [hm2] at hm2'
    simp at hm2'
  generalize englishState = S at hm1 hm1'
  cases f <;> first | exact absurd hf (by decide) | exact absurd hm (by decide) | skip
  · refine depends_random (H := hashesIL 1) (R := {}) (S := ⟨[], fun _ => none⟩) (read := same 0) (read' := same 1)
      (.of 1 32 fun L n _ => bip32_seed _ L n) (.of 1 32 fun L n _ => bip32_seed _ L n) ?_
    simp only [same]
    intro h
    simp [-List.reduceReplicate] at h
  · refine depends_random (H := hashesIL 1) (R := {}) (S := ⟨[], fun _ => none⟩) (read := same 0) (read' := same 1)
      (.of 2 32 fun L n _ => words_NewEntropy _ L n 128) (.of 2 32 fun L n _ => words_NewEntropy _ L n 128) ?_
    simp [newEntropy, validateEntropyBitSize, same, both]
  · refine depends_random (H := hashesIL 1) (R := {}) (S := S) (read := same 0) (read' := same 1)
      (.of 4 32 fun L n hL => util_GenerateMnemonic_eq _ L hL (by simp [same]) n 12)
      (.of 4 32 fun L n hL => util_GenerateMnemonic_eq _ L hL (by simp [same]) n 12) ?_
    have h0 : newEntropy (same 0) 128 = (List.replicate 16 0, none) := rfl
    have h1 : newEntropy (same 1) 128 = (List.replicate 16 1, none) := rfl
    simp only [generateMnemonic, if_true, h0, h1, hm1, hm1']
    simpa [outcome, both] using hne

theorem xprv_facts : (xprvKey 1).isPrivate = true ∧ (xprvKey 1).byteAt depthStart = 0 ∧ ∀ H, (xprvKey 1).isValid H = true := by
  refine ⟨by decide +kernel, by decide +kernel, fun H => (C18_isValid_iff H _).2 (by decide +kernel)⟩

theorem registry_child (H : Hashes) : Depends .registry .bip32_Key_NewChildKey := by
  have h := version_child H 0
  refine depends_registry (H := H) (R := {}) (S := ⟨[], fun _ => none⟩) (read := same 0) (R' := fullRegistry)
    (.of 4 32 fun L n hL => key_NewChildKey _ L hL n (xprvKey 1) 0) (.of 4 32 fun L n hL => key_NewChildKey _ L hL n (xprvKey 1) 0) ?_
  simp only [h.2, both]
  intro e
  simp only [Res.ok.injEq, List.cons.injEq, Val.bytes.injEq] at e
  exact h.1 (Key.ext' e.1.symm)

theorem extended_ne : ((xprvKey 1).publicKeyExtended {}).bytes ≠ ((xprvKey 1).publicKeyExtended fullRegistry).bytes := by
  unfold Key.publicKeyExtended
  simp only [xprv_facts.1, if_true, fullRegistry]
  generalize publicKeyForPrivateKey _ = K
  intro e
  have e := congrArg (fun b => slice b versionStart versionEnd) e
  simp only [Key.setVersion] at e
  rw [Key.slice_put_same _ _ _ _ _ _ rfl, Key.slice_put_same _ _ _ _ _ _ rfl] at e
  exact absurd e (by decide +kernel)

theorem registry_extended (H : Hashes) : Depends .registry .bip32_Key_PublicKeyExtended := by
  refine depends_registry (H := H) (R := {}) (S := ⟨[], fun _ => none⟩) (read := same 0) (R' := fullRegistry)
    (.of 3 32 fun L n hL => key_PublicKeyExtended _ L hL n (xprvKey 1)) (.of 3 32 fun L n hL => key_PublicKeyExtended _ L hL n (xprvKey 1)) ?_
  have h := extended_ne
  intro e
  simp only [Res.ok.injEq, List.cons.injEq, Val.bytes.injEq, and_true] at e
  exact h e

theorem registry_derive (H : Hashes) : Depends .registry .util_Generator_DeriveBIP32Result := by
  have h := version_child H 0
  obtain ⟨h1, h2, h3⟩ := xprv_facts
  have h3 := h3 H
  have hq : pathIsValid (str "m/0") = true := by decide +kernel
  have hd : valuesAtDepth (str "m/0") = ([0, 0], none) := by decide +kernel
  generalize xprvKey 1 = k at h h1 h2 h3
  refine depends_registry (H := H) (R := {}) (S := ⟨[], fun _ => none⟩) (read := same 0) (R' := fullRegistry)
    (.of 5 32 fun L n hL => util_DeriveBIP32Result _ L hL n k (str "m/0"))
    (.of 5 32 fun L n hL => util_DeriveBIP32Result _ L hL n k (str "m/0")) ?_
  intro e
  simp [deriveBIP32Result, h1, h2, h3, hq, hd, deriveLoop, both, keyPathVal, h.2] at e
  exact h.1 (Key.ext' e.symm)

theorem registry_range (H : Hashes) : Depends .registry .util_KeyPathRange_GenerateRange := by
  have h := version_child H 0
  obtain ⟨-, -, h3⟩ := xprv_facts
  have h3 := h3 H
  have hq : pathIsValid (str "m") = true := by decide +kernel
  generalize xprvKey 1 = k at h h3
  have hn : ∀ (R : Registry) (p : Bytes) (k : Key), rangeLoop H R (0 + 1) 1 p k = [] := by
    intro R p k
    unfold rangeLoop
    rw [dif_neg (by decide)]
  have hl : ∀ (R : Registry), rangeLoop H R 0 1 (pathString (str "m")) k =
      [⟨pathFormatted (appendComponent (pathString (str "m")) 0), (k.newChildKey H R 0).1⟩] := by
    intro R
    rw [rangeLoop, dif_pos (by decide)]
    dsimp only
    rw [hn]
  refine depends_registry (H := H) (R := {}) (S := ⟨[], fun _ => none⟩) (read := same 0) (R' := fullRegistry)
    (.of 5 32 fun L n hL => util_GenerateRange _ L hL n ⟨0, 1, ⟨str "m", k⟩, []⟩ (by simpa using (by omega : 1 < L)))
    (.of 5 32 fun L n hL => util_GenerateRange _ L hL n ⟨0, 1, ⟨str "m", k⟩, []⟩ (by simpa using (by omega : 1 < L))) ?_
  intro e
  simp [KeyPathRange.generateRange, h3, hq, hl, rangeVal, keyPathVal, h.2] at e
  exact h.1 (Key.ext' e.symm)

theorem exact_registry (f : Fn) (hf : usesRegistry f = true) (hm : ofMain f = false) : Depends .registry f ∨ keyOnly f = true := by
  cases f <;> first | exact absurd hf (by decide) | exact absurd hm (by decide) | exact .inr rfl | left
  · exact registry_child (hashesIL 1)
  · exact registry_extended (hashesIL 1)
  · exact registry_derive (hashesIL 1)
  · exact registry_range (hashesIL 1)

/-- **C123**: but for package main and hash functions, every function of the tables depends on the part, or is one of the three of `C123_key_only`. -/
theorem C123_exact (p : Part) (hp : p ≠ .hashes) (f : Fn) (hf : uses f p = true) (hm : ofMain f = false) :
    Depends p f ∨ (p = .registry ∧ keyOnly f = true) := by
  cases p with
  | hashes => exact absurd rfl hp
  | words => exact .inl (exact_words f hf hm)
  | index => exact .inl (exact_index f hf hm)
  | random => exact .inl (exact_random f hf hm)
  | registry => exact (exact_registry f hf hm).imp id fun h => ⟨rfl, h⟩

/-- Concrete: a seed, a master key and its address, worked out beside calls that set other word lists: nothing touches them. -/
example (W : World) (S : WordState) (m p : Bytes) (l l' : List Bytes) (schedule : List Nat) :
    ((Calls.begin W 64 9 S [setCall l, (.bip39_NewSeed, [.str m, .str p]), setCall l', (.bip39_NewMnemonic, [.bytes (List.replicate 16 0)])]).run
      schedule).calls[1]? = some (.leaf (.ok [.bytes (newSeed W.H m p)])) := by
  rw [C123_beside W 64 9 S W.S _ 1 .bip39_NewSeed [.str m, .str p] rfl rfl schedule, words_NewSeed _ 64 8 m p]

/-- Concrete: which of the functions of packages bip32, bip39 and util are random. -/
example : usesRandom .bip32_Key_NewChildKey = false ∧ usesRandom .bip39_NewMnemonic = false ∧ usesRandom .util_RootKeyFromSeed = false ∧
    usesRandom .util_GenerateMnemonic = true := ⟨rfl, rfl, rfl, rfl⟩

end Bips
