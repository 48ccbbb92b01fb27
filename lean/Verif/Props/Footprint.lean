import Verif.Src.Footprint
import Verif.Props.SourceSeed

/-!
# C123: what the result of each function depends on

Which functions depend on the word list in force, its index, the random source, the registry of versions and the hash functions; all others give the same
result whatever these are, and when.
-/

namespace Bips

open Src Spec

/-- Functions whose result may depend on `wordList` (bip39/bip39.go:87-89, 170-212; util/util.go:20-45). -/
def usesWords : Fn → Bool
  | .bip39_GetWordList | .bip39_NewMnemonic | .util_GenerateMnemonic | .main_onAutoCreateMnemonicClicked | .main_update => true
  | _ => false

/-- Functions whose result may depend on `wordMap` (bip39/bip39.go:92-95, 115-165, 217-249, 260-263; util/util.go:47-53). -/
def usesIndex : Fn → Bool
  | .bip39_GetWordIndex | .bip39_EntropyFromMnemonic | .bip39_MnemonicToByteArray | .bip39_NewSeedWithErrorChecking | .bip39_IsMnemonicValid |
    .util_DeriveSeedFromMnemonic | .main_onAutoCreateMnemonicClicked | .main_onMnemonicChange | .main_onMnemonicPassphraseChange |
    .main_update => true
  | _ => false

/-- Functions whose result may depend on the random source (bip32/bip32.go:388-393; bip39/bip39.go:101-110; util/util.go:20-45). -/
def usesRandom : Fn → Bool
  | .bip32_NewSeed | .bip39_NewEntropy | .util_GenerateMnemonic | .main_onAutoCreateMnemonicClicked | .main_update => true
  | _ => false

/-- Functions whose result may depend on the registry of versions (bip32/bip32.go:120, 205). -/
def usesRegistry : Fn → Bool
  | .bip32_Key_NewChildKey | .bip32_Key_PublicKeyExtended | .bip32_Key_PublicKeyHex | .util_Generator_DeriveBIP32Result | .util_KeyPath_AddrHex |
    .util_KeyPath_AddrP2SH | .util_KeyPathRange_GenerateRange | .main_onKeyPathChange | .main_onAutoCreateMnemonicClicked | .main_onMnemonicChange |
    .main_onMnemonicPassphraseChange | .main_onSeedChange | .main_onRootKeyStrChange | .main_OnDerivationPathChange | .main_update |
    .main_labels => true
  | _ => false

/-- Functions whose result may depend on the hash functions. -/
def usesHashes : Fn → Bool
  | .bip32_hashRipeMD160 | .bip32_HashRipeMD160onSha256 | .bip32_ChecksumDblSha256 | .bip32_AddChecksumDblSha256ToBytes | .bip32_NewMasterKey |
    .bip32_Key_NewChildKey | .bip32_Key_getIntermediary | .bip32_Key_Serialize | .bip32_Key_B58Serialize | .bip32_Key_String | .bip32_Key_IsValid |
    .bip32_Deserialize | .bip32_B58Deserialize | .bip39_EntropyFromMnemonic | .bip39_NewMnemonic | .bip39_MnemonicToByteArray |
    .bip39_NewSeedWithErrorChecking | .bip39_NewSeed | .bip39_IsMnemonicValid | .bip39_addChecksum | .bip39_computeChecksum | .util_GenerateMnemonic |
    .util_DeriveSeedFromMnemonic | .util_RootKeyFromSeed | .util_Generator_DeriveBIP32Result | .util_KeyPath_AddrHex | .util_KeyPath_AddrP2SH |
    .util_KeyPathRange_GenerateRange | .main_onKeyPathChange | .main_onAutoCreateMnemonicClicked | .main_onMnemonicChange |
    .main_onMnemonicPassphraseChange | .main_onSeedChange | .main_onRootKeyStrChange | .main_OnDerivationPathChange | .main_update |
    .main_labels => true
  | _ => false

/-- The parts a function may depend on. -/
def uses (f : Fn) : Part → Bool
  | .hashes => usesHashes f
  | .registry => usesRegistry f
  | .words => usesWords f
  | .index => usesIndex f
  | .random => usesRandom f

/-- What a function calls uses no more than it does. -/
def below (f g : Fn) : Bool :=
  (!usesHashes g || usesHashes f) && (!usesRegistry g || usesRegistry f) && (!usesWords g || usesWords f) && (!usesIndex g || usesIndex f) &&
    (!usesRandom g || usesRandom f)

theorem below_uses (f g : Fn) (h : below f g = true) (p : Part) : uses g p = true → uses f p = true := by
  unfold below at h
  simp only [Bool.and_eq_true, Bool.or_eq_true, Bool.not_eq_true'] at h
  obtain ⟨⟨⟨⟨h1, h2⟩, h3⟩, h4⟩, h5⟩ := h
  intro hg
  cases p <;> simp only [uses] at hg ⊢ <;> simp_all

theorem code_uses (f : Fn) : (code f).1.within (uses f) (below f) = true := by
  cases f <;> rfl

/-- **C123**: a function gives the same result in two worlds that agree on the parts it uses. -/
theorem C123_depends (W W' : World) (L n : Nat) : ∀ (f : Fn) (vs : List Val), (∀ p, uses f p = true → p.same W W') → run W L n f vs = run W' L n f vs := by
  induction n with
  | zero => intro f vs _; rfl
  | succ n ih =>
    intro f vs h
    rw [run_succ, run_succ, exec_within (uses f) h L (run W L n) (run W' L n) (below f) (fun g ws hg => ih g ws fun p hp => h p (below_uses f g hg p hp)) _
      (code_uses f)]

/-- **C123**: functions that use neither variable of the word list do not notice which list is set. -/
theorem C123_any_list (W : World) (S : WordState) (L n : Nat) (f : Fn) (vs : List Val) (hw : usesWords f = false) (hi : usesIndex f = false) :
    run { W with S := S } L n f vs = run W L n f vs := by
  refine C123_depends _ _ L n f vs fun p hp => ?_
  cases p
  · rfl
  · rfl
  · simp [uses, hw] at hp
  · simp [uses, hi] at hp
  · rfl

/-- **C123**: functions that do not use the random source give the same result whatever it yields. -/
theorem C123_deterministic (W : World) (read : Nat → Bytes) (L n : Nat) (f : Fn) (vs : List Val) (hr : usesRandom f = false) :
    run { W with read := read } L n f vs = run W L n f vs := by
  refine C123_depends _ _ L n f vs fun p hp => ?_
  cases p
  · rfl
  · rfl
  · rfl
  · rfl
  · simp [uses, hr] at hp

/-- Functions that touch neither variable of the word list. -/
def aside (f : Fn) : Bool := !usesWords f && !usesIndex f && reader f

theorem code_aside (f : Fn) (h : aside f = true) : (code f).1.apart aside = true := by
  cases f <;> first | rfl | exact absurd h (by decide)

/-- **C123**: such functions make no access to the variables at all. -/
theorem C123_no_access (W : World) (L n : Nat) : ∀ (f : Fn) (vs : List Val), aside f = true → accRun W L n f vs = .leaf (run W L n f vs) := by
  induction n with
  | zero => intro f vs _; rfl
  | succ n ih =>
    intro f vs h
    rw [run_succ, accRun_succ _ _ _ _ _ (by rintro rfl; exact absurd h (by decide)),
      accS_apart W L (accRun W L n) (run W L n) aside (fun g ws hg => ih g ws hg) _ (code_aside f h), leaf_bind]

/-- A call that has ended stays as it is. -/
theorem ended_stays (c : Calls) (schedule : List Nat) (i : Nat) (r : Res (List Val)) (h : c.calls[i]? = some (.leaf r)) :
    (c.run schedule).calls[i]? = some (.leaf r) := by
  induction schedule generalizing c with
  | nil => exact h
  | cons t ts ih =>
    refine ih _ ?_
    by_cases ht : t = i
    · subst ht
      simp only [Calls.step, h]
    · unfold Calls.step
      split <;> simp_all [List.getElem?_set_ne ht]

/-- **C123**: beside any other calls, in any order of their accesses, such a call has the result it has on its own, in any list. -/
theorem C123_beside (W : World) (L n : Nat) (S S' : WordState) (cs : List (Fn × List Val)) (i : Nat) (f : Fn) (vs : List Val) (hf : aside f = true)
    (hi : cs[i]? = some (f, vs)) (schedule : List Nat) :
    ((Calls.begin W L n S cs).run schedule).calls[i]? = some (.leaf (run { W with S := S' } L n f vs)) := by
  have hf' := hf
  simp only [aside, Bool.and_eq_true, Bool.not_eq_true'] at hf'
  refine ended_stays _ schedule i _ ?_
  simp only [Calls.begin, List.getElem?_map, hi, Option.map_some]
  rw [C123_no_access W L n f vs hf, C123_any_list W S' L n f vs hf'.1.1 hf'.1.2]

end Bips
