import Verif.Src.AccessSeed
import Verif.Src.Util

/-!
# Accesses of `GenerateMnemonic` and `DeriveSeedFromMnemonic`

The texts of the two functions of package util that reach the variables of package bip39, with the accesses they make.
-/

namespace Bips.Src

open Bips (str)

set_option linter.unusedSimpArgs false

/-- `DeriveSeedFromMnemonic(mnemonic, passphrase)` (util/util.go:47-53) after `EntropyFromMnemonic` has given this. -/
def seedTextAfter (H : Hashes) (mnemonic passphrase : Bytes) : Outcome (Bytes × Option Err) → Outcome (Bytes × Option Err)
  | .panic => .panic
  | .ok (_, some e) => .ok ([], some e)
  | .ok (_, none) => .ok (hexEncode (newSeed H mnemonic passphrase), none)

/-- The number of bits `GenerateMnemonic(wordsCount)` asks for (util/util.go:21-35). -/
def bitsFor (wordsCount : UInt8) : Option Nat :=
  if wordsCount = 12 then some 128
  else if wordsCount = 15 then some 160
  else if wordsCount = 18 then some 192
  else if wordsCount = 21 then some 224
  else if wordsCount = 24 then some 256
  else none

theorem picks_bind {α β : Type} (f : α → Access β) (k : List (List Bytes) → Access α) (n : Nat) :
    ∀ d got, (picks n d got k).bind f = picks n d got fun g => (k g).bind f := by
  induction n with
  | zero => intro d got; rfl
  | succ n ih =>
    intro d got
    simp only [picks, src]
    congr 1
    funext l
    cases l[setBytes (padByteSlice (bigBytes (d &&& 2047)) 2)]?
    · rfl
    · exact ih _ _

variable (W : World) (L : Nat)

theorem acc_DeriveSeedFromMnemonic (n : Nat) (m p : Bytes) : accRun W L (n + 3) .util_DeriveSeedFromMnemonic [.str m, .str p] =
    lookups (lookedUp m) [] fun got => .leaf (outcome (both .str) (seedTextAfter W.H m p (entropyLookups W.H got m))) := by
  rw [accRun_succ _ _ _ _ _ (by intro h; cases h)]
  have hq := fun vs => accRun_quiet W L (n + 2) .bip39_NewSeed vs rfl
  simp -implicitDefEqProofs only [src, util_DeriveSeedFromMnemonic, accS, accE, accLib, acc_EntropyFromMnemonic, lookups_bind]
  refine congrArg (lookups (lookedUp m) []) (funext fun got => ?_)
  rcases entropyLookups W.H got m with ⟨r, _ | e⟩ | _ <;>
    simp -implicitDefEqProofs [src, accS, accE, accLib, hq, words_NewSeed, seedTextAfter, outcome, both]

/-- `NewEntropy` makes no access. -/
theorem acc_NewEntropy (n : Nat) (i : Int) : accRun W L (n + 2) .bip39_NewEntropy [.int i] = .leaf (run W L (n + 2) .bip39_NewEntropy [.int i]) := by
  rw [run_succ, accRun_succ _ _ _ _ _ (by intro h; cases h),
    accS_apart W L (accRun W L (n + 1)) (run W L (n + 1)) quiet (fun g ws hg => accRun_quiet W L (n + 1) g ws hg) _ rfl, leaf_bind]

theorem acc_GenerateMnemonic (hL : 32 < L) (hr : ∀ n, (W.read n).length = n) (n : Nat) (c : UInt8) :
    accRun W L (n + 4) .util_GenerateMnemonic [.u8 c] = match bitsFor c with
      | none => .leaf (.ok [.str [], .err (some .invalidMnemonicWordsCount)])
      | some bits => picks (sentenceOf (W.read (bits / 8))) (setBytes (addChecksum W.H (W.read (bits / 8)))) [] fun got =>
        .leaf (outcome (both .str) (newMnemonicRacing W.H got (W.read (bits / 8)))) := by
  rw [accRun_succ _ _ _ _ _ (by intro h; cases h)]
  have hent := acc_NewEntropy W L (n + 1)
  have hnm := fun (k : Nat) (hk : k < 100) => acc_NewMnemonic W L hL n (W.read k) (by rw [hr]; omega)
  have fin : ∀ k : Nat, ∀ got, newMnemonicRacing W.H got (W.read k) = .panic ∨ (∃ m, newMnemonicRacing W.H got (W.read k) = .ok (m, none)) ∨
      ∃ e, newMnemonicRacing W.H got (W.read k) = .ok ([], some e) := by
    intro k got
    unfold newMnemonicRacing
    dsimp only
    split
    · exact .inr (.inr ⟨_, rfl⟩)
    · split
      · exact .inl rfl
      · exact .inr (.inl ⟨_, rfl⟩)
  unfold bitsFor
  by_cases h12 : c = 12
  · subst h12
    have he : newEntropy W.read 128 = (W.read 16, none) := rfl
    simp -implicitDefEqProofs [src, util_GenerateMnemonic, accS, accE, accLib, hent, words_NewEntropy, he, both, hnm 16 (by norm_num), picks_bind]
    refine congrArg (picks _ _ []) (funext fun got => ?_)
    rcases fin 16 got with h | ⟨m, h⟩ | ⟨e, h⟩ <;> simp -implicitDefEqProofs [src, accS, accE, accLib, h, outcome, both]
  by_cases h15 : c = 15
  · subst h15
    have he : newEntropy W.read 160 = (W.read 20, none) := rfl
    simp -implicitDefEqProofs [src, util_GenerateMnemonic, accS, accE, accLib, hent, words_NewEntropy, he, both, hnm 20 (by norm_num), picks_bind]
    refine congrArg (picks _ _ []) (funext fun got => ?_)
    rcases fin 20 got with h | ⟨m, h⟩ | ⟨e, h⟩ <;> simp -implicitDefEqProofs [src, accS, accE, accLib, h, outcome, both]
  by_cases h18 : c = 18
  · subst h18
    have he : newEntropy W.read 192 = (W.read 24, none) := rfl
    simp -implicitDefEqProofs [src, util_GenerateMnemonic, accS, accE, accLib, hent, words_NewEntropy, he, both, hnm 24 (by norm_num), picks_bind]
    refine congrArg (picks _ _ []) (funext fun got => ?_)
    rcases fin 24 got with h | ⟨m, h⟩ | ⟨e, h⟩ <;> simp -implicitDefEqProofs [src, accS, accE, accLib, h, outcome, both]
  by_cases h21 : c = 21
  · subst h21
    have he : newEntropy W.read 224 = (W.read 28, none) := rfl
    simp -implicitDefEqProofs [src, util_GenerateMnemonic, accS, accE, accLib, hent, words_NewEntropy, he, both, hnm 28 (by norm_num), picks_bind]
    refine congrArg (picks _ _ []) (funext fun got => ?_)
    rcases fin 28 got with h | ⟨m, h⟩ | ⟨e, h⟩ <;> simp -implicitDefEqProofs [src, accS, accE, accLib, h, outcome, both]
  by_cases h24 : c = 24
  · subst h24
    have he : newEntropy W.read 256 = (W.read 32, none) := rfl
    simp -implicitDefEqProofs [src, util_GenerateMnemonic, accS, accE, accLib, hent, words_NewEntropy, he, both, hnm 32 (by norm_num), picks_bind]
    refine congrArg (picks _ _ []) (funext fun got => ?_)
    rcases fin 32 got with h | ⟨m, h⟩ | ⟨e, h⟩ <;> simp -implicitDefEqProofs [src, accS, accE, accLib, h, outcome, both]
  simp -implicitDefEqProofs [src, util_GenerateMnemonic, accS, accE, accLib, h12, h15, h18, h21, h24]

end Bips.Src
