import Verif.Src.Util
import Verif.Src.SlideVal
import Verif.Model.Ui

/-!
# examples/ui/one/main.go, from the text

The package variables are the first sixteen parameters and results: the texts of the fields, the value of the radio buttons, the copies of the
texts, the path, the generator, the tabs, the selected tab, and the slider.
-/

namespace Bips.Src

open Bips (str)

set_option linter.unusedSimpArgs false

variable (W : World) (L : Nat)

/-- A tab as a value: of its two parts the first. -/
def tabVal (k : KeyPath) : Val := .list [keyPathVal k]

/-- The package variables as values. -/
def uiVals (u : Ui) (slider : Ui.Slider) : List Val :=
  [.str u.mnemonicField, .str u.passphraseField, .str u.seedField, .str u.rootKeyField, .str u.derivationField, .str u.radio, .str u.mnemonic,
    .str u.passphrase, .str u.seed, .str u.rootKeyStr, .str u.derivationStr, .str u.derivationPath, .list [.bytes u.rootKey.bytes],
    .list (u.tabs.map tabVal), .int u.selected, sliderVal slider]

theorem valuesLoop_length (l : List Bytes) (acc : List UInt32) : (valuesLoop l acc).1.length ≤ acc.length + l.length := by
  fun_induction valuesLoop l acc <;> simp_all <;> omega

theorem valuesAtDepth_length (p : Bytes) : (valuesAtDepth p).1.length ≤ p.length + 1 := by
  unfold valuesAtDepth
  split
  · simp
  · refine le_trans (valuesLoop_length _ _) ?_
    have h1 := splitByte_length_le 47 (pathString p)
    have h2 : (pathString p).length ≤ p.length := List.length_filter_le _ _
    simp only [List.length_drop, List.length_cons, List.length_nil]
    omega

theorem deriveLoop_length (H : Hashes) (R : Registry) (vs : List UInt32) (d : Bytes) (k : Key) : (deriveLoop H R vs d k).length = vs.length := by
  induction vs generalizing d k with
  | nil => rfl
  | cons v vs ih => simp [deriveLoop, ih]

theorem derive_length (H : Hashes) (R : Registry) (k : Key) (p : Bytes) : (deriveBIP32Result H R k p).1.length ≤ p.length + 1 := by
  have h := valuesAtDepth_length p
  unfold deriveBIP32Result
  split
  · simp
  · split
    · simp
    · split
      · simp
      · next vs hv =>
        rw [hv] at h
        simp only at h
        simp only
        split
        · simp only [List.length_cons, deriveLoop_length, List.length_drop]; omega
        · simp

theorem tabs_iter (call : Fn → List Val → Res (List Val)) (a0 a1 a2 a3 a4 a5 a6 a7 a8 a9 a10 a11 a12 a14 a15 a16 a17 a18 a19 a20 : Val) (ks : List KeyPath) :
    ∀ (i : Int) (acc : List KeyPath) (v : Val), ∃ w, iter (exec W L call main_onKeyPathChange_body1) none (some 21) i (ks.map keyPathVal)
      [a0, a1, a2, a3, a4, a5, a6, a7, a8, a9, a10, a11, a12, .list (acc.map tabVal), a14, a15, a16, a17, a18, a19, a20, v] =
    .ok (.next [a0, a1, a2, a3, a4, a5, a6, a7, a8, a9, a10, a11, a12, .list ((acc ++ ks).map tabVal), a14, a15, a16, a17, a18, a19, a20, w]) := by
  induction ks with
  | nil => intro i acc v; exact ⟨v, by simp [iter]⟩
  | cons k ks ih =>
    intro i acc v
    obtain ⟨w, h⟩ := ih (i + 1) (acc ++ [k]) (keyPathVal k)
    refine ⟨w, ?_⟩
    have hb : exec W L call main_onKeyPathChange_body1
        [a0, a1, a2, a3, a4, a5, a6, a7, a8, a9, a10, a11, a12, .list (acc.map tabVal), a14, a15, a16, a17, a18, a19, a20, keyPathVal k] =
        .ok (.next [a0, a1, a2, a3, a4, a5, a6, a7, a8, a9, a10, a11, a12, .list ((acc ++ [k]).map tabVal), a14, a15, a16, a17, a18, a19, a20, keyPathVal k]) := by
      simp -implicitDefEqProofs [src, main_onKeyPathChange_body1, tabVal]
    simp only [List.map_cons, iter, src, hb]
    simpa using h

theorem window_onKeyPathChange (hL : 32 < L) (n : Nat) (u : Ui) (slider : Ui.Slider) (hp : u.derivationPath.length < 2 ^ 62) :
    run W L (n + 6) .main_onKeyPathChange (uiVals u slider) = .ok (uiVals (u.onKeyPathChange W.H W.R) slider) := by
  have hlen : (deriveBIP32Result W.H W.R u.rootKey u.currentPath).1.length < 2 ^ 62 + 1 := by
    have h1 := derive_length W.H W.R u.rootKey u.currentPath
    have h2 : u.currentPath.length < 2 ^ 62 := by
      unfold Ui.currentPath
      split
      · exact lt_of_le_of_lt (List.length_filter_le _ _) hp
      · decide
    omega
  rw [run_succ]
  unfold uiVals Ui.onKeyPathChange
  unfold Ui.currentPath at hlen ⊢
  by_cases hv : pathIsValid u.derivationPath = true
  · rw [if_pos hv] at hlen ⊢
    rcases hd : deriveBIP32Result W.H W.R u.rootKey (pathString u.derivationPath) with ⟨ks, e⟩
    rw [hd] at hlen
    simp only at hlen
    have hw : wrapInt ((ks.length : Int) - 1) = (ks.length : Int) - 1 := by unfold wrapInt; rw [Int.bmod_eq_of_le] <;> omega
    obtain ⟨w, h⟩ := tabs_iter W L (run W L (n + 5)) (.str u.mnemonicField) (.str u.passphraseField) (.str u.seedField) (.str u.rootKeyField)
      (.str u.derivationField) (.str u.radio) (.str u.mnemonic) (.str u.passphrase) (.str u.seed) (.str u.rootKeyStr) (.str u.derivationStr)
      (.str u.derivationPath) (.list [.bytes u.rootKey.bytes]) (.int u.selected) (sliderVal slider) (.str (pathString u.derivationPath))
      (.bool true) (.str (pathString u.derivationPath)) (.list (ks.map keyPathVal)) (.err e) ks 0 [] .nil
    simp only [List.map_nil, List.nil_append] at h
    by_cases hs : (ks.length : Int) ≤ u.selected <;>
      simp -implicitDefEqProofs [src, main_onKeyPathChange, path_IsValid, path_String, hv, util_DeriveBIP32Result, hL, hd, both, h, hs, hw, -not_le, -Int.not_le]
  · rw [if_neg hv] at hlen ⊢
    rw [Bool.not_eq_true] at hv
    rcases hd : deriveBIP32Result W.H W.R u.rootKey (str "m") with ⟨ks, e⟩
    rw [hd] at hlen
    simp only at hlen
    have hw : wrapInt ((ks.length : Int) - 1) = (ks.length : Int) - 1 := by unfold wrapInt; rw [Int.bmod_eq_of_le] <;> omega
    obtain ⟨w, h⟩ := tabs_iter W L (run W L (n + 5)) (.str u.mnemonicField) (.str u.passphraseField) (.str u.seedField) (.str u.rootKeyField)
      (.str u.derivationField) (.str u.radio) (.str u.mnemonic) (.str u.passphrase) (.str u.seed) (.str u.rootKeyStr) (.str u.derivationStr)
      (.str u.derivationPath) (.list [.bytes u.rootKey.bytes]) (.int u.selected) (sliderVal slider) (.str (str "m"))
      (.bool false) .nil (.list (ks.map keyPathVal)) (.err e) ks 0 [] .nil
    simp only [List.map_nil, List.nil_append] at h
    by_cases hs : (ks.length : Int) ≤ u.selected <;>
      simp -implicitDefEqProofs [src, main_onKeyPathChange, path_IsValid, path_String, hv, util_DeriveBIP32Result, hL, hd, both, h, hs, hw, -not_le, -Int.not_le]

/-- The results of a handler that may panic. -/
def uiOut (slider : Ui.Slider) : Outcome Ui → Res (List Val) := outcome (fun u => uiVals u slider)

theorem window_onSeedChange (hL : 32 < L) (n : Nat) (u : Ui) (slider : Ui.Slider) (hp : u.derivationPath.length < 2 ^ 62) :
    run W L (n + 7) .main_onSeedChange (uiVals u slider) = uiOut slider (u.onSeedChange W.H W.R) := by
  rw [run_succ]
  unfold Ui.onSeedChange Ui.rootFromSeed uiOut
  rcases hr : rootKeyFromSeed W.H u.seedField with ⟨k, e⟩ | _
  · have hk := window_onKeyPathChange W L hL n { u with seed := u.seedField, mnemonic := [], mnemonicField := [], rootKey := k } slider hp
    simp only [uiVals] at hk ⊢
    simp -implicitDefEqProofs [src, main_onSeedChange, util_RootKeyFromSeed_eq, hr, outcome, both, util_SetRootKey, hk, util_RootKey, key_String, Outcome.bind, uiVals, str_empty]
  · simp -implicitDefEqProofs [src, main_onSeedChange, util_RootKeyFromSeed_eq, hr, outcome, both, Outcome.bind, uiVals, str_empty]

theorem window_onMnemonicChange (hL : 32 < L) (n : Nat) (u : Ui) (slider : Ui.Slider) (hp : u.derivationPath.length < 2 ^ 62) :
    run W L (n + 7) .main_onMnemonicChange (uiVals u slider) = uiOut slider (u.onMnemonicChange W.H W.S W.R) := by
  rw [run_succ]
  unfold Ui.onMnemonicChange Ui.rootFromSeed uiOut
  rcases hs : deriveSeedFromMnemonic W.H W.S u.mnemonicField u.passphrase with ⟨s, e⟩ | _
  · rcases hr : rootKeyFromSeed W.H s with ⟨k, e'⟩ | _
    · have hk := window_onKeyPathChange W L hL n { u with mnemonic := u.mnemonicField, seed := s, seedField := s, rootKey := k } slider hp
      simp only [uiVals] at hk ⊢
      simp -implicitDefEqProofs [src, main_onMnemonicChange, util_DeriveSeedFromMnemonic_eq, hs, util_RootKeyFromSeed_eq, hr, outcome, both, util_SetRootKey, hk,
        util_RootKey, key_String, Outcome.bind, uiVals]
    · simp -implicitDefEqProofs [src, main_onMnemonicChange, util_DeriveSeedFromMnemonic_eq, hs, util_RootKeyFromSeed_eq, hr, outcome, both, Outcome.bind, uiVals]
  · simp -implicitDefEqProofs [src, main_onMnemonicChange, util_DeriveSeedFromMnemonic_eq, hs, outcome, both, Outcome.bind, uiVals]

theorem window_onMnemonicPassphraseChange (hL : 32 < L) (n : Nat) (u : Ui) (slider : Ui.Slider) (hp : u.derivationPath.length < 2 ^ 62) :
    run W L (n + 7) .main_onMnemonicPassphraseChange (uiVals u slider) = uiOut slider (u.onMnemonicPassphraseChange W.H W.S W.R) := by
  rw [run_succ]
  unfold Ui.onMnemonicPassphraseChange Ui.rootFromSeed uiOut
  rcases hs : deriveSeedFromMnemonic W.H W.S u.mnemonic u.passphraseField with ⟨s, e⟩ | _
  · rcases hr : rootKeyFromSeed W.H s with ⟨k, e'⟩ | _
    · have hk := window_onKeyPathChange W L hL n { u with passphrase := u.passphraseField, seed := s, seedField := s, rootKey := k } slider hp
      simp only [uiVals] at hk ⊢
      simp -implicitDefEqProofs [src, main_onMnemonicPassphraseChange, util_DeriveSeedFromMnemonic_eq, hs, util_RootKeyFromSeed_eq, hr, outcome, both, util_SetRootKey,
        hk, util_RootKey, key_String, Outcome.bind, uiVals]
    · simp -implicitDefEqProofs [src, main_onMnemonicPassphraseChange, util_DeriveSeedFromMnemonic_eq, hs, util_RootKeyFromSeed_eq, hr, outcome, both, Outcome.bind, uiVals]
  · simp -implicitDefEqProofs [src, main_onMnemonicPassphraseChange, util_DeriveSeedFromMnemonic_eq, hs, outcome, both, Outcome.bind, uiVals]

theorem window_onAutoCreateMnemonicClicked (hL : 32 < L) (hread : ∀ n, (W.read n).length = n) (n : Nat) (u : Ui) (slider : Ui.Slider)
    (hp : u.derivationPath.length < 2 ^ 62) :
    run W L (n + 7) .main_onAutoCreateMnemonicClicked (uiVals u slider) = uiOut slider (u.onAutoCreateMnemonicClicked W.H W.S W.R W.read) := by
  rw [run_succ]
  unfold Ui.onAutoCreateMnemonicClicked Ui.rootFromSeed uiOut
  have hc : convTo .u8 (atoi u.radio).1 = .u8 (UInt8.ofNat ((atoi u.radio).1 % 256).toNat) := rfl
  rcases hm : generateMnemonic W.H W.S W.read (UInt8.ofNat ((atoi u.radio).1 % 256).toNat) with ⟨m, e''⟩ | _
  · rcases hs : deriveSeedFromMnemonic W.H W.S m u.passphrase with ⟨s, e⟩ | _
    · rcases hr : rootKeyFromSeed W.H s with ⟨k, e'⟩ | _
      · have hk := window_onKeyPathChange W L hL n { u with mnemonic := m, mnemonicField := m, seed := s, seedField := s, rootKey := k } slider hp
        simp only [uiVals] at hk ⊢
        simp -implicitDefEqProofs [src, main_onAutoCreateMnemonicClicked, hc, util_GenerateMnemonic_eq, hL, hread, hm, util_DeriveSeedFromMnemonic_eq, hs,
          util_RootKeyFromSeed_eq, hr, outcome, both, util_SetRootKey, hk, util_RootKey, key_String, Outcome.bind, uiVals]
      · simp -implicitDefEqProofs [src, main_onAutoCreateMnemonicClicked, hc, util_GenerateMnemonic_eq, hL, hread, hm, util_DeriveSeedFromMnemonic_eq, hs,
          util_RootKeyFromSeed_eq, hr, outcome, both, Outcome.bind, uiVals]
    · simp -implicitDefEqProofs [src, main_onAutoCreateMnemonicClicked, hc, util_GenerateMnemonic_eq, hL, hread, hm, util_DeriveSeedFromMnemonic_eq, hs,
        outcome, both, Outcome.bind, uiVals]
  · simp -implicitDefEqProofs [src, main_onAutoCreateMnemonicClicked, hc, util_GenerateMnemonic_eq, hL, hread, hm, outcome, both, Outcome.bind, uiVals]

theorem window_onRootKeyStrChange (hL : 32 < L) (n : Nat) (u : Ui) (slider : Ui.Slider) (hp : u.derivationPath.length < 2 ^ 62) :
    run W L (n + 7) .main_onRootKeyStrChange (uiVals u slider) = .ok (uiVals (u.onRootKeyStrChange W.H W.R) slider) := by
  rw [run_succ]
  unfold Ui.onRootKeyStrChange
  have hz : List.replicate 78 (0 : UInt8) = Key.zero.bytes := rfl
  rcases hb : b58Deserialize W.H u.rootKeyField with ⟨k, _ | e⟩
  · have hk := window_onKeyPathChange W L hL n
      { u with rootKeyStr := u.rootKeyField, mnemonic := [], mnemonicField := [], seed := [], seedField := [], rootKey := k } slider hp
    simp only [uiVals] at hk ⊢
    simp -implicitDefEqProofs [src, main_onRootKeyStrChange, key_B58Deserialize, hb, outcome, both, util_SetRootKey, hk, util_RootKey, key_String, str_empty,
      -List.reduceReplicate]
  · simp -implicitDefEqProofs [src, main_onRootKeyStrChange, key_B58Deserialize, hb, hz, outcome, both, util_SetRootKey, uiVals, str_empty, -List.reduceReplicate]

theorem window_OnDerivationPathChange (hL : 32 < L) (n : Nat) (u : Ui) (slider : Ui.Slider) (hp : u.derivationField.length < 2 ^ 62) :
    run W L (n + 7) .main_OnDerivationPathChange (uiVals u slider) = .ok (uiVals (u.onDerivationPathChange W.H W.R) slider) := by
  rw [run_succ]
  unfold Ui.onDerivationPathChange
  have hk := window_onKeyPathChange W L hL n
    { u with derivationStr := u.derivationField, derivationPath := pathFormatted u.derivationField } slider
    (lt_of_le_of_lt (List.length_filter_le _ _) hp)
  simp only [uiVals] at hk ⊢
  simp -implicitDefEqProofs [src, main_OnDerivationPathChange, path_Formatted, hk, util_RootKey, key_String]

/-! ### A frame -/

/-- A call of a handler: all variables are given and taken back. -/
def handler (f : Fn) : Stmt :=
  .call [some 0, some 1, some 2, some 3, some 4, some 5, some 6, some 7, some 8, some 9, some 10, some 11, some 12, some 13, some 14, some 15] f
    ⟪(.var 0), (.var 1), (.var 2), (.var 3), (.var 4), (.var 5), (.var 6), (.var 7), (.var 8), (.var 9), (.var 10), (.var 11), (.var 12), (.var 13), (.var 14), (.var 15)⟫

theorem main_update_eq : main_update =
    (.call [some 17] .bip32_Path_Formatted ⟪(.var 10)⟫ ;;
    .set 11 (.var 17) ;;
    .ite (.var 16) (handler .main_onAutoCreateMnemonicClicked) .skip ;;
    .ite (.bin .ne (.var 0) (.var 6)) (handler .main_onMnemonicChange) .skip ;;
    .ite (.bin .ne (.var 1) (.var 7)) (handler .main_onMnemonicPassphraseChange) .skip ;;
    .ite (.bin .ne (.var 2) (.var 8)) (handler .main_onSeedChange) .skip ;;
    .ite (.bin .ne (.var 9) (.var 3)) (handler .main_onRootKeyStrChange) .skip ;;
    .call [some 18] .bip32_Path_String ⟪(.var 4)⟫ ;;
    .call [some 19] .bip32_Path_String ⟪(.var 10)⟫ ;;
    .ite (.bin .ne (.var 18) (.var 19)) (handler .main_OnDerivationPathChange) .skip ;;
    .ret ⟪(.var 0), (.var 1), (.var 2), (.var 3), (.var 4), (.var 5), (.var 6), (.var 7), (.var 8), (.var 9), (.var 10), (.var 11), (.var 12), (.var 13), (.var 14), (.var 15)⟫) := rfl

/-- The flow after a step. -/
def stepOut (slider : Ui.Slider) (rest : List Val) : Outcome Ui → Res Flow
  | .ok u => .ok (.next (uiVals u slider ++ rest))
  | .panic => .panic

theorem step (call : Fn → List Val → Res (List Val)) (c : Expr) (b : Bool) (f : Fn) (u : Ui) (slider : Ui.Slider) (v16 v17 v18 v19 : Val) (o : Outcome Ui)
    (hc : eval W c (uiVals u slider ++ [v16, v17, v18, v19]) = .ok (.bool b)) (hf : b = true → call f (uiVals u slider) = uiOut slider o)
    (hf' : b = false → o = .ok u) :
    exec W L call (.ite c (handler f) .skip) (uiVals u slider ++ [v16, v17, v18, v19]) = stepOut slider [v16, v17, v18, v19] o := by
  cases b with
  | false => simp -implicitDefEqProofs [src, hc, hf', stepOut]
  | true =>
    have h := hf rfl
    simp only [uiVals, List.cons_append, List.nil_append] at hc
    rcases o with u' | _
    · simp only [uiVals, uiOut, outcome] at h
      simp -implicitDefEqProofs [src, hc, handler, h, stepOut, uiVals]
    · simp only [uiVals, uiOut, outcome] at h
      simp -implicitDefEqProofs [src, hc, handler, h, stepOut, uiVals]

/-- The rest of a frame, after a step. -/
def after (rest : Ui → Res Flow) : Outcome Ui → Res Flow
  | .ok u => rest u
  | .panic => .panic

theorem seq_step (call : Fn → List Val → Res (List Val)) (c : Expr) (b : Bool) (f : Fn) (u : Ui) (slider : Ui.Slider) (v16 v17 v18 v19 : Val) (o : Outcome Ui)
    (s : Stmt) (hc : eval W c (uiVals u slider ++ [v16, v17, v18, v19]) = .ok (.bool b)) (hf : b = true → call f (uiVals u slider) = uiOut slider o)
    (hf' : b = false → o = .ok u) :
    exec W L call (.ite c (handler f) .skip ;; s) (uiVals u slider ++ [v16, v17, v18, v19])
      = after (fun u => exec W L call s (uiVals u slider ++ [v16, v17, v18, v19])) o := by
  have h := step W L call c b f u slider v16 v17 v18 v19 o hc hf hf'
  show (exec W L call (.ite c (handler f) .skip) _).bind (fun f => f.andThen (exec W L call s)) = _
  rw [h]
  cases o <;> rfl

/-- The variables of the path are as before. -/
def SamePath (u u' : Ui) : Prop :=
  u'.derivationPath = u.derivationPath ∧ u'.derivationStr = u.derivationStr ∧ u'.derivationField = u.derivationField

theorem same_rootFromSeed (u u' v : Ui) (h : u.rootFromSeed W.H W.R = .ok u') (hv : SamePath v u) : SamePath v u' := by
  unfold Ui.rootFromSeed at h
  rcases hr : rootKeyFromSeed W.H u.seed with ⟨k, e⟩ | _
  · rw [hr] at h
    simp only [Outcome.bind, Outcome.ok.injEq] at h
    subst h
    exact hv
  · rw [hr] at h
    cases h

theorem same_onMnemonicChange (u u' v : Ui) (h : u.onMnemonicChange W.H W.S W.R = .ok u') (hv : SamePath v u) : SamePath v u' := by
  unfold Ui.onMnemonicChange at h
  rcases hr : deriveSeedFromMnemonic W.H W.S u.mnemonicField u.passphrase with ⟨k, e⟩ | _
  · simp only [hr] at h
    exact same_rootFromSeed W _ _ v h hv
  · simp only [hr] at h
    cases h

theorem same_onMnemonicPassphraseChange (u u' v : Ui) (h : u.onMnemonicPassphraseChange W.H W.S W.R = .ok u') (hv : SamePath v u) : SamePath v u' := by
  unfold Ui.onMnemonicPassphraseChange at h
  rcases hr : deriveSeedFromMnemonic W.H W.S u.mnemonic u.passphraseField with ⟨k, e⟩ | _
  · simp only [hr] at h
    exact same_rootFromSeed W _ _ v h hv
  · simp only [hr] at h
    cases h

theorem same_onAutoCreateMnemonicClicked (u u' v : Ui) (h : u.onAutoCreateMnemonicClicked W.H W.S W.R W.read = .ok u') (hv : SamePath v u) :
    SamePath v u' := by
  unfold Ui.onAutoCreateMnemonicClicked at h
  rcases hg : generateMnemonic W.H W.S W.read (UInt8.ofNat ((atoi u.radio).1 % 256).toNat) with ⟨m, e⟩ | _
  · simp only [hg, Outcome.bind] at h
    rcases hr : deriveSeedFromMnemonic W.H W.S m u.passphrase with ⟨k, e⟩ | _
    · simp only [hr] at h
      exact same_rootFromSeed W _ _ v h hv
    · simp only [hr] at h
      cases h
  · simp only [hg] at h
    cases h

theorem same_onRootKeyStrChange (u v : Ui) (hv : SamePath v u) : SamePath v (u.onRootKeyStrChange W.H W.R) := by
  unfold Ui.onRootKeyStrChange
  rcases hb : b58Deserialize W.H u.rootKeyField with ⟨k, _ | e⟩ <;> simp only [hb] <;> exact hv

theorem window_update (hL : 32 < L) (n : Nat) (u : Ui) (slider : Ui.Slider) (clicked : Bool)
    (hread : clicked = true → ∀ n, (W.read n).length = n)
    (hs : u.derivationStr.length < 2 ^ 62) (hf : u.derivationField.length < 2 ^ 62) :
    run W L (n + 8) .main_update (uiVals u slider ++ [.bool clicked])
      = uiOut slider (u.update W.H W.S W.R (if clicked then some W.read else none)) := by
  rw [run_succ]
  unfold Ui.update
  have hp : (pathFormatted u.derivationStr).length < 2 ^ 62 := lt_of_le_of_lt (List.length_filter_le _ _) hs
  generalize hu : ({ u with derivationPath := pathFormatted u.derivationStr } : Ui) = u0
  have h0 : SamePath u0 u0 := ⟨rfl, rfl, rfl⟩
  have hp0 : u0.derivationPath.length < 2 ^ 62 := by rw [← hu]; exact hp
  have hf0 : u0.derivationField.length < 2 ^ 62 := by rw [← hu]; exact hf
  have e0 : ∀ s, exec W L (run W L (n + 7)) (.call [some 17] .bip32_Path_Formatted ⟪(.var 10)⟫ ;; .set 11 (.var 17) ;; s)
      (uiVals u slider ++ [.bool clicked, .nil, .nil, .nil])
      = exec W L (run W L (n + 7)) s (uiVals u0 slider ++ [.bool clicked, .str (pathFormatted u.derivationStr), .nil, .nil]) := by
    intro s
    rw [← hu]
    simp -implicitDefEqProofs [src, uiVals, path_Formatted]
  have bound : ∀ v, SamePath u0 v → v.derivationPath.length < 2 ^ 62 := fun v hv => by rw [hv.1]; exact hp0
  have main : ∀ (vs : List Val), vs = uiVals u slider ++ [.bool clicked, .nil, .nil, .nil] →
      (exec W L (run W L (n + 7)) main_update vs).bind Flow.result = uiOut slider
        ((if clicked then u0.onAutoCreateMnemonicClicked W.H W.S W.R W.read else .ok u0).bind fun u =>
          (if u.mnemonicField ≠ u.mnemonic then u.onMnemonicChange W.H W.S W.R else .ok u).bind fun u =>
          (if u.passphraseField ≠ u.passphrase then u.onMnemonicPassphraseChange W.H W.S W.R else .ok u).bind fun u =>
          (if u.seedField ≠ u.seed then u.onSeedChange W.H W.R else .ok u).bind fun u =>
          let u := if u.rootKeyStr ≠ u.rootKeyField then u.onRootKeyStrChange W.H W.R else u
          let u := if pathString u.derivationField ≠ pathString u.derivationStr then u.onDerivationPathChange W.H W.R else u
          .ok u) := by
    intro vs hvs
    subst hvs
    rw [main_update_eq, e0]
    rw [seq_step W L _ _ clicked _ u0 slider _ _ _ _ (if clicked then u0.onAutoCreateMnemonicClicked W.H W.S W.R W.read else .ok u0) _ (by rfl)
      (fun h => by rw [if_pos h]; exact window_onAutoCreateMnemonicClicked W L hL (hread h) n u0 slider (bound _ h0)) (fun h => by rw [h]; rfl)]
    rcases h1 : (if clicked then u0.onAutoCreateMnemonicClicked W.H W.S W.R W.read else .ok u0) with u1 | _
    swap
    · rfl
    have p1 : SamePath u0 u1 := by
      cases clicked with
      | true => exact same_onAutoCreateMnemonicClicked W _ _ _ h1 h0
      | false => cases h1; exact h0
    simp only [after, Outcome.bind]
    rw [seq_step W L _ _ (decide (u1.mnemonicField ≠ u1.mnemonic)) _ u1 slider _ _ _ _ (if u1.mnemonicField ≠ u1.mnemonic then u1.onMnemonicChange W.H W.S W.R else .ok u1) _
      (by simp -implicitDefEqProofs [src, uiVals]) (fun h => by rw [if_pos (of_decide_eq_true h)]; exact window_onMnemonicChange W L hL n u1 slider (bound _ p1))
      (fun h => by rw [if_neg (of_decide_eq_false h)])]
    rcases h2 : (if u1.mnemonicField ≠ u1.mnemonic then u1.onMnemonicChange W.H W.S W.R else .ok u1) with u2 | _
    swap
    · rfl
    have p2 : SamePath u0 u2 := by
      split at h2
      · exact same_onMnemonicChange W _ _ _ h2 p1
      · cases h2; exact p1
    simp only [after]
    rw [seq_step W L _ _ (decide (u2.passphraseField ≠ u2.passphrase)) _ u2 slider _ _ _ _
      (if u2.passphraseField ≠ u2.passphrase then u2.onMnemonicPassphraseChange W.H W.S W.R else .ok u2) _
      (by simp -implicitDefEqProofs [src, uiVals])
      (fun h => by rw [if_pos (of_decide_eq_true h)]; exact window_onMnemonicPassphraseChange W L hL n u2 slider (bound _ p2))
      (fun h => by rw [if_neg (of_decide_eq_false h)])]
    rcases h3 : (if u2.passphraseField ≠ u2.passphrase then u2.onMnemonicPassphraseChange W.H W.S W.R else .ok u2) with u3 | _
    swap
    · rfl
    have p3 : SamePath u0 u3 := by
      split at h3
      · exact same_onMnemonicPassphraseChange W _ _ _ h3 p2
      · cases h3; exact p2
    simp only [after]
    rw [seq_step W L _ _ (decide (u3.seedField ≠ u3.seed)) _ u3 slider _ _ _ _ (if u3.seedField ≠ u3.seed then u3.onSeedChange W.H W.R else .ok u3) _
      (by simp -implicitDefEqProofs [src, uiVals])
      (fun h => by rw [if_pos (of_decide_eq_true h)]; exact window_onSeedChange W L hL n u3 slider (bound _ p3))
      (fun h => by rw [if_neg (of_decide_eq_false h)])]
    rcases h4 : (if u3.seedField ≠ u3.seed then u3.onSeedChange W.H W.R else .ok u3) with u4 | _
    swap
    · rfl
    have p4 : SamePath u0 u4 := by
      split at h4
      · exact same_rootFromSeed W _ _ _ h4 p3
      · cases h4; exact p3
    simp only [after]
    rw [seq_step W L _ _ (decide (u4.rootKeyStr ≠ u4.rootKeyField)) _ u4 slider _ _ _ _
      (.ok (if u4.rootKeyStr ≠ u4.rootKeyField then u4.onRootKeyStrChange W.H W.R else u4)) _
      (by simp -implicitDefEqProofs [src, uiVals])
      (fun h => by rw [if_pos (of_decide_eq_true h)]; exact window_onRootKeyStrChange W L hL n u4 slider (bound _ p4))
      (fun h => by rw [if_neg (of_decide_eq_false h)])]
    have p5 : SamePath u0 (if u4.rootKeyStr ≠ u4.rootKeyField then u4.onRootKeyStrChange W.H W.R else u4) := by
      split
      · exact same_onRootKeyStrChange W _ _ p4
      · exact p4
    generalize (if u4.rootKeyStr ≠ u4.rootKeyField then u4.onRootKeyStrChange W.H W.R else u4) = u5 at p5 ⊢
    simp only [after]
    have e5 : ∀ s v, exec W L (run W L (n + 7)) (.call [some 18] .bip32_Path_String ⟪(.var 4)⟫ ;; .call [some 19] .bip32_Path_String ⟪(.var 10)⟫ ;; s)
        (uiVals u5 slider ++ [.bool clicked, v, .nil, .nil])
        = exec W L (run W L (n + 7)) s (uiVals u5 slider ++ [.bool clicked, v, .str (pathString u5.derivationField), .str (pathString u5.derivationStr)]) := by
      intro s v
      simp -implicitDefEqProofs [src, uiVals, path_String]
    rw [e5, seq_step W L _ _ (decide (pathString u5.derivationField ≠ pathString u5.derivationStr)) _ u5 slider _ _ _ _
      (.ok (if pathString u5.derivationField ≠ pathString u5.derivationStr then u5.onDerivationPathChange W.H W.R else u5)) _
      (by simp -implicitDefEqProofs [src, uiVals])
      (fun h => by rw [if_pos (of_decide_eq_true h)]; exact window_OnDerivationPathChange W L hL n u5 slider (by rw [p5.2.2]; exact hf0))
      (fun h => by rw [if_neg (of_decide_eq_false h)])]
    rfl
  have hm := main _ rfl
  cases clicked <;> exact hm

/-! ### The layout -/

theorem window_start (n : Nat) (u : Ui) (slider : Ui.Slider) :
    run W L (n + 1) .main_start (uiVals u slider) = .ok (uiVals { u with radio := str "12" } slider) := by
  rw [run_succ]
  simp -implicitDefEqProofs [src, main_start, uiVals]

theorem window_left (n : Nat) (u : Ui) (slider : Ui.Slider) (clicked : Bool) (hs : u.selected < 2 ^ 62) :
    run W L (n + 2) .main_left (uiVals u slider ++ [.bool clicked])
      = .ok (if clicked then uiVals u.clickLeft (if u.selected > 0 then slider.pushRight else slider) else uiVals u slider) := by
  rw [run_succ]
  cases clicked with
  | false => simp -implicitDefEqProofs [src, main_left, uiVals]
  | true =>
    by_cases h : u.selected > 0
    · have hw : wrapInt (u.selected - 1) = u.selected - 1 := wrapInt_of (by omega) (by omega)
      simp -implicitDefEqProofs [src, main_left, uiVals, h, Ui.clickLeft, slider_PushRight, hw]
    · simp -implicitDefEqProofs [src, main_left, uiVals, h, Ui.clickLeft]

theorem window_right (n : Nat) (u : Ui) (slider : Ui.Slider) (clicked : Bool) (hs : -2 ^ 62 ≤ u.selected) (ht : u.tabs.length < 2 ^ 62) :
    run W L (n + 2) .main_right (uiVals u slider ++ [.bool clicked])
      = .ok (if clicked then uiVals u.clickRight (if u.selected < (u.tabs.length : Int) - 1 then slider.pushLeft else slider) else uiVals u slider) := by
  rw [run_succ]
  cases clicked with
  | false => simp -implicitDefEqProofs [src, main_right, uiVals]
  | true =>
    have hl : wrapInt ((u.tabs.length : Int) - 1) = (u.tabs.length : Int) - 1 := wrapInt_of (by omega) (by omega)
    by_cases h : u.selected < (u.tabs.length : Int) - 1
    · have hw : wrapInt (u.selected + 1) = u.selected + 1 := wrapInt_of (by omega) (by omega)
      simp -implicitDefEqProofs [src, main_right, uiVals, hl, h, Ui.clickRight, slider_PushLeft, hw]
    · simp -implicitDefEqProofs [src, main_right, uiVals, hl, h, Ui.clickRight]

theorem index_tabs (u : Ui) (i : Nat) :
    indexSem (.list (u.tabs.map tabVal)) i = match u.tabs[i]? with
      | some k => .ok (tabVal k)
      | none => .panic := by
  rw [index_map]
  cases u.tabs[i]? <;> rfl

/-- A tab: the index is looked at first. -/
theorem window_tab (n : Nat) (u : Ui) (slider : Ui.Slider) (i : Nat) (clicked : Bool) :
    run W L (n + 2) .main_tab (uiVals u slider ++ [.int i, .bool clicked])
      = if i < u.tabs.length then
          .ok (if clicked then uiVals (u.clickTab i) (if u.selected < i then slider.pushLeft else if u.selected > i then slider.pushRight else slider) else uiVals u slider)
        else .panic := by
  rw [run_succ]
  have hx := index_tabs u i
  by_cases hi : i < u.tabs.length
  · rw [List.getElem?_eq_getElem hi] at hx
    simp only [hi, if_true]
    cases clicked with
    | false => simp -implicitDefEqProofs [src, main_tab, uiVals, hx]
    | true =>
      by_cases h : u.selected < i
      · simp -implicitDefEqProofs [src, main_tab, uiVals, hx, h, hi, Ui.clickTab, slider_PushLeft]
      · by_cases h' : u.selected > i
        · simp -implicitDefEqProofs [src, main_tab, uiVals, hx, h, h', hi, Ui.clickTab, slider_PushRight]
        · simp -implicitDefEqProofs [src, main_tab, uiVals, hx, h, h', hi, Ui.clickTab]
  · rw [List.getElem?_eq_none (by omega)] at hx
    simp only [hi, if_false]
    simp -implicitDefEqProofs [src, main_tab, uiVals, hx]

theorem window_tabText (n : Nat) (u : Ui) (slider : Ui.Slider) (i : Nat) :
    run W L (n + 2) .main_tabText (uiVals u slider ++ [.int i]) = match u.tabs[i]? with
      | some k => .ok (uiVals u slider ++ [.str (pathString k.path)])
      | none => .panic := by
  rw [run_succ]
  have hx := index_tabs u i
  rcases hk : u.tabs[i]? with _ | k
  · rw [hk] at hx
    simp -implicitDefEqProofs [src, main_tabText, uiVals, hx]
  · rw [hk] at hx
    simp -implicitDefEqProofs [src, main_tabText, uiVals, hx, tabVal, keyPathVal, path_String]

/-- The texts below the tabs. -/
def shownText (o : Outcome (Option KeyPath)) : Res (List Bytes) :=
  match o with
  | .panic => .panic
  | .ok none => .ok []
  | .ok (some k) => .ok (k.labels W.H W.R)

theorem window_labels (hL : 32 < L) (n : Nat) (u : Ui) (slider : Ui.Slider) :
    run W L (n + 6) .main_labels (uiVals u slider)
      = (shownText W u.shown).bind fun l => .ok (uiVals u slider ++ [.list (l.map .str)]) := by
  rw [run_succ]
  unfold Ui.shown
  by_cases h1 : u.selected < u.tabs.length
  · by_cases h3 : u.selected ≥ 0
    · obtain ⟨i, hi⟩ := Int.eq_ofNat_of_zero_le h3
      have hx := index_tabs u i
      have hl : i < u.tabs.length := by omega
      have hne : u.tabs.length ≠ 0 := by omega
      have hn : ¬ ((i : Int) < 0) := by omega
      have ha := util_AddrHex W L hL n u.tabs[i]
      simp only [keyPathVal] at ha
      rw [List.getElem?_eq_getElem hl] at hx
      simp -implicitDefEqProofs [src, main_labels, uiVals, hi, hl, hne, hn, hx, tabVal, keyPathVal, path_String, key_String, key_PublicKeyExtended, key_PublicKeyHex, hL,
        key_PrivateKeyHex, ha, shownText, KeyPath.labels]
    · simp -implicitDefEqProofs [src, main_labels, uiVals, h1, h3, shownText]
  · simp -implicitDefEqProofs [src, main_labels, uiVals, h1, shownText]

theorem window_radio (n i : Nat) (hi : i < 5) :
    run W L (n + 1) .main_radio [.int i]
      = .ok [.str ([str "12", str "15", str "18", str "21", str "24"][i]!),
          .str ([str "12 words", str "15 words", str "18 words", str "21 words", str "24 words"][i]!)] := by
  rw [run_succ]
  interval_cases i <;> simp -implicitDefEqProofs [src, main_radio]

end Bips.Src
