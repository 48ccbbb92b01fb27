import Verif.Model.Ui
import Verif.Props.Util
import Verif.Props.Derive

/-!
# The example window: invariants
-/

namespace Bips
open Spec

theorem Outcome.bind_ok {α β : Type} {x : Outcome α} {f : α → Outcome β} {b : β} :
    x.bind f = .ok b ↔ ∃ a, x = .ok a ∧ f a = .ok b := by
  cases x <;> simp [Outcome.bind]

theorem Outcome.bind_panic {α β : Type} {x : Outcome α} {f : α → Outcome β} :
    x.bind f = .panic ↔ x = .panic ∨ ∃ a, x = .ok a ∧ f a = .panic := by
  cases x <;> simp [Outcome.bind]

variable (H : Hashes) (S : WordState) (R : Registry)

/-- The state does not depend on what is in the text fields. -/
structure Ui.Inv (u : Ui) : Prop where
  /-- the selected index exists, is -1, or is the initial 0 -/
  range : -1 ≤ u.selected ∧ (u.selected < u.tabs.length ∨ (u.selected = 0 ∧ u.tabs = []))
  /-- the path is the formatted text -/
  path : u.derivationPath = pathFormatted u.derivationStr
  /-- the tabs are derived from the root key, or the root key text was refused -/
  tabs : (u.tabs = (deriveBIP32Result H R u.rootKey u.currentPath).1 ∧ u.rootKeyStr = u.rootKey.string H) ∨
    (u.rootKey = Key.zero ∧ (b58Deserialize H u.rootKeyStr).2 ≠ none ∧ u.mnemonic = [] ∧ u.seed = [])
  /-- a mnemonic present determines the seed -/
  seed : u.mnemonic ≠ [] → ∃ e, deriveSeedFromMnemonic H S u.mnemonic u.passphrase = .ok (u.seed, e)
  /-- a seed present determines the root key -/
  root : u.mnemonic ≠ [] ∨ u.seed ≠ [] → ∃ e, rootKeyFromSeed H u.seed = .ok (u.rootKey, e)

/-- The fields show the remembered values. -/
structure Ui.Synced (u : Ui) : Prop where
  mnemonic : u.mnemonicField = u.mnemonic
  passphrase : u.passphraseField = u.passphrase
  seed : u.seedField = u.seed
  rootKey : u.rootKeyField = u.rootKeyStr
  derivation : pathString u.derivationField = pathString u.derivationStr

theorem deriveBIP32Result_zero (p : Bytes) : (deriveBIP32Result H R Key.zero p).1 = [] := by
  rw [deriveBIP32Result, if_pos]
  have : Key.zero.isValid H = false := by
    rw [← Bool.not_eq_true, C18_isValid_iff]
    intro h
    exact h rfl
  rw [this]
  rfl

theorem string_zero : Key.zero.string H = [] := by
  unfold Key.string Key.b58Serialize Key.serialize
  rw [if_pos (by decide +kernel)]

variable {H S R}

theorem onKeyPathChange_range (u : Ui) (h : -1 ≤ u.selected) :
    -1 ≤ (u.onKeyPathChange H R).selected ∧ (u.onKeyPathChange H R).selected < (u.onKeyPathChange H R).tabs.length := by
  unfold Ui.onKeyPathChange
  dsimp only
  split <;> constructor <;> omega

theorem rootFromSeed_inv {u u' : Ui} (h : u.rootFromSeed H R = .ok u') (hr : -1 ≤ u.selected)
    (hp : u.derivationPath = pathFormatted u.derivationStr)
    (hs : u.mnemonic ≠ [] → ∃ e, deriveSeedFromMnemonic H S u.mnemonic u.passphrase = .ok (u.seed, e)) :
    u'.Inv H S R := by
  obtain ⟨⟨k, e⟩, hk, hu⟩ := Outcome.bind_ok.1 h
  have hu := Outcome.ok.inj hu
  subst hu
  have := onKeyPathChange_range (H := H) (R := R) { u with rootKey := k } hr
  exact ⟨⟨this.1, .inl this.2⟩, hp, .inl ⟨rfl, rfl⟩, hs, fun _ => ⟨e, hk⟩⟩

/-- What `rootFromSeed` leaves alone, and the root key text. -/
theorem rootFromSeed_fields {u u' : Ui} (h : u.rootFromSeed H R = .ok u') :
    u'.mnemonicField = u.mnemonicField ∧ u'.mnemonic = u.mnemonic ∧ u'.passphraseField = u.passphraseField ∧
    u'.passphrase = u.passphrase ∧ u'.seedField = u.seedField ∧ u'.seed = u.seed ∧
    u'.derivationField = u.derivationField ∧ u'.derivationStr = u.derivationStr ∧
    u'.rootKeyField = u'.rootKeyStr := by
  obtain ⟨⟨k, e⟩, hk, hu⟩ := Outcome.bind_ok.1 h
  have hu := Outcome.ok.inj hu
  subst hu
  exact ⟨rfl, rfl, rfl, rfl, rfl, rfl, rfl, rfl, rfl⟩

theorem onAutoCreate_inv {u u' : Ui} {read : Nat → Bytes} (h : u.onAutoCreateMnemonicClicked H S R read = .ok u')
    (hi : u.Inv H S R) : u'.Inv H S R := by
  obtain ⟨⟨m, e⟩, hm, h⟩ := Outcome.bind_ok.1 h
  obtain ⟨⟨s, e'⟩, hs, h⟩ := Outcome.bind_ok.1 h
  exact rootFromSeed_inv h hi.range.1 hi.path fun _ => ⟨e', hs⟩

theorem onMnemonicChange_inv {u u' : Ui} (h : u.onMnemonicChange H S R = .ok u') (hi : u.Inv H S R) :
    u'.Inv H S R := by
  obtain ⟨⟨s, e'⟩, hs, h⟩ := Outcome.bind_ok.1 h
  exact rootFromSeed_inv h hi.range.1 hi.path fun _ => ⟨e', hs⟩

theorem onPassphraseChange_inv {u u' : Ui} (h : u.onMnemonicPassphraseChange H S R = .ok u') (hi : u.Inv H S R) :
    u'.Inv H S R := by
  obtain ⟨⟨s, e'⟩, hs, h⟩ := Outcome.bind_ok.1 h
  exact rootFromSeed_inv h hi.range.1 hi.path fun _ => ⟨e', hs⟩

theorem onSeedChange_inv {u u' : Ui} (h : u.onSeedChange H R = .ok u') (hi : u.Inv H S R) : u'.Inv H S R :=
  rootFromSeed_inv h hi.range.1 hi.path fun hm => absurd rfl hm

theorem onRootKeyStrChange_inv {u : Ui} (hi : u.Inv H S R) : (u.onRootKeyStrChange H R).Inv H S R := by
  unfold Ui.onRootKeyStrChange
  dsimp only
  cases hd : b58Deserialize H u.rootKeyField with
  | mk k e =>
    cases e with
    | none =>
      dsimp only
      have := onKeyPathChange_range (H := H) (R := R)
        { u with rootKeyStr := u.rootKeyField, mnemonic := [], mnemonicField := [], seed := [], seedField := [],
                 rootKey := k } hi.range.1
      exact ⟨⟨this.1, .inl this.2⟩, hi.path, .inl ⟨rfl, rfl⟩, fun h => absurd rfl h,
        fun h => h.elim (absurd rfl) (absurd rfl)⟩
    | some e =>
      dsimp only
      refine ⟨hi.range, hi.path, .inr ⟨rfl, ?_, rfl, rfl⟩, fun h => absurd rfl h,
        fun h => h.elim (absurd rfl) (absurd rfl)⟩
      dsimp only
      rw [hd]
      simp

theorem onDerivationPathChange_inv {u : Ui} (hi : u.Inv H S R) : (u.onDerivationPathChange H R).Inv H S R := by
  have := onKeyPathChange_range (H := H) (R := R)
    { u with derivationStr := u.derivationField, derivationPath := pathFormatted u.derivationField } hi.range.1
  exact ⟨⟨this.1, .inl this.2⟩, rfl, .inl ⟨rfl, rfl⟩, hi.seed, hi.root⟩

theorem update_cases {u u' : Ui} {g : Option (Nat → Bytes)} (h : u.update H S R g = .ok u') :
    ∃ u1 u2 u3 u4 u5 u0 : Ui, u0 = { u with derivationPath := pathFormatted u.derivationStr } ∧
      ((g = none ∧ u1 = u0) ∨ ∃ read, g = some read ∧ u0.onAutoCreateMnemonicClicked H S R read = .ok u1) ∧
      ((u1.mnemonicField = u1.mnemonic ∧ u2 = u1) ∨ u1.onMnemonicChange H S R = .ok u2) ∧
      ((u2.passphraseField = u2.passphrase ∧ u3 = u2) ∨ u2.onMnemonicPassphraseChange H S R = .ok u3) ∧
      ((u3.seedField = u3.seed ∧ u4 = u3) ∨ u3.onSeedChange H R = .ok u4) ∧
      ((u4.rootKeyStr = u4.rootKeyField ∧ u5 = u4) ∨ u5 = u4.onRootKeyStrChange H R) ∧
      ((pathString u5.derivationField = pathString u5.derivationStr ∧ u' = u5) ∨ u' = u5.onDerivationPathChange H R) := by
  unfold Ui.update at h
  obtain ⟨u1, h1, h⟩ := Outcome.bind_ok.1 h
  obtain ⟨u2, h2, h⟩ := Outcome.bind_ok.1 h
  obtain ⟨u3, h3, h⟩ := Outcome.bind_ok.1 h
  obtain ⟨u4, h4, h⟩ := Outcome.bind_ok.1 h
  have h := Outcome.ok.inj h
  refine ⟨u1, u2, u3, u4, if u4.rootKeyStr ≠ u4.rootKeyField then u4.onRootKeyStrChange H R else u4, _, rfl,
    ?_, ?_, ?_, ?_, ?_, ?_⟩
  · cases g with
    | none => exact .inl ⟨rfl, (Outcome.ok.inj h1).symm⟩
    | some read => exact .inr ⟨read, rfl, h1⟩
  · by_cases hc : u1.mnemonicField = u1.mnemonic
    · rw [if_neg (by simpa using hc)] at h2
      exact .inl ⟨hc, (Outcome.ok.inj h2).symm⟩
    · rw [if_pos hc] at h2
      exact .inr h2
  · by_cases hc : u2.passphraseField = u2.passphrase
    · rw [if_neg (by simpa using hc)] at h3
      exact .inl ⟨hc, (Outcome.ok.inj h3).symm⟩
    · rw [if_pos hc] at h3
      exact .inr h3
  · by_cases hc : u3.seedField = u3.seed
    · rw [if_neg (by simpa using hc)] at h4
      exact .inl ⟨hc, (Outcome.ok.inj h4).symm⟩
    · rw [if_pos hc] at h4
      exact .inr h4
  · by_cases hc : u4.rootKeyStr = u4.rootKeyField
    · rw [if_neg (by simpa using hc)]
      exact .inl ⟨hc, rfl⟩
    · rw [if_pos hc]
      exact .inr rfl
  · generalize (if u4.rootKeyStr ≠ u4.rootKeyField then u4.onRootKeyStrChange H R else u4) = u5 at h ⊢
    by_cases hc : pathString u5.derivationField = pathString u5.derivationStr
    · rw [if_neg (by simpa using hc)] at h
      exact .inl ⟨hc, h.symm⟩
    · rw [if_pos hc] at h
      exact .inr h.symm

theorem update_inv {u u' : Ui} {g : Option (Nat → Bytes)} (h : u.update H S R g = .ok u') (hi : u.Inv H S R) :
    u'.Inv H S R := by
  obtain ⟨u1, u2, u3, u4, u5, u0, h0, h1, h2, h3, h4, h5, h6⟩ := update_cases h
  have i0 : u0.Inv H S R := by
    have : u0 = u := by rw [h0, ← hi.path]
    rw [this]; exact hi
  have i1 : u1.Inv H S R := by
    rcases h1 with ⟨-, rfl⟩ | ⟨read, -, h⟩
    · exact i0
    · exact onAutoCreate_inv h i0
  have i2 : u2.Inv H S R := by
    rcases h2 with ⟨-, rfl⟩ | h
    · exact i1
    · exact onMnemonicChange_inv h i1
  have i3 : u3.Inv H S R := by
    rcases h3 with ⟨-, rfl⟩ | h
    · exact i2
    · exact onPassphraseChange_inv h i2
  have i4 : u4.Inv H S R := by
    rcases h4 with ⟨-, rfl⟩ | h
    · exact i3
    · exact onSeedChange_inv h i3
  have i5 : u5.Inv H S R := by
    rcases h5 with ⟨-, rfl⟩ | h
    · exact i4
    · rw [h]; exact onRootKeyStrChange_inv i4
  rcases h6 with ⟨-, rfl⟩ | h
  · exact i5
  · rw [h]; exact onDerivationPathChange_inv i5

theorem update_synced {u u' : Ui} {g : Option (Nat → Bytes)} (h : u.update H S R g = .ok u') : u'.Synced := by
  obtain ⟨u1, u2, u3, u4, u5, u0, h0, h1, h2, h3, h4, h5, h6⟩ := update_cases h
  have s2 : u2.mnemonicField = u2.mnemonic := by
    rcases h2 with ⟨h, rfl⟩ | h
    · exact h
    · obtain ⟨⟨s, e'⟩, hs, h⟩ := Outcome.bind_ok.1 h
      have := rootFromSeed_fields h
      exact this.1.trans this.2.1.symm
  have s3 : u3.mnemonicField = u3.mnemonic ∧ u3.passphraseField = u3.passphrase := by
    rcases h3 with ⟨h, rfl⟩ | h
    · exact ⟨s2, h⟩
    · obtain ⟨⟨s, e'⟩, hs, h⟩ := Outcome.bind_ok.1 h
      have := rootFromSeed_fields h
      exact ⟨this.1.trans (s2.trans this.2.1.symm), this.2.2.1.trans this.2.2.2.1.symm⟩
  have s4 : u4.mnemonicField = u4.mnemonic ∧ u4.passphraseField = u4.passphrase ∧ u4.seedField = u4.seed := by
    rcases h4 with ⟨h, rfl⟩ | h
    · exact ⟨s3.1, s3.2, h⟩
    · have := rootFromSeed_fields h
      exact ⟨this.1.trans this.2.1.symm, this.2.2.1.trans (s3.2.trans this.2.2.2.1.symm),
        this.2.2.2.2.1.trans this.2.2.2.2.2.1.symm⟩
  have s5 : u5.mnemonicField = u5.mnemonic ∧ u5.passphraseField = u5.passphrase ∧ u5.seedField = u5.seed ∧
      u5.rootKeyField = u5.rootKeyStr := by
    rcases h5 with ⟨h, rfl⟩ | h
    · exact ⟨s4.1, s4.2.1, s4.2.2, h.symm⟩
    · rw [h]
      unfold Ui.onRootKeyStrChange
      dsimp only
      split
      · exact ⟨rfl, s4.2.1, rfl, rfl⟩
      · exact ⟨rfl, s4.2.1, rfl, rfl⟩
  rcases h6 with ⟨h, rfl⟩ | h
  · exact ⟨s5.1, s5.2.1, s5.2.2.1, s5.2.2.2, h⟩
  · rw [h]
    exact ⟨s5.1, s5.2.1, s5.2.2.1, rfl, rfl⟩

/-- What the layout can do to the state: field texts, the radio button and the selection. -/
structure LayoutStep (u u' : Ui) : Prop where
  mnemonic : u'.mnemonic = u.mnemonic
  passphrase : u'.passphrase = u.passphrase
  seed : u'.seed = u.seed
  rootKeyStr : u'.rootKeyStr = u.rootKeyStr
  derivationStr : u'.derivationStr = u.derivationStr
  derivationPath : u'.derivationPath = u.derivationPath
  rootKey : u'.rootKey = u.rootKey
  tabs : u'.tabs = u.tabs
  range : -1 ≤ u.selected → u.selected < u.tabs.length → -1 ≤ u'.selected ∧ u'.selected < u.tabs.length
  keep : 0 ≤ u.selected → 0 ≤ u'.selected

theorem LayoutStep.refl (u : Ui) : LayoutStep u u := ⟨rfl, rfl, rfl, rfl, rfl, rfl, rfl, rfl, fun a b => ⟨a, b⟩, id⟩

theorem LayoutStep.trans {u v w : Ui} (h : LayoutStep u v) (k : LayoutStep v w) : LayoutStep u w where
  mnemonic := k.mnemonic.trans h.mnemonic
  passphrase := k.passphrase.trans h.passphrase
  seed := k.seed.trans h.seed
  rootKeyStr := k.rootKeyStr.trans h.rootKeyStr
  derivationStr := k.derivationStr.trans h.derivationStr
  derivationPath := k.derivationPath.trans h.derivationPath
  rootKey := k.rootKey.trans h.rootKey
  tabs := k.tabs.trans h.tabs
  range := fun a b => by
    have h1 := h.range a b
    have h2 := k.range h1.1 (by rw [h.tabs]; exact h1.2)
    rw [h.tabs] at h2
    exact h2
  keep := fun a => k.keep (h.keep a)

theorem clickLeft_step (u : Ui) : LayoutStep u u.clickLeft := by
  unfold Ui.clickLeft
  split
  · exact ⟨rfl, rfl, rfl, rfl, rfl, rfl, rfl, rfl, fun a b => ⟨by dsimp only; omega, by dsimp only; omega⟩,
      fun a => by dsimp only; omega⟩
  · exact .refl u

theorem clickRight_step (u : Ui) : LayoutStep u u.clickRight := by
  unfold Ui.clickRight
  split
  · exact ⟨rfl, rfl, rfl, rfl, rfl, rfl, rfl, rfl, fun a b => ⟨by dsimp only; omega, by dsimp only; omega⟩,
      fun a => by dsimp only; omega⟩
  · exact .refl u

theorem clickTab_step (u : Ui) (i : Nat) : LayoutStep u (u.clickTab i) := by
  unfold Ui.clickTab
  split
  · exact ⟨rfl, rfl, rfl, rfl, rfl, rfl, rfl, rfl, fun a b => ⟨by dsimp only; omega, by dsimp only; omega⟩,
      fun a => by dsimp only; omega⟩
  · exact .refl u

theorem clickTabs_step (l : List Nat) (u : Ui) : LayoutStep u (l.foldl Ui.clickTab u) := by
  induction l generalizing u with
  | nil => exact .refl u
  | cons i l ih => exact (clickTab_step u i).trans (ih _)

theorem clicks_step (f : Frame) (u : Ui) : LayoutStep u
    (let u := if f.left then u.clickLeft else u
    let u := if f.right then u.clickRight else u
    f.tabClicks.foldl Ui.clickTab u) := by
  refine LayoutStep.trans (v := if f.left then u.clickLeft else u) ?_ (LayoutStep.trans ?_ (clickTabs_step _ _))
  · split
    · exact clickLeft_step _
    · exact .refl _
  · generalize (if f.left then u.clickLeft else u) = v
    split
    · exact clickRight_step _
    · exact .refl _

theorem layout_step (f : Frame) (u : Ui) :
    LayoutStep u (u.layout f) ∧ (u.tabs = [] → (u.layout f).selected = u.selected) := by
  unfold Ui.layout
  dsimp only
  have h0 : LayoutStep u { u with
      radio := f.radioEdit.getD u.radio
      mnemonicField := f.mnemonicEdit.getD u.mnemonicField
      passphraseField := f.passphraseEdit.getD u.passphraseField
      seedField := f.seedEdit.getD u.seedField
      rootKeyField := f.rootKeyEdit.getD u.rootKeyField
      derivationField := f.derivationEdit.getD u.derivationField } :=
    ⟨rfl, rfl, rfl, rfl, rfl, rfl, rfl, rfl, fun a b => ⟨a, b⟩, id⟩
  split
  · exact ⟨h0, fun _ => rfl⟩
  · next hne =>
    exact ⟨h0.trans (clicks_step f _), fun h => absurd (by rw [h]; rfl) hne⟩

theorem layout_inv {u : Ui} (f : Frame) (hi : u.Inv H S R) : (u.layout f).Inv H S R := by
  obtain ⟨h, hs⟩ := layout_step f u
  have hcp : (u.layout f).currentPath = u.currentPath := by
    unfold Ui.currentPath; rw [h.derivationPath]
  refine ⟨?_, ?_, ?_, ?_, ?_⟩
  · by_cases ht : u.tabs = []
    · rw [hs ht, h.tabs]; exact hi.range
    · rw [h.tabs]
      have : u.selected < u.tabs.length := hi.range.2.resolve_right fun hh => ht hh.2
      have := h.range hi.range.1 this
      exact ⟨this.1, .inl this.2⟩
  · rw [h.derivationPath, h.derivationStr]; exact hi.path
  · rw [hcp, h.rootKey, h.tabs, h.rootKeyStr, h.mnemonic, h.seed]; exact hi.tabs
  · rw [h.mnemonic, h.seed, h.passphrase]; exact hi.seed
  · rw [h.mnemonic, h.seed, h.rootKey]; exact hi.root

theorem shown_ok (u : Ui) : ∃ o, u.shown = .ok o ∧
    (o = none ↔ ¬ (0 ≤ u.selected ∧ u.selected < u.tabs.length)) ∧
    ∀ k, o = some k → 0 ≤ u.selected ∧ u.tabs[u.selected.toNat]? = some k := by
  unfold Ui.shown
  by_cases h : 0 ≤ u.selected ∧ u.selected < u.tabs.length
  · have hlt : u.selected.toNat < u.tabs.length := by omega
    have hv : (decide (u.selected < u.tabs.length) && decide (u.tabs.length ≠ 0) && decide (u.selected ≥ 0)) = true := by
      simp only [Bool.and_eq_true, decide_eq_true_eq]
      omega
    rw [hv, if_neg (by simp), if_neg (by omega), List.getElem?_eq_getElem hlt]
    exact ⟨_, rfl, by simp [h], fun k hk => ⟨h.1, hk⟩⟩
  · have hv : (decide (u.selected < u.tabs.length) && decide (u.tabs.length ≠ 0) && decide (u.selected ≥ 0)) = false := by
      rw [← Bool.not_eq_true]
      simp only [Bool.and_eq_true, decide_eq_true_eq]
      omega
    rw [hv, if_pos (by simp)]
    exact ⟨none, rfl, by simp [h], by simp⟩

theorem frame_ok {u u' : Ui} {f : Frame} :
    u.frame H S R f = .ok u' ↔ ∃ v, u.update H S R f.generate = .ok v ∧ u' = v.layout f := by
  constructor
  · intro h
    obtain ⟨v, hv, h⟩ := Outcome.bind_ok.1 h
    obtain ⟨o, -, h⟩ := Outcome.bind_ok.1 h
    exact ⟨v, hv, (Outcome.ok.inj h).symm⟩
  · rintro ⟨v, hv, rfl⟩
    obtain ⟨o, ho, -⟩ := shown_ok (v.layout f)
    exact Outcome.bind_ok.2 ⟨v, hv, Outcome.bind_ok.2 ⟨o, ho, rfl⟩⟩

theorem frame_inv {u u' : Ui} {f : Frame} (h : u.frame H S R f = .ok u') (hi : u.Inv H S R) : u'.Inv H S R := by
  obtain ⟨v, hv, rfl⟩ := frame_ok.1 h
  exact layout_inv f (update_inv hv hi)

theorem run_inv {u u' : Ui} {fs : List Frame} (h : u.run H S R fs = .ok u') (hi : u.Inv H S R) : u'.Inv H S R := by
  induction fs generalizing u with
  | nil => rw [← Outcome.ok.inj h]; exact hi
  | cons f fs ih =>
    obtain ⟨v, hv, h⟩ := Outcome.bind_ok.1 h
    exact ih h (frame_inv hv hi)

variable (H S R) in
theorem init_inv : ({} : Ui).Inv H S R where
  range := ⟨by decide, .inr ⟨rfl, rfl⟩⟩
  path := rfl
  tabs := .inl ⟨(deriveBIP32Result_zero H R _).symm, (string_zero H).symm⟩
  seed := fun h => absurd rfl h
  root := fun h => h.elim (absurd rfl) (absurd rfl)

end Bips
