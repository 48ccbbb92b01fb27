import Verif.Src.Window

/-!
# The window of examples/ui/one: whole frames

What the library does between the pieces of text: it says whether the button was clicked, puts what the user typed into the fields, lays out the
tabs there are and asks each for clicks.
-/

namespace Bips.Src

open Bips (str)

set_option linter.unusedSimpArgs false

variable (W : World) (L : Nat)

/-- What the user made of a field. -/
def editAt (i : Nat) (o : Option Bytes) (vs : List Val) : List Val :=
  match o with
  | some b => vs.set i (.str b)
  | none => vs

/-- What the user made of the fields and the radio buttons. -/
def edits (f : Frame) (vs : List Val) : List Val :=
  editAt 4 f.derivationEdit (editAt 3 f.rootKeyEdit (editAt 2 f.seedEdit (editAt 1 f.passphraseEdit (editAt 0 f.mnemonicEdit
    (editAt 5 f.radioEdit vs)))))

/-- The number of tabs. -/
def tabCount (vs : List Val) : Nat :=
  match (vs[13]? : Option Val) with
  | some (.list l) => l.length
  | _ => 0

/-- The tabs clicked on, as far as there are such tabs. -/
def srcTabs (n : Nat) : List Nat → List Val → Res (List Val)
  | [], vs => .ok vs
  | i :: is, vs =>
    if i < tabCount vs then (run W L n .main_tab (vs ++ [.int i, .bool true])).bind (srcTabs n is) else srcTabs n is vs

/-- One frame: the checks, what the user does to the fields, the arrows and the tabs (laid out only if there is a tab), the labels. The texts of
the labels are the last value. -/
def srcFrame (n : Nat) (f : Frame) (vs : List Val) : Res (List Val) :=
  (run { W with read := f.generate.getD W.read } L n .main_update (vs ++ [.bool f.generate.isSome])).bind fun vs =>
    let vs := edits f vs
    (if tabCount vs = 0 then .ok vs
      else (run W L n .main_left (vs ++ [.bool f.left])).bind fun vs =>
        (run W L n .main_right (vs ++ [.bool f.right])).bind fun vs => srcTabs W L n f.tabClicks vs).bind fun vs =>
      run W L n .main_labels vs

/-- The frames one after the other. -/
def srcFrames (n : Nat) : List Val → List Frame → Res (List Val)
  | vs, [] => .ok vs
  | vs, f :: fs => (srcFrame W L n f vs).bind fun vs => srcFrames n (vs.take 16) fs

/-- The window from its start: the variables as they are declared, the assignment before the loop, the frames. -/
def srcWindow (n : Nat) (fs : List Frame) : Res (List Val) :=
  (run W L n .main_start
    [.str [], .str [], .str [], .str [], .str [], .str [], .str [], .str [], .str [], .str [], .str [], .str [],
      .list [.bytes (List.replicate 78 0)], .list [], .int 0, sliderVal Ui.Slider.zero]).bind fun vs => srcFrames W L n vs fs

/-! ### Sizes -/

/-- Sizes memory has room for. -/
structure Small (u : Ui) : Prop where
  str : u.derivationStr.length < 2 ^ 61
  field : u.derivationField.length < 2 ^ 61
  low : -1 ≤ u.selected
  high : u.selected < 2 ^ 62
  tabs : u.tabs.length < 2 ^ 62

/-- The same of the path in use. -/
def Fits (u : Ui) : Prop := Small u ∧ u.derivationPath.length < 2 ^ 61

theorem fits_onKeyPathChange {u : Ui} (hs : Fits u) : Fits (u.onKeyPathChange W.H W.R) := by
  obtain ⟨⟨a, b, c, d, e⟩, hp⟩ := hs
  have h1 := derive_length W.H W.R u.rootKey u.currentPath
  have h2 : u.currentPath.length < 2 ^ 61 := by
    unfold Ui.currentPath
    split
    · exact lt_of_le_of_lt (List.length_filter_le _ _) hp
    · decide
  unfold Ui.onKeyPathChange
  refine ⟨⟨a, b, ?_, ?_, ?_⟩, hp⟩
  · simp only
    split <;> omega
  · simp only
    split <;> omega
  · simp only
    omega

theorem fits_rootFromSeed {u u' : Ui} (h : u.rootFromSeed W.H W.R = .ok u') (hs : Fits u) : Fits u' := by
  unfold Ui.rootFromSeed at h
  rcases hr : rootKeyFromSeed W.H u.seed with ⟨k, e⟩ | _
  · rw [hr] at h
    simp only [Outcome.bind, Outcome.ok.injEq] at h
    subst h
    have := fits_onKeyPathChange W (u := { u with rootKey := k }) ⟨⟨hs.1.1, hs.1.2, hs.1.3, hs.1.4, hs.1.5⟩, hs.2⟩
    exact ⟨⟨this.1.1, this.1.2, this.1.3, this.1.4, this.1.5⟩, this.2⟩
  · rw [hr] at h
    cases h

theorem fits_update (read : Option (Nat → Bytes)) {u u' : Ui} (h : u.update W.H W.S W.R read = .ok u') (hs : Small u) : Small u' := by
  have bind {x : Outcome Ui} {f : Ui → Outcome Ui} {r : Ui} (h : x.bind f = .ok r) : ∃ v, x = .ok v ∧ f v = .ok r := by
    cases x with
    | ok v => exact ⟨v, rfl, h⟩
    | panic => cases h
  unfold Ui.update at h
  have h0 : Fits { u with derivationPath := pathFormatted u.derivationStr } :=
    ⟨⟨hs.1, hs.2, hs.3, hs.4, hs.5⟩, lt_of_le_of_lt (List.length_filter_le _ _) hs.1⟩
  generalize ({ u with derivationPath := pathFormatted u.derivationStr } : Ui) = u0 at h h0
  obtain ⟨u1, e1, h⟩ := bind h
  have h1 : Fits u1 := by
    cases read with
    | none => cases e1; exact h0
    | some read =>
      unfold Ui.onAutoCreateMnemonicClicked at e1
      rcases hg : generateMnemonic W.H W.S read (UInt8.ofNat ((atoi u0.radio).1 % 256).toNat) with ⟨m, e⟩ | _
      · simp only [hg, Outcome.bind] at e1
        rcases hr : deriveSeedFromMnemonic W.H W.S m u0.passphrase with ⟨k, e⟩ | _
        · simp only [hr] at e1
          exact fits_rootFromSeed W e1 ⟨⟨h0.1.1, h0.1.2, h0.1.3, h0.1.4, h0.1.5⟩, h0.2⟩
        · simp only [hr] at e1
          cases e1
      · simp only [hg] at e1
        cases e1
  obtain ⟨u2, e2, h⟩ := bind h
  have h2 : Fits u2 := by
    split at e2
    · unfold Ui.onMnemonicChange at e2
      rcases hr : deriveSeedFromMnemonic W.H W.S u1.mnemonicField u1.passphrase with ⟨k, e⟩ | _
      · simp only [hr] at e2
        exact fits_rootFromSeed W e2 ⟨⟨h1.1.1, h1.1.2, h1.1.3, h1.1.4, h1.1.5⟩, h1.2⟩
      · simp only [hr] at e2
        cases e2
    · cases e2; exact h1
  obtain ⟨u3, e3, h⟩ := bind h
  have h3 : Fits u3 := by
    split at e3
    · unfold Ui.onMnemonicPassphraseChange at e3
      rcases hr : deriveSeedFromMnemonic W.H W.S u2.mnemonic u2.passphraseField with ⟨k, e⟩ | _
      · simp only [hr] at e3
        exact fits_rootFromSeed W e3 ⟨⟨h2.1.1, h2.1.2, h2.1.3, h2.1.4, h2.1.5⟩, h2.2⟩
      · simp only [hr] at e3
        cases e3
    · cases e3; exact h2
  obtain ⟨u4, e4, h⟩ := bind h
  have h4 : Fits u4 := by
    split at e4
    · exact fits_rootFromSeed W e4 ⟨⟨h3.1.1, h3.1.2, h3.1.3, h3.1.4, h3.1.5⟩, h3.2⟩
    · cases e4; exact h3
  have h5 : Fits (if u4.rootKeyStr ≠ u4.rootKeyField then u4.onRootKeyStrChange W.H W.R else u4) := by
    split
    · unfold Ui.onRootKeyStrChange
      rcases hb : b58Deserialize W.H u4.rootKeyField with ⟨k, _ | e⟩
      · simp only [hb]
        have := fits_onKeyPathChange W
          (u := { u4 with rootKeyStr := u4.rootKeyField, mnemonic := [], mnemonicField := [], seed := [], seedField := [], rootKey := k })
          ⟨⟨h4.1.1, h4.1.2, h4.1.3, h4.1.4, h4.1.5⟩, h4.2⟩
        exact ⟨⟨this.1.1, this.1.2, this.1.3, this.1.4, this.1.5⟩, this.2⟩
      · simp only [hb]
        exact ⟨⟨h4.1.1, h4.1.2, h4.1.3, h4.1.4, h4.1.5⟩, h4.2⟩
    · exact h4
  generalize (if u4.rootKeyStr ≠ u4.rootKeyField then u4.onRootKeyStrChange W.H W.R else u4) = u5 at h h5
  simp only [Outcome.ok.injEq] at h
  subst h
  split
  · have := fits_onKeyPathChange W (u := { u5 with derivationStr := u5.derivationField, derivationPath := pathFormatted u5.derivationField })
      ⟨⟨h5.1.2, h5.1.2, h5.1.3, h5.1.4, h5.1.5⟩, lt_of_le_of_lt (List.length_filter_le _ _) h5.1.2⟩
    exact ⟨this.1.1, this.1.2, this.1.3, this.1.4, this.1.5⟩
  · exact h5.1

/-! ### The frames -/

/-- What a frame is given: the random source gives as many bytes as it is asked for, and a path typed in has a size memory has room for. -/
structure Frame.Ok (f : Frame) : Prop where
  random : ∀ read ∈ f.generate, ∀ n, (read n).length = n
  path : ∀ p ∈ f.derivationEdit, p.length < 2 ^ 61

/-- The variables after the fields were edited. -/
def uiEdits (f : Frame) (u : Ui) : Ui :=
  { u with
    radio := f.radioEdit.getD u.radio
    mnemonicField := f.mnemonicEdit.getD u.mnemonicField
    passphraseField := f.passphraseEdit.getD u.passphraseField
    seedField := f.seedEdit.getD u.seedField
    rootKeyField := f.rootKeyEdit.getD u.rootKeyField
    derivationField := f.derivationEdit.getD u.derivationField }

theorem edits_vals (f : Frame) (u : Ui) (slider : Ui.Slider) : edits f (uiVals u slider) = uiVals (uiEdits f u) slider := by
  obtain ⟨g, a, b, c, d, e, r, l, r', t⟩ := f
  cases a <;> cases b <;> cases c <;> cases d <;> cases e <;> cases r <;> rfl

theorem tabCount_vals (u : Ui) (slider : Ui.Slider) : tabCount (uiVals u slider) = u.tabs.length := by
  simp [tabCount, uiVals]

theorem tabs_run (n : Nat) (is : List Nat) (u : Ui) (slider : Ui.Slider) :
    ∃ slider', Pushed slider slider' ∧ srcTabs W L (n + 2) is (uiVals u slider) = .ok (uiVals (is.foldl Ui.clickTab u) slider') := by
  induction is generalizing u slider with
  | nil => exact ⟨slider, .refl _, rfl⟩
  | cons i is ih =>
    unfold srcTabs
    rw [tabCount_vals, window_tab]
    by_cases hi : i < u.tabs.length
    · simp only [hi, if_true, Res.bind]
      obtain ⟨p, hp, h⟩ := ih (u.clickTab i) (if u.selected < i then slider.pushLeft else if u.selected > i then slider.pushRight else slider)
      refine ⟨p, .trans ?_ hp, h⟩
      unfold Pushed
      split
      · simp
      · split <;> simp
    · simp only [hi, if_false]
      obtain ⟨p, hp, h⟩ := ih u slider
      exact ⟨p, hp, by rw [h, List.foldl_cons, Ui.clickTab, if_neg hi]⟩

theorem small_clicks {u : Ui} (hs : Small u) (is : List Nat) : Small (is.foldl Ui.clickTab u) := by
  induction is generalizing u with
  | nil => exact hs
  | cons i is ih =>
    apply ih
    unfold Ui.clickTab
    split
    · obtain ⟨a, b, c, d, e⟩ := hs
      exact ⟨a, b, by simp only; omega, by simp only; omega, e⟩
    · exact hs

theorem small_left {u : Ui} (hs : Small u) : Small u.clickLeft := by
  unfold Ui.clickLeft
  obtain ⟨a, b, c, d, e⟩ := hs
  split
  · exact ⟨a, b, by simp only; omega, by simp only; omega, e⟩
  · exact ⟨a, b, c, d, e⟩

theorem small_right {u : Ui} (hs : Small u) : Small u.clickRight := by
  unfold Ui.clickRight
  obtain ⟨a, b, c, d, e⟩ := hs
  split
  · exact ⟨a, b, by simp only; omega, by simp only; omega, e⟩
  · exact ⟨a, b, c, d, e⟩

/-- What is on the screen below the tabs. -/
def Ui.texts (u : Ui) : List Bytes :=
  match u.shown with
  | .ok (some k) => k.labels W.H W.R
  | _ => []

theorem frame_run (hL : 32 < L) (n : Nat) (f : Frame) (hf : Frame.Ok f) (u : Ui) (slider : Ui.Slider) (hs : Small u) :
    match u.frame W.H W.S W.R f with
    | .ok u' => (∃ slider', Pushed slider slider' ∧ srcFrame W L (n + 8) f (uiVals u slider) = .ok (uiVals u' slider' ++ [.list ((Ui.texts W u').map .str)])) ∧ Small u'
    | .panic => srcFrame W L (n + 8) f (uiVals u slider) = .panic := by
  have hu : run { W with read := f.generate.getD W.read } L (n + 8) .main_update (uiVals u slider ++ [.bool f.generate.isSome])
      = uiOut slider (u.update W.H W.S W.R f.generate) := by
    cases hg : f.generate with
    | none => exact window_update W L hL n u slider false (by simp) (by have := hs.1; omega) (by have := hs.2; omega)
    | some read =>
      exact window_update { W with read := read } L hL n u slider true (fun _ => hf.random read hg) (by have := hs.1; omega) (by have := hs.2; omega)
  unfold Ui.frame srcFrame
  rw [hu]
  rcases h1 : u.update W.H W.S W.R f.generate with u1 | _
  swap
  · rfl
  have s1 := fits_update W _ h1 hs
  have s2 : Small (uiEdits f u1) := by
    refine ⟨s1.1, ?_, s1.3, s1.4, s1.5⟩
    cases he : f.derivationEdit with
    | none => simp only [uiEdits, he]; exact s1.2
    | some p => simp only [uiEdits, he]; exact hf.path p he
  have hv : u1.layout f = if (uiEdits f u1).tabs.length = 0 then uiEdits f u1
      else f.tabClicks.foldl Ui.clickTab (if f.right then (if f.left then (uiEdits f u1).clickLeft else uiEdits f u1).clickRight
        else if f.left then (uiEdits f u1).clickLeft else uiEdits f u1) := rfl
  simp only [uiOut, outcome, Res.bind, Outcome.bind, edits_vals, tabCount_vals, hv]
  generalize uiEdits f u1 = u2 at s2 ⊢
  have s3 : Small (if f.left then u2.clickLeft else u2) := by
    split
    · exact small_left s2
    · exact s2
  have e3 : ∃ p, Pushed slider p ∧ run W L (n + 8) .main_left (uiVals u2 slider ++ [.bool f.left]) = .ok (uiVals (if f.left then u2.clickLeft else u2) p) := by
    have h := window_left W L (n + 6) u2 slider f.left s2.high
    cases hl : f.left with
    | true => exact ⟨if u2.selected > 0 then slider.pushRight else slider, by unfold Pushed; split <;> simp, by rw [hl] at h; exact h⟩
    | false => exact ⟨slider, .refl _, by rw [hl] at h; exact h⟩
  obtain ⟨p3, q3, e3⟩ := e3
  generalize (if f.left then u2.clickLeft else u2) = u3 at s3 e3 ⊢
  have s4 : Small (if f.right then u3.clickRight else u3) := by
    split
    · exact small_right s3
    · exact s3
  have e4 : ∃ p, Pushed p3 p ∧ run W L (n + 8) .main_right (uiVals u3 p3 ++ [.bool f.right]) = .ok (uiVals (if f.right then u3.clickRight else u3) p) := by
    have h := window_right W L (n + 6) u3 p3 f.right (by have := s3.low; omega) s3.tabs
    cases hl : f.right with
    | true => exact ⟨if u3.selected < (u3.tabs.length : Int) - 1 then p3.pushLeft else p3, by unfold Pushed; split <;> simp, by rw [hl] at h; exact h⟩
    | false => exact ⟨p3, .refl _, by rw [hl] at h; exact h⟩
  obtain ⟨p4, q4, e4⟩ := e4
  generalize (if f.right then u3.clickRight else u3) = u4 at s4 e4 ⊢
  obtain ⟨p5, q5, e5⟩ := tabs_run W L (n + 6) f.tabClicks u4 p4
  have s5 := small_clicks s4 f.tabClicks
  have fin : ∃ p, Pushed slider p ∧ (if u2.tabs.length = 0 then Res.ok (uiVals u2 slider)
      else (run W L (n + 8) .main_left (uiVals u2 slider ++ [.bool f.left])).bind fun vs =>
        (run W L (n + 8) .main_right (vs ++ [.bool f.right])).bind fun vs => srcTabs W L (n + 8) f.tabClicks vs)
      = .ok (uiVals (if u2.tabs.length = 0 then u2 else f.tabClicks.foldl Ui.clickTab u4) p) := by
    by_cases ht : u2.tabs.length = 0
    · exact ⟨slider, .refl _, by rw [if_pos ht, if_pos ht]⟩
    · exact ⟨p5, q3.trans (q4.trans q5), by rw [if_neg ht, if_neg ht, e3, Res.bind, e4, Res.bind, e5]⟩
  have s6 : Small (if u2.tabs.length = 0 then u2 else f.tabClicks.foldl Ui.clickTab u4) := by
    split
    · exact s2
    · exact s5
  obtain ⟨p6, q6, e6⟩ := fin
  have e6' := congrArg (fun r => Res.bind r fun vs => run W L (n + 8) .main_labels vs) e6
  generalize (if u2.tabs.length = 0 then u2 else f.tabClicks.foldl Ui.clickTab u4) = u6 at s6 e6' ⊢
  have hl := window_labels W L hL (n + 2) u6 p6
  rcases hk : u6.shown with k | _
  · refine ⟨⟨p6, q6, ?_⟩, s6⟩
    refine e6'.trans (hl.trans ?_)
    cases k <;> simp only [hk, shownText, Ui.texts, Res.bind]
  · refine e6'.trans (hl.trans ?_)
    simp only [hk, shownText, Res.bind]

theorem frames_run (hL : 32 < L) (n : Nat) (fs : List Frame) (hf : ∀ f ∈ fs, Frame.Ok f) (u : Ui) (slider : Ui.Slider) (hs : Small u) :
    match Ui.run W.H W.S W.R u fs with
    | .ok u' => ∃ slider', Pushed slider slider' ∧ srcFrames W L (n + 8) (uiVals u slider) fs = .ok (uiVals u' slider')
    | .panic => srcFrames W L (n + 8) (uiVals u slider) fs = .panic := by
  induction fs generalizing u slider with
  | nil => exact ⟨slider, .refl _, rfl⟩
  | cons f fs ih =>
    have h := frame_run W L hL n f (hf f (by simp)) u slider hs
    unfold Ui.run srcFrames
    rcases h1 : u.frame W.H W.S W.R f with u1 | _
    · rw [h1] at h
      obtain ⟨⟨p, hp, h⟩, s1⟩ := h
      rw [h]
      have := ih (fun f h => hf f (by simp [h])) u1 p s1
      simp only [Outcome.bind, Res.bind]
      rcases h2 : Ui.run W.H W.S W.R u1 fs with u2 | _
      · rw [h2] at this
        obtain ⟨p', hp', h'⟩ := this
        exact ⟨p', hp.trans hp', h'⟩
      · rw [h2] at this
        exact this
    · rw [h1] at h
      simp only [Outcome.bind]
      rw [h]
      rfl

theorem window_run (hL : 32 < L) (n : Nat) (fs : List Frame) (hf : ∀ f ∈ fs, Frame.Ok f) :
    match Ui.run W.H W.S W.R {} fs with
    | .ok u => ∃ slider, Pushed Ui.Slider.zero slider ∧ srcWindow W L (n + 8) fs = .ok (uiVals u slider)
    | .panic => srcWindow W L (n + 8) fs = .panic := by
  have h := frames_run W L hL n fs hf {} Ui.Slider.zero ⟨by decide, by decide, by decide, by decide, by decide⟩
  have e0 : ∀ vs, vs = uiVals { ({} : Ui) with radio := [] } Ui.Slider.zero →
      (run W L (n + 8) .main_start vs).bind (fun vs => srcFrames W L (n + 8) vs fs) = srcFrames W L (n + 8) (uiVals {} Ui.Slider.zero) fs := by
    intro vs hvs
    rw [hvs, window_start W L (n + 7)]
    rfl
  have e : srcWindow W L (n + 8) fs = srcFrames W L (n + 8) (uiVals {} Ui.Slider.zero) fs := e0 _ rfl
  rw [e]
  exact h

end Bips.Src
