import Verif.Props.Ui

/-!
# When a displayed key set has no selected tab (C62)

C62 is false as stated. Here: after which histories exactly no tab is selected. What counts are the rebuilds of the tabs that
leave none, and the clicks after them.
-/

namespace Bips
open Spec

variable {H : Hashes} {S : WordState} {R : Registry}

/-! ### The checks at the head of a frame, one by one -/

/-- The six checks at the head of a frame (examples/ui/one/main.go:182-199). -/
inductive Check where
  | generate (read : Nat → Bytes)
  | mnemonic
  | passphrase
  | seed
  | rootKey
  | path

/-- The condition of a check (examples/ui/one/main.go:181-197). -/
def Check.Fires (u : Ui) : Check → Prop
  | .generate _ => True
  | .mnemonic => u.mnemonicField ≠ u.mnemonic
  | .passphrase => u.passphraseField ≠ u.passphrase
  | .seed => u.seedField ≠ u.seed
  | .rootKey => u.rootKeyStr ≠ u.rootKeyField
  | .path => pathString u.derivationField ≠ pathString u.derivationStr

instance (u : Ui) (c : Check) : Decidable (c.Fires u) := by
  cases c <;> unfold Check.Fires <;> infer_instance

/-- What a check calls (examples/ui/one/main.go:182-198). -/
def Check.handle (H : Hashes) (S : WordState) (R : Registry) (u : Ui) : Check → Outcome Ui
  | .generate read => u.onAutoCreateMnemonicClicked H S R read
  | .mnemonic => u.onMnemonicChange H S R
  | .passphrase => u.onMnemonicPassphraseChange H S R
  | .seed => u.onSeedChange H R
  | .rootKey => .ok (u.onRootKeyStrChange H R)
  | .path => .ok (u.onDerivationPathChange H R)

/-- The one call that does not rebuild the tabs: a text that is not a key
(examples/ui/one/main.go:147-156). -/
def Check.Refused (H : Hashes) (u : Ui) : Check → Prop
  | .rootKey => (b58Deserialize H u.rootKeyField).2 ≠ none
  | _ => False

/-- Checks in the given order. -/
def Ui.checks (H : Hashes) (S : WordState) (R : Registry) : List Check → Ui → Outcome Ui
  | [], u => .ok u
  | c :: cs, u => (if c.Fires u then c.handle H S R u else .ok u).bind (Ui.checks H S R cs)

/-- The checks of a frame. -/
def frameChecks (generate : Option (Nat → Bytes)) : List Check :=
  (generate.map Check.generate).toList ++ [.mnemonic, .passphrase, .seed, .rootKey, .path]

theorem checks_congr {cs : List Check} {x y : Outcome Ui} (h : x = y) :
    x.bind (Ui.checks H S R cs) = y.bind (Ui.checks H S R cs) := by rw [h]

theorem Outcome.bind_congr {α β : Type} {x y : Outcome α} {f g : α → Outcome β} (h : x = y) (hf : ∀ a, f a = g a) :
    x.bind f = y.bind g := by
  subst h
  cases x
  · exact hf _
  · rfl

theorem if_ok {α : Type} {c : Prop} [Decidable c] (a b : α) :
    (if c then Outcome.ok a else .ok b) = .ok (if c then a else b) := by
  split <;> rfl

/-- The head of a frame is these checks. -/
theorem update_eq_checks (g : Option (Nat → Bytes)) (u : Ui) :
    u.update H S R g =
      Ui.checks H S R (frameChecks g) { u with derivationPath := pathFormatted u.derivationStr } := by
  have htail : ∀ v : Ui,
      (if v.mnemonicField ≠ v.mnemonic then v.onMnemonicChange H S R else .ok v).bind (fun u =>
      (if u.passphraseField ≠ u.passphrase then u.onMnemonicPassphraseChange H S R else .ok u).bind fun u =>
      (if u.seedField ≠ u.seed then u.onSeedChange H R else .ok u).bind fun u =>
      let u := if u.rootKeyStr ≠ u.rootKeyField then u.onRootKeyStrChange H R else u
      let u := if pathString u.derivationField ≠ pathString u.derivationStr then u.onDerivationPathChange H R else u
      .ok u) = Ui.checks H S R [.mnemonic, .passphrase, .seed, .rootKey, .path] v := by
    intro v
    refine Outcome.bind_congr ?_ fun a => Outcome.bind_congr ?_ fun a => Outcome.bind_congr ?_ fun a => ?_
    · exact if_congr (Iff.rfl) rfl rfl
    · exact if_congr (Iff.rfl) rfl rfl
    · exact if_congr (Iff.rfl) rfl rfl
    · unfold Ui.checks
      rw [show (if Check.Fires a .rootKey then Check.handle H S R a .rootKey else .ok a) =
        Outcome.ok (if a.rootKeyStr ≠ a.rootKeyField then a.onRootKeyStrChange H R else a) from
          (if_congr (Iff.rfl) rfl rfl).trans (if_ok _ _)]
      show _ = Ui.checks H S R [.path] _
      generalize (if a.rootKeyStr ≠ a.rootKeyField then a.onRootKeyStrChange H R else a) = b
      unfold Ui.checks
      rw [show (if Check.Fires b .path then Check.handle H S R b .path else .ok b) =
        Outcome.ok (if pathString b.derivationField ≠ pathString b.derivationStr then b.onDerivationPathChange H R else b)
        from (if_congr (Iff.rfl) rfl rfl).trans (if_ok _ _)]
      rfl
  cases g with
  | none => exact htail _
  | some read =>
    refine Outcome.bind_congr ?_ htail
    exact (if_pos trivial).symm

/-! ### The selection through the checks -/

/-- One of the checks rebuilds the tabs and leaves none. -/
def Emptied (H : Hashes) (S : WordState) (R : Registry) (cs : List Check) (u : Ui) : Prop :=
  ∃ pre c post v v', cs = pre ++ c :: post ∧ Ui.checks H S R pre u = .ok v ∧ c.Fires v ∧ ¬ c.Refused H v ∧
    c.handle H S R v = .ok v' ∧ v'.tabs = []

theorem onKeyPathChange_selected (u : Ui) (h : -1 ≤ u.selected) :
    (u.onKeyPathChange H R).selected = -1 ↔ u.selected = -1 ∨ (u.onKeyPathChange H R).tabs = [] := by
  unfold Ui.onKeyPathChange
  dsimp only
  generalize (deriveBIP32Result H R u.rootKey u.currentPath).1 = l
  cases l with
  | nil =>
    simp only [List.length_nil, or_true, iff_true]
    split <;> omega
  | cons a l =>
    simp only [List.length_cons, reduceCtorEq, or_false]
    split <;> omega

theorem rootFromSeed_selected {u u' : Ui} (h : u.rootFromSeed H R = .ok u') (hr : -1 ≤ u.selected) :
    -1 ≤ u'.selected ∧ (u'.selected = -1 ↔ u.selected = -1 ∨ u'.tabs = []) := by
  obtain ⟨⟨k, e⟩, hk, hu⟩ := Outcome.bind_ok.1 h
  have hu := Outcome.ok.inj hu
  subst hu
  exact ⟨(onKeyPathChange_range (H := H) (R := R) { u with rootKey := k } hr).1,
    onKeyPathChange_selected (H := H) (R := R) { u with rootKey := k } hr⟩

/-- A call loses the selection exactly if it leaves no tabs. -/
theorem handle_selected {c : Check} {u u' : Ui} (h : c.handle H S R u = .ok u') (hr : -1 ≤ u.selected) :
    -1 ≤ u'.selected ∧ (u'.selected = -1 ↔ u.selected = -1 ∨ (¬ c.Refused H u ∧ u'.tabs = [])) := by
  cases c with
  | generate read =>
    obtain ⟨⟨m, e⟩, hm, h⟩ := Outcome.bind_ok.1 h
    obtain ⟨⟨s, e'⟩, hs, h⟩ := Outcome.bind_ok.1 h
    have := rootFromSeed_selected h hr
    simpa [Check.Refused] using this
  | mnemonic =>
    obtain ⟨⟨s, e'⟩, hs, h⟩ := Outcome.bind_ok.1 h
    have := rootFromSeed_selected h hr
    simpa [Check.Refused] using this
  | passphrase =>
    obtain ⟨⟨s, e'⟩, hs, h⟩ := Outcome.bind_ok.1 h
    have := rootFromSeed_selected h hr
    simpa [Check.Refused] using this
  | seed =>
    have := rootFromSeed_selected h hr
    simpa [Check.Refused] using this
  | rootKey =>
    have h := Outcome.ok.inj h
    subst h
    unfold Check.Refused Ui.onRootKeyStrChange
    dsimp only
    cases hd : b58Deserialize H u.rootKeyField with
    | mk k e =>
      cases e with
      | none =>
        dsimp only
        have h1 := onKeyPathChange_range (H := H) (R := R)
          { u with rootKeyStr := u.rootKeyField, mnemonic := [], mnemonicField := [], seed := [], seedField := [],
                   rootKey := k } hr
        have h2 := onKeyPathChange_selected (H := H) (R := R)
          { u with rootKeyStr := u.rootKeyField, mnemonic := [], mnemonicField := [], seed := [], seedField := [],
                   rootKey := k } hr
        refine ⟨h1.1, h2.trans ?_⟩
        simp
      | some e =>
        dsimp only
        refine ⟨hr, ?_⟩
        simp
  | path =>
    have h := Outcome.ok.inj h
    subst h
    have h1 := onKeyPathChange_range (H := H) (R := R)
      { u with derivationStr := u.derivationField, derivationPath := pathFormatted u.derivationField } hr
    have h2 := onKeyPathChange_selected (H := H) (R := R)
      { u with derivationStr := u.derivationField, derivationPath := pathFormatted u.derivationField } hr
    refine ⟨h1.1, h2.trans ?_⟩
    simp [Check.Refused]
    rfl

theorem emptied_nil (u : Ui) : ¬ Emptied H S R [] u := by
  rintro ⟨pre, c, post, v, v', h, -⟩
  simp at h

theorem emptied_cons {c : Check} {cs : List Check} {u v : Ui}
    (hv : (if c.Fires u then c.handle H S R u else .ok u) = .ok v) :
    Emptied H S R (c :: cs) u ↔ (c.Fires u ∧ ¬ c.Refused H u ∧ v.tabs = []) ∨ Emptied H S R cs v := by
  constructor
  · rintro ⟨pre, d, post, w, w', h, hw, hf, hn, hh, ht⟩
    cases pre with
    | nil =>
      simp only [List.nil_append, List.cons.injEq] at h
      obtain ⟨rfl, rfl⟩ := h
      have hw := Outcome.ok.inj hw
      subst hw
      rw [if_pos hf, hh] at hv
      rw [Outcome.ok.inj hv] at ht
      exact .inl ⟨hf, hn, ht⟩
    | cons e pre =>
      simp only [List.cons_append, List.cons.injEq] at h
      obtain ⟨rfl, rfl⟩ := h
      rw [Ui.checks, hv] at hw
      exact .inr ⟨pre, d, post, w, w', rfl, hw, hf, hn, hh, ht⟩
  · rintro (⟨hf, hn, ht⟩ | ⟨pre, d, post, w, w', rfl, hw, hf, hn, hh, ht⟩)
    · rw [if_pos hf] at hv
      exact ⟨[], c, cs, u, v, rfl, rfl, hf, hn, hv, ht⟩
    · refine ⟨c :: pre, d, post, w, w', rfl, ?_, hf, hn, hh, ht⟩
      rw [Ui.checks, hv]
      exact hw

theorem checks_selected {cs : List Check} {u u' : Ui} (h : Ui.checks H S R cs u = .ok u') (hr : -1 ≤ u.selected) :
    -1 ≤ u'.selected ∧ (u'.selected = -1 ↔ u.selected = -1 ∨ Emptied H S R cs u) := by
  induction cs generalizing u with
  | nil =>
    have h := Outcome.ok.inj h
    subst h
    exact ⟨hr, by simp [emptied_nil]⟩
  | cons c cs ih =>
    obtain ⟨v, hv, h⟩ := Outcome.bind_ok.1 h
    rw [emptied_cons hv]
    by_cases hf : c.Fires u
    · have hv' := hv
      rw [if_pos hf] at hv'
      obtain ⟨h1, h2⟩ := handle_selected hv' hr
      obtain ⟨h3, h4⟩ := ih h h1
      refine ⟨h3, h4.trans ?_⟩
      rw [h2]
      simp only [hf, true_and, or_assoc]
    · have hv' := hv
      rw [if_neg hf] at hv'
      have hv' := Outcome.ok.inj hv'
      subst hv'
      obtain ⟨h3, h4⟩ := ih h hr
      refine ⟨h3, h4.trans ?_⟩
      simp only [hf, false_and, false_or]

/-! ### The selection through a layout -/

/-- The user selects no tab while the frame is laid out. -/
def Quiet (u : Ui) (f : Frame) : Prop :=
  u.tabs = [] ∨ (f.right = false ∧ ∀ i ∈ f.tabClicks, u.tabs.length ≤ i)

theorem clickTabs_selected (l : List Nat) (u : Ui) (hr : -1 ≤ u.selected) :
    (l.foldl Ui.clickTab u).selected = -1 ↔ u.selected = -1 ∧ ∀ i ∈ l, u.tabs.length ≤ i := by
  induction l generalizing u with
  | nil => simp
  | cons i l ih =>
    rw [List.foldl_cons]
    by_cases hi : i < u.tabs.length
    · have hu : u.clickTab i = { u with selected := i } := if_pos hi
      rw [hu, ih _ (by dsimp only; omega)]
      dsimp only
      constructor
      · rintro ⟨h, -⟩; omega
      · rintro ⟨-, h⟩
        have := h i List.mem_cons_self
        omega
    · have hu : u.clickTab i = u := if_neg hi
      rw [hu, ih _ hr]
      simp only [List.mem_cons, forall_eq_or_imp]
      have : u.tabs.length ≤ i := by omega
      simp [this]

theorem layout_selected (f : Frame) (u : Ui) (hr : -1 ≤ u.selected) :
    (u.layout f).selected = -1 ↔ u.selected = -1 ∧ Quiet u f := by
  unfold Ui.layout Quiet
  dsimp only
  split
  · next h => simp [List.length_eq_zero_iff.1 h]
  · next h =>
    have hne : u.tabs ≠ [] := fun hh => h (by rw [hh]; rfl)
    have hpos : 0 < u.tabs.length := List.length_pos_iff.2 hne
    generalize hv : ({ u with
      radio := f.radioEdit.getD u.radio
      mnemonicField := f.mnemonicEdit.getD u.mnemonicField
      passphraseField := f.passphraseEdit.getD u.passphraseField
      seedField := f.seedEdit.getD u.seedField
      rootKeyField := f.rootKeyEdit.getD u.rootKeyField
      derivationField := f.derivationEdit.getD u.derivationField } : Ui) = v
    have hvs : v.selected = u.selected := by rw [← hv]
    have hvt : v.tabs = u.tabs := by rw [← hv]
    have hl : ∃ w : Ui, (if f.left then v.clickLeft else v) = w ∧ w.tabs = u.tabs ∧ -1 ≤ w.selected ∧
        (w.selected = -1 ↔ u.selected = -1) := by
      refine ⟨_, rfl, ?_⟩
      unfold Ui.clickLeft
      split
      · split <;> (try dsimp only) <;> rw [hvs] at * <;> refine ⟨hvt, by omega, by omega⟩
      · exact ⟨hvt, by omega, by omega⟩
    obtain ⟨w, hw, hwt, hwr, hws⟩ := hl
    rw [hw]
    have hrt : ∃ x : Ui, (if f.right then w.clickRight else w) = x ∧ x.tabs = u.tabs ∧ -1 ≤ x.selected ∧
        (x.selected = -1 ↔ u.selected = -1 ∧ f.right = false) := by
      refine ⟨_, rfl, ?_⟩
      unfold Ui.clickRight
      rw [hwt]
      split
      · next hf =>
        rw [hf]
        split
        · refine ⟨rfl, by dsimp only; omega, by dsimp only; simp; omega⟩
        · refine ⟨hwt, hwr, by simp; omega⟩
      · next hf => exact ⟨hwt, hwr, by simp [hws, hf]⟩
    obtain ⟨x, hx, hxt, hxr, hxs⟩ := hrt
    rw [hx, clickTabs_selected _ _ hxr, hxs, hxt]
    simp only [hne, false_or, and_assoc]

/-! ### C62 -/

/-- One frame: no tab is selected after it exactly if none was before or one of its checks left no tabs, and the user
selects none during its layout. -/
theorem C62_frame_iff {u v : Ui} {f : Frame} (hr : -1 ≤ u.selected)
    (hp : u.derivationPath = pathFormatted u.derivationStr) (hv : u.update H S R f.generate = .ok v) :
    (v.layout f).selected = -1 ↔
      (u.selected = -1 ∨ Emptied H S R (frameChecks f.generate) u) ∧ Quiet v f := by
  have hu : { u with derivationPath := pathFormatted u.derivationStr } = u := by rw [← hp]
  rw [update_eq_checks, hu] at hv
  obtain ⟨h1, h2⟩ := checks_selected hv hr
  rw [layout_selected f v h1, h2]

/-- In the frame `f` laid out in state `u` the user selects no tab. -/
def QuietFrame (H : Hashes) (S : WordState) (R : Registry) (u : Ui) (f : Frame) : Prop :=
  ∃ v, u.update H S R f.generate = .ok v ∧ Quiet v f

/-- In no frame of the list the user selects a tab. -/
def QuietRun (H : Hashes) (S : WordState) (R : Registry) (u : Ui) (fs : List Frame) : Prop :=
  ∀ pre f post v, fs = pre ++ f :: post → Ui.run H S R u pre = .ok v → QuietFrame H S R v f

/-- C62, exactly: no tab is selected after a history if and only if one of its frames rebuilt the tabs and had none, and the
user selected none since. In every other case one is selected, if there are any. -/
theorem C62_none_selected_iff {fs : List Frame} {u : Ui} (h : Ui.run H S R {} fs = .ok u) :
    (u.selected = -1 ↔ ∃ pre f post v, fs = pre ++ f :: post ∧ Ui.run H S R {} pre = .ok v ∧
      Emptied H S R (frameChecks f.generate) v ∧ QuietRun H S R v (f :: post)) ∧
    (u.tabs ≠ [] → ((∃ k, u.shown = .ok (some k)) ↔ u.selected ≠ -1)) := by
  constructor
  swap
  · intro ht
    have hr := (run_inv h (init_inv H S R)).range
    have hlt : u.selected < u.tabs.length := hr.2.resolve_right fun hh => ht hh.2
    obtain ⟨o, ho, hn, -⟩ := shown_ok u
    rw [ho]
    cases o with
    | none =>
      have := hn.1 rfl
      simp
      omega
    | some k =>
      have : ¬ ¬ (0 ≤ u.selected ∧ u.selected < u.tabs.length) := fun hh => by simpa using hn.2 hh
      have := not_not.1 this
      simp
      omega
  induction fs using List.reverseRecOn generalizing u with
  | nil =>
    have h := Outcome.ok.inj h
    subst h
    constructor
    · intro hh; exact absurd hh (by decide)
    · rintro ⟨pre, f, post, v, hh, -⟩; simp at hh
  | append_singleton fs g ih =>
    rw [run_append] at h
    obtain ⟨w, hw, h⟩ := Outcome.bind_ok.1 h
    obtain ⟨u', hu', h⟩ := Outcome.bind_ok.1 h
    have h := Outcome.ok.inj h
    subst h
    obtain ⟨v, hv, rfl⟩ := frame_ok.1 hu'
    have hi := run_inv hw (init_inv H S R)
    rw [C62_frame_iff hi.range.1 hi.path hv, ih hw]
    constructor
    · rintro ⟨⟨pre, f, post, x, rfl, hx, he, hq⟩ | he, hqv⟩
      · refine ⟨pre, f, post ++ [g], x, by simp, hx, he, ?_⟩
        intro pre' f' post' y hs hy
        rw [← List.cons_append] at hs
        rcases List.eq_nil_or_concat post' with rfl | ⟨p, a, rfl⟩
        · have hs' : f :: post ++ [g] = pre' ++ [f'] := hs
          obtain ⟨h1, h2⟩ := List.append_inj' hs' rfl
          simp only [List.cons.injEq, and_true] at h2
          subst h1 h2
          have hwy : Ui.run H S R {} (pre ++ f :: post) = .ok y := by
            rw [run_append, hx]; exact hy
          rw [hw] at hwy
          rw [← Outcome.ok.inj hwy]
          exact ⟨v, hv, hqv⟩
        · have hs' : f :: post ++ [g] = (pre' ++ f' :: p) ++ [a] := by rw [hs]; simp
          obtain ⟨h1, -⟩ := List.append_inj' hs' rfl
          exact hq pre' f' p y h1 hy
      · refine ⟨fs, g, [], w, by simp, hw, he, ?_⟩
        intro pre' f' post' y hs hy
        cases pre' with
        | nil =>
          simp only [List.nil_append, List.cons.injEq] at hs
          rw [← hs.1, ← Outcome.ok.inj hy]
          exact ⟨v, hv, hqv⟩
        | cons a l => simp at hs
    · rintro ⟨pre, f, post, x, hs, hx, he, hq⟩
      rcases List.eq_nil_or_concat post with rfl | ⟨p, a, rfl⟩
      · obtain ⟨h1, h2⟩ := List.append_inj' hs rfl
        simp only [List.cons.injEq, and_true] at h2
        subst h1 h2
        rw [hw] at hx
        have hx := Outcome.ok.inj hx
        subst hx
        refine ⟨.inr he, ?_⟩
        obtain ⟨v', hv', hq'⟩ := hq [] g [] w rfl rfl
        rw [hv] at hv'
        rw [Outcome.ok.inj hv']
        exact hq'
      · have hs' : fs ++ [g] = (pre ++ f :: p) ++ [a] := by rw [hs]; simp
        obtain ⟨h1, h2⟩ := List.append_inj' hs' rfl
        simp only [List.cons.injEq, and_true] at h2
        subst h1 h2
        refine ⟨.inl ⟨pre, f, p, x, rfl, hx, he, ?_⟩, ?_⟩
        · intro pre' f' post' y hs hy
          exact hq pre' f' (post' ++ [g]) y (by
            rw [List.concat_eq_append, ← List.cons_append, hs]; simp) hy
        · have hwy : Ui.run H S R x (f :: p) = .ok w := by
            have := hw
            rw [run_append, hx] at this
            exact this
          obtain ⟨v', hv', hq'⟩ := hq (f :: p) g [] w (by simp) hwy
          rw [hv] at hv'
          rw [Outcome.ok.inj hv']
          exact hq'

/-- Both sides occur: with the passphrase changed before a root key is typed no tab is selected, and (by the theorem) that is
because a rebuild of the tabs left none; -/
example (k : Key) (hk : GoodRoot k) : ∃ u, Ui.run H S R {}
      [{ passphraseEdit := some (str "x") }, {}, { rootKeyEdit := some (k.string H) }, {}] = .ok u ∧ u.tabs ≠ [] ∧
    ∃ pre f post v, [{ passphraseEdit := some (str "x") }, {}, { rootKeyEdit := some (k.string H) }, {}] =
      pre ++ f :: post ∧ Ui.run H S R {} pre = .ok v ∧
      Emptied H S R (frameChecks f.generate) v ∧ QuietRun H S R v (f :: post) := by
  obtain ⟨u, h, ht, hs, -⟩ := C62_nothing_selected H S R k hk
  exact ⟨u, h, by rw [ht]; simp, (C62_none_selected_iff h).1.1 hs⟩

/-- typed at once, it is shown. -/
example (k : Key) (hk : GoodRoot k) : ∃ u, Ui.run H S R {} [{ rootKeyEdit := some (k.string H) }, {}] = .ok u ∧
    u.tabs ≠ [] ∧ ∃ k', u.shown = .ok (some k') := by
  have h := run_rootKey_edit (H := H) (S := S) (R := R) (u := {}) rfl initial_synced (k.string H) (string_ne_nil hk)
  rw [type_rootKey (u := { ({} : Ui) with rootKeyField := k.string H }) rfl hk rfl] at h
  refine ⟨_, h, by simp, ?_⟩
  refine ((C62_none_selected_iff h).2 (by simp)).2 ?_
  simp

end Bips
