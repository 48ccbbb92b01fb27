import Verif.Props.Browse

/-!
# C110: what is on the screen is enough to get it back

The keys shown depend on the texts in the fields only, not on how they came there; and typing these texts into another window,
whatever it shows, leads to the same keys.
-/

namespace Bips
open Spec

variable {H : Hashes} {S : WordState} {R : Registry}

theorem currentPath_of_text {fs gs : List Frame} {u v : Ui} (hu : Ui.run H S R {} fs = .ok u) (hv : Ui.run H S R {} gs = .ok v)
    (hp : pathString v.derivationStr = pathString u.derivationStr) : v.currentPath = u.currentPath := by
  rw [Ui.currentPath, Ui.currentPath, (run_inv hu (init_inv _ _ _)).path, (run_inv hv (init_inv _ _ _)).path, pathFormatted,
    pathFormatted, hp]

/-- **C110**, the texts decide. Two windows, whatever was done in them before, with the same path but for white space:
if both have the same seed, the text of the root key and all tabs are the same; if both have the same mnemonic and
passphrase, the seed as well; and if both have the same root key text, and it is one that is accepted, the tabs. -/
theorem C110_texts_decide {fs gs : List Frame} {u v : Ui} (hu : Ui.run H S R {} fs = .ok u) (hv : Ui.run H S R {} gs = .ok v)
    (hp : stripSpace v.derivationStr = stripSpace u.derivationStr) :
    (u.mnemonic ≠ [] → v.mnemonic = u.mnemonic → v.passphrase = u.passphrase →
      v.seed = u.seed ∧ v.rootKeyStr = u.rootKeyStr ∧ v.tabs = u.tabs) ∧
    (u.seed ≠ [] → v.seed = u.seed → v.rootKeyStr = u.rootKeyStr ∧ v.tabs = u.tabs) ∧
    ((b58Deserialize H u.rootKeyStr).2 = none → v.rootKeyStr = u.rootKeyStr → v.tabs = u.tabs) := by
  have hc := currentPath_of_text hu hv (by rw [pathString_eq, pathString_eq, hp])
  have hseed : (u.mnemonic ≠ [] ∨ u.seed ≠ []) → (v.mnemonic ≠ [] ∨ v.seed ≠ []) → v.seed = u.seed →
      v.rootKeyStr = u.rootKeyStr ∧ v.tabs = u.tabs := by
    intro h1 h2 e
    obtain ⟨⟨_, a1⟩, a2, a3⟩ := (C65_chain hu).2 h1
    obtain ⟨⟨_, b1⟩, b2, b3⟩ := (C65_chain hv).2 h2
    rw [e, a1] at b1
    have : u.rootKey = v.rootKey := (Prod.mk.inj (Outcome.ok.inj b1)).1
    exact ⟨by rw [a2, b2, this], by rw [a3, b3, this, hc]⟩
  refine ⟨fun hm e1 e2 => ?_, fun hs e => hseed (.inr hs) (.inr (by rwa [e])) e, fun hk e => ?_⟩
  · obtain ⟨_, a⟩ := (C65_chain hu).1 hm
    obtain ⟨_, b⟩ := (C65_chain hv).1 (by rwa [e1])
    rw [e1, e2, a] at b
    have : u.seed = v.seed := (Prod.mk.inj (Outcome.ok.inj b)).1
    exact ⟨this.symm, hseed (.inl hm) (.inl (by rwa [e1])) this.symm⟩
  · rcases C60_tabs_partial hu with ⟨a1, a2⟩ | ⟨-, a2⟩
    · rcases C60_tabs_partial hv with ⟨b1, b2⟩ | ⟨-, b2⟩
      · have hz : ∀ k : Key, (b58Deserialize H (k.string H)).2 = none → k.bytes ≠ List.replicate 78 0 := by
          intro k h0 h
          rw [show k = Key.zero from Key.ext' h, string_zero] at h0
          have := (C15_deserialize_exact H (b58Decode [])).1.1 h0
          revert this
          rw [show (b58Decode ([] : Bytes)) = [] by decide +kernel]
          simp
        have c1 := C16_base58_roundtrip H u.rootKey (hz _ (by rw [← a2]; exact hk))
        have c2 := C16_base58_roundtrip H v.rootKey (hz _ (by rw [← b2, e]; exact hk))
        rw [← a2] at c1
        rw [← b2, e, c1] at c2
        rw [a1, b1, hc, (Prod.mk.inj c2).1]
      · rw [e] at b2; exact absurd hk b2
    · exact absurd hk a2

/-! ### Typing -/

/-- The user makes the edits one after the other, and waits for the window each time. -/
def typed : List Frame → List Frame
  | [] => []
  | f :: fs => f :: {} :: typed fs

/-- A window somebody used before and that is at rest. -/
def Used (H : Hashes) (S : WordState) (R : Registry) (w : Ui) : Prop := (∃ gs, Ui.run H S R {} gs = .ok w) ∧ w.Synced

theorem typed_cons {w v v' : Ui} {f : Frame} {fs : List Frame} (h : Ui.run H S R w [f, {}] = .ok v)
    (h' : Ui.run H S R v (typed fs) = .ok v') : Ui.run H S R w (typed (f :: fs)) = .ok v' := by
  rw [show typed (f :: fs) = [f, {}] ++ typed fs from rfl, run_append, h]
  exact h'

/-- An edit and a frame without input. -/
theorem step_run {w v : Ui} (hw : Used H S R w) {f : Frame} (hg : f.generate = none)
    (h : (w.layout f).update H S R none = .ok v) : Ui.run H S R w [f, {}] = .ok v ∧ Used H S R v := by
  obtain ⟨⟨gs, hr⟩, hs⟩ := hw
  have h1 : w.frame H S R f = .ok (w.layout f) :=
    frame_ok.2 ⟨w, by rw [hg]; exact update_idle (run_inv hr (init_inv _ _ _)).path hs, rfl⟩
  have h2 : (w.layout f).frame H S R {} = .ok v := frame_ok.2 ⟨v, h, (layout_idle v).symm⟩
  have h3 : Ui.run H S R w [f, {}] = .ok v :=
    Outcome.bind_ok.2 ⟨_, h1, Outcome.bind_ok.2 ⟨_, h2, rfl⟩⟩
  exact ⟨h3, ⟨gs ++ [f, {}], by rw [run_append, hr]; exact h3⟩, update_synced h⟩

/-- The last two checks of a frame, with nothing to do. -/
theorem tail_idle (x : Ui) (h1 : x.rootKeyStr = x.rootKeyField) (h2 : pathString x.derivationField = pathString x.derivationStr) :
    (let u := if x.rootKeyStr ≠ x.rootKeyField then x.onRootKeyStrChange H R else x
     let u := if pathString u.derivationField ≠ pathString u.derivationStr then u.onDerivationPathChange H R else u
     Outcome.ok u) = .ok x := by
  dsimp only
  rw [if_neg (not_not.2 h1), if_neg (not_not.2 h2)]

section
variable {w : Ui} (hw : Used H S R w)
include hw

theorem Used.path : w.derivationPath = pathFormatted w.derivationStr :=
  let ⟨⟨_, h⟩, _⟩ := hw
  (run_inv h (init_inv _ _ _)).path

theorem Used.range : -1 ≤ w.selected :=
  let ⟨⟨_, h⟩, _⟩ := hw
  (run_inv h (init_inv _ _ _)).range.1

theorem type_path (p : Bytes) : ∃ v, Ui.run H S R w [{ derivationEdit := some p }, {}] = .ok v ∧ Used H S R v ∧
    pathString v.derivationStr = pathString p ∧ v.mnemonic = w.mnemonic ∧ v.passphrase = w.passphrase ∧ v.seed = w.seed ∧
    v.rootKey = w.rootKey ∧ (w.rootKeyStr = w.rootKey.string H → v.rootKeyStr = w.rootKeyStr) := by
  have hs := hw.2
  have hl : w.layout { derivationEdit := some p } = { w with derivationField := p } := by
    unfold Ui.layout; simp
  have hu : { ({ w with derivationField := p } : Ui) with derivationPath := pathFormatted w.derivationStr } =
      ({ w with derivationField := p } : Ui) := by rw [← hw.path]
  have h1 : ({ w with derivationField := p } : Ui).update H S R none = .ok
      (if pathString p ≠ pathString w.derivationStr then ({ w with derivationField := p } : Ui).onDerivationPathChange H R
        else { w with derivationField := p }) := by
    unfold Ui.update
    dsimp only at hu ⊢
    rw [hu]
    refine Outcome.bind_ok.2 ⟨_, rfl, ?_⟩
    refine Outcome.bind_ok.2 ⟨{ w with derivationField := p }, by rw [if_neg (by simpa using hs.mnemonic)], ?_⟩
    refine Outcome.bind_ok.2 ⟨{ w with derivationField := p }, by rw [if_neg (by simpa using hs.passphrase)], ?_⟩
    refine Outcome.bind_ok.2 ⟨{ w with derivationField := p }, by rw [if_neg (by simpa using hs.seed)], ?_⟩
    rw [if_neg (show ¬ ({ w with derivationField := p } : Ui).rootKeyStr ≠ ({ w with derivationField := p } : Ui).rootKeyField by
      simpa using hs.rootKey.symm)]
  obtain ⟨r1, r2⟩ := step_run hw rfl (by rw [hl]; exact h1)
  refine ⟨_, r1, r2, ?_⟩
  split
  · exact ⟨rfl, rfl, rfl, rfl, rfl, fun h => h.symm⟩
  · next h => exact ⟨(not_not.1 h).symm, rfl, rfl, rfl, rfl, fun _ => rfl⟩

theorem type_seed (t : Bytes) {k : Key} {e : Option Err} (hk : rootKeyFromSeed H t = .ok (k, e)) :
    ∃ v, Ui.run H S R w [{ seedEdit := some t }, {}] = .ok v ∧ Used H S R v ∧ v.seed = t := by
  have hs := hw.2
  have hl : w.layout { seedEdit := some t } = { w with seedField := t } := by
    unfold Ui.layout; simp
  have hu : { ({ w with seedField := t } : Ui) with derivationPath := pathFormatted w.derivationStr } =
      ({ w with seedField := t } : Ui) := by rw [← hw.path]
  obtain ⟨x, hx, x1, x2, x3, x4⟩ : ∃ x, ({ w with seedField := t } : Ui).onSeedChange H R = .ok x ∧
      x.seed = t ∧ x.rootKeyStr = x.rootKeyField ∧ x.derivationField = w.derivationField ∧ x.derivationStr = w.derivationStr := by
    unfold Ui.onSeedChange Ui.rootFromSeed
    exact ⟨_, Outcome.bind_ok.2 ⟨_, hk, rfl⟩, rfl, rfl, rfl, rfl⟩
  have h1 : ({ w with seedField := t } : Ui).update H S R none = .ok (if t ≠ w.seed then x else { w with seedField := t }) := by
    unfold Ui.update
    dsimp only at hu ⊢
    rw [hu]
    refine Outcome.bind_ok.2 ⟨_, rfl, ?_⟩
    refine Outcome.bind_ok.2 ⟨{ w with seedField := t }, by rw [if_neg (by simpa using hs.mnemonic)], ?_⟩
    refine Outcome.bind_ok.2 ⟨{ w with seedField := t }, by rw [if_neg (by simpa using hs.passphrase)], ?_⟩
    refine Outcome.bind_ok.2 ⟨if t ≠ w.seed then x else { w with seedField := t }, ?_, ?_⟩
    · show (if t ≠ w.seed then _ else _) = _
      split
      · exact hx
      · rfl
    · split
      · exact tail_idle x x2 (by rw [x3, x4]; exact hs.derivation)
      · exact tail_idle _ hs.rootKey.symm hs.derivation
  obtain ⟨r1, r2⟩ := step_run hw rfl (by rw [hl]; exact h1)
  refine ⟨_, r1, r2, ?_⟩
  split
  · exact x1
  · next h => exact (not_not.1 h).symm

theorem type_mnemonic (t : Bytes) {seed : Bytes} {e e' : Option Err} {k : Key}
    (hd : deriveSeedFromMnemonic H S t w.passphrase = .ok (seed, e)) (hk : rootKeyFromSeed H seed = .ok (k, e')) :
    ∃ v, Ui.run H S R w [{ mnemonicEdit := some t }, {}] = .ok v ∧ Used H S R v ∧ v.mnemonic = t ∧
      v.passphrase = w.passphrase := by
  have hs := hw.2
  have hl : w.layout { mnemonicEdit := some t } = { w with mnemonicField := t } := by
    unfold Ui.layout; simp
  have hu : { ({ w with mnemonicField := t } : Ui) with derivationPath := pathFormatted w.derivationStr } =
      ({ w with mnemonicField := t } : Ui) := by rw [← hw.path]
  obtain ⟨x, hx, x1, x2, x3, x4, x5, x6, x7⟩ : ∃ x, ({ w with mnemonicField := t } : Ui).onMnemonicChange H S R = .ok x ∧
      x.mnemonic = t ∧ x.rootKeyStr = x.rootKeyField ∧ x.derivationField = w.derivationField ∧
      x.derivationStr = w.derivationStr ∧ x.passphrase = w.passphrase ∧ x.passphraseField = w.passphraseField ∧
      x.seedField = x.seed := by
    unfold Ui.onMnemonicChange Ui.rootFromSeed
    exact ⟨_, Outcome.bind_ok.2 ⟨_, hd, Outcome.bind_ok.2 ⟨_, hk, rfl⟩⟩, rfl, rfl, rfl, rfl, rfl, rfl, rfl⟩
  have h1 : ({ w with mnemonicField := t } : Ui).update H S R none =
      .ok (if t ≠ w.mnemonic then x else { w with mnemonicField := t }) := by
    unfold Ui.update
    dsimp only at hu ⊢
    rw [hu]
    refine Outcome.bind_ok.2 ⟨_, rfl, ?_⟩
    refine Outcome.bind_ok.2 ⟨if t ≠ w.mnemonic then x else { w with mnemonicField := t }, ?_, ?_⟩
    · show (if t ≠ w.mnemonic then _ else _) = _
      split
      · exact hx
      · rfl
    · split
      · refine Outcome.bind_ok.2 ⟨x, by rw [if_neg (by rw [x5, x6]; simpa using hs.passphrase)], ?_⟩
        refine Outcome.bind_ok.2 ⟨x, by rw [if_neg (by simp [x7])], ?_⟩
        exact tail_idle x x2 (by rw [x3, x4]; exact hs.derivation)
      · refine Outcome.bind_ok.2 ⟨{ w with mnemonicField := t }, by rw [if_neg (by simpa using hs.passphrase)], ?_⟩
        refine Outcome.bind_ok.2 ⟨{ w with mnemonicField := t }, by rw [if_neg (by simpa using hs.seed)], ?_⟩
        exact tail_idle _ hs.rootKey.symm hs.derivation
  obtain ⟨r1, r2⟩ := step_run hw rfl (by rw [hl]; exact h1)
  refine ⟨_, r1, r2, ?_⟩
  split
  · exact ⟨x1, x5⟩
  · next h => exact ⟨(not_not.1 h).symm, rfl⟩

theorem type_passphrase (hm : w.mnemonic = []) (t : Bytes) :
    ∃ v, Ui.run H S R w [{ passphraseEdit := some t }, {}] = .ok v ∧ Used H S R v ∧ v.passphrase = t ∧ v.mnemonic = [] := by
  have hs := hw.2
  have hl : w.layout { passphraseEdit := some t } = { w with passphraseField := t } := by
    unfold Ui.layout; simp
  have hu : { ({ w with passphraseField := t } : Ui) with derivationPath := pathFormatted w.derivationStr } =
      ({ w with passphraseField := t } : Ui) := by rw [← hw.path]
  obtain ⟨x, hx, x1, x2, x3, x4, x5, x6⟩ :
      ∃ x, ({ w with passphraseField := t } : Ui).onMnemonicPassphraseChange H S R = .ok x ∧
      x.mnemonic = [] ∧ x.rootKeyStr = x.rootKeyField ∧ x.derivationField = w.derivationField ∧
      x.derivationStr = w.derivationStr ∧ x.passphrase = t ∧ x.seedField = x.seed :=
    ⟨_, passphrase_wipes (H := H) (S := S) (R := R) (u := { w with passphraseField := t }) hm hw.range, hm, rfl, rfl, rfl, rfl,
      rfl⟩
  have h1 : ({ w with passphraseField := t } : Ui).update H S R none =
      .ok (if t ≠ w.passphrase then x else { w with passphraseField := t }) := by
    unfold Ui.update
    dsimp only at hu ⊢
    rw [hu]
    refine Outcome.bind_ok.2 ⟨_, rfl, ?_⟩
    refine Outcome.bind_ok.2 ⟨{ w with passphraseField := t }, by rw [if_neg (by simpa using hs.mnemonic)], ?_⟩
    refine Outcome.bind_ok.2 ⟨if t ≠ w.passphrase then x else { w with passphraseField := t }, ?_, ?_⟩
    · show (if t ≠ w.passphrase then _ else _) = _
      split
      · exact hx
      · rfl
    · split
      · refine Outcome.bind_ok.2 ⟨x, by rw [if_neg (by simp [x6])], ?_⟩
        exact tail_idle x x2 (by rw [x3, x4]; exact hs.derivation)
      · refine Outcome.bind_ok.2 ⟨{ w with passphraseField := t }, by rw [if_neg (by simpa using hs.seed)], ?_⟩
        exact tail_idle _ hs.rootKey.symm hs.derivation
  obtain ⟨r1, r2⟩ := step_run hw rfl (by rw [hl]; exact h1)
  refine ⟨_, r1, r2, ?_⟩
  split
  · exact ⟨x5, x1⟩
  · next h => exact ⟨(not_not.1 h).symm, hm⟩

theorem type_rootKey' {k : Key} (hk : k.bytes ≠ List.replicate 78 0) :
    ∃ v, Ui.run H S R w [{ rootKeyEdit := some (k.string H) }, {}] = .ok v ∧ Used H S R v ∧ v.rootKeyStr = k.string H ∧
      v.rootKey = k := by
  have hs := hw.2
  have h16 := C16_base58_roundtrip H k hk
  by_cases ht : k.string H = w.rootKeyStr
  · have hl : w.layout { rootKeyEdit := some (k.string H) } = w := by
      unfold Ui.layout
      rw [show k.string H = w.rootKeyField from ht.trans hs.rootKey.symm]
      simp
    obtain ⟨r1, r2⟩ := step_run hw (f := { rootKeyEdit := some (k.string H) }) rfl (by rw [hl]; exact update_idle hw.path hs)
    refine ⟨_, r1, r2, ht.symm, ?_⟩
    obtain ⟨gs, hr⟩ := hw.1
    rcases C60_tabs_partial hr with ⟨-, a⟩ | ⟨-, a⟩
    · by_cases hz : w.rootKey.bytes = List.replicate 78 0
      · rw [show w.rootKey = Key.zero from Key.ext' hz, string_zero] at a
        rw [ht, a] at h16
        have := (C15_deserialize_exact H (b58Decode [])).1.1 (congrArg Prod.snd h16)
        revert this
        rw [show (b58Decode ([] : Bytes)) = [] by decide +kernel]
        simp
      · have := C16_base58_roundtrip H w.rootKey hz
        rw [← a, ← ht, h16] at this
        exact (Prod.mk.inj this).1.symm
    · rw [← ht, h16] at a
      exact absurd rfl a
  · have h1 := run_rootKey_edit (H := H) (S := S) (R := R) hw.path hs (k.string H) ht
    have h2 : ({ w with rootKeyField := k.string H }.onRootKeyStrChange H R : Ui).rootKeyStr = k.string H ∧
        ({ w with rootKeyField := k.string H }.onRootKeyStrChange H R : Ui).rootKey = k := by
      unfold Ui.onRootKeyStrChange
      dsimp only
      rw [h16]
      exact ⟨rfl, rfl⟩
    refine ⟨_, h1, ⟨?_, ?_⟩, h2⟩
    · obtain ⟨gs, hr⟩ := hw.1
      exact ⟨gs ++ [({ rootKeyEdit := some (k.string H) } : Frame), ({} : Frame)], by rw [run_append, hr]; exact h1⟩
    · obtain ⟨y, -, h3⟩ := Outcome.bind_ok.1 h1
      obtain ⟨z, hz, h4⟩ := Outcome.bind_ok.1 h3
      have h4 : z = _ := Outcome.ok.inj h4
      obtain ⟨x, hx, hv⟩ := frame_ok.1 hz
      rw [layout_idle] at hv
      rw [← h4, hv]
      exact update_synced hx

end

/-- The wallet of one window is there in the other. -/
def SameWallet (u v : Ui) : Prop := v.seed = u.seed ∧ v.rootKeyStr = u.rootKeyStr ∧ v.tabs = u.tabs

section
variable {fs : List Frame} {u w : Ui} (hu : Ui.run H S R {} fs = .ok u) (hw : Used H S R w) {p : Bytes}
  (hp : stripSpace p = stripSpace u.derivationStr)
include hu hw hp

/-- **C110**, the mnemonic: clearing the mnemonic of a used window and typing passphrase, mnemonic and path of another one
gives its seed, its root key and all its keys. -/
theorem C110_mnemonic (hm : u.mnemonic ≠ []) :
    ∃ v, Ui.run H S R w (typed [{ mnemonicEdit := some [] }, { passphraseEdit := some u.passphrase },
      { mnemonicEdit := some u.mnemonic }, { derivationEdit := some p }]) = .ok v ∧ v.mnemonic = u.mnemonic ∧
      SameWallet u v := by
  obtain ⟨v1, a1, b1, c1, -⟩ := type_mnemonic hw [] (seed := []) (e := some .invalidMnemonic) rfl
    (show rootKeyFromSeed H [] = .ok (Key.zero, some .invalidBIP39Seed) from rfl)
  obtain ⟨v2, a2, b2, c2, -⟩ := type_passphrase b1 c1 u.passphrase
  obtain ⟨e, hd⟩ := (C65_chain hu).1 hm
  obtain ⟨⟨e', hk⟩, -, -⟩ := (C65_chain hu).2 (.inl hm)
  obtain ⟨v3, a3, b3, c3, d3⟩ := type_mnemonic b2 u.mnemonic (by rw [c2]; exact hd) hk
  obtain ⟨v4, a4, b4, c4, d4, e4, -⟩ := type_path b3 p
  obtain ⟨⟨gs, hr⟩, -⟩ := b4
  rw [pathString_eq, pathString_eq, hp] at c4
  refine ⟨v4, typed_cons a1 (typed_cons a2 (typed_cons a3 (typed_cons a4 rfl))), d4.trans c3, ?_⟩
  exact (C110_texts_decide hu hr c4).1 hm (d4.trans c3) (e4.trans (d3.trans c2))

/-- **C110**, the seed: typing the seed and the path gives the root key and all keys. -/
theorem C110_seed (hs : u.seed ≠ []) :
    ∃ v, Ui.run H S R w (typed [{ seedEdit := some u.seed }, { derivationEdit := some p }]) = .ok v ∧ SameWallet u v := by
  obtain ⟨⟨e', hk⟩, -, -⟩ := (C65_chain hu).2 (.inr hs)
  obtain ⟨v3, a3, b3, c3⟩ := type_seed hw u.seed hk
  obtain ⟨v4, a4, b4, c4, -, -, e4, -⟩ := type_path b3 p
  obtain ⟨⟨gs, hr⟩, -⟩ := b4
  rw [pathString_eq, pathString_eq, hp] at c4
  exact ⟨v4, typed_cons a3 (typed_cons a4 rfl), e4.trans c3, (C110_texts_decide hu hr c4).2.1 hs (e4.trans c3)⟩

/-- **C110**, the root key: whenever there are tabs and the text of the root key was not refused, typing that text and the path
gives all keys. -/
theorem C110_root (hk : (b58Deserialize H u.rootKeyStr).2 = none) :
    ∃ v, Ui.run H S R w (typed [{ rootKeyEdit := some u.rootKeyStr }, { derivationEdit := some p }]) = .ok v ∧
      v.rootKeyStr = u.rootKeyStr ∧ v.tabs = u.tabs := by
  rcases C60_tabs_partial hu with ⟨-, a⟩ | ⟨-, a⟩
  · have hz : u.rootKey.bytes ≠ List.replicate 78 0 := by
      intro hz
      rw [a, show u.rootKey = Key.zero from Key.ext' hz, string_zero] at hk
      have := (C15_deserialize_exact H (b58Decode [])).1.1 hk
      revert this
      rw [show (b58Decode ([] : Bytes)) = [] by decide +kernel]
      simp
    obtain ⟨v3, a3, b3, c3, d3⟩ := type_rootKey' hw hz
    rw [← a] at a3 c3
    obtain ⟨v4, a4, b4, c4, -, -, -, -, e4⟩ := type_path b3 p
    obtain ⟨⟨gs, hr⟩, -⟩ := b4
    rw [pathString_eq, pathString_eq, hp] at c4
    have e4 := (e4 (by rw [c3, d3, a])).trans c3
    exact ⟨v4, typed_cons a3 (typed_cons a4 rfl), e4, (C110_texts_decide hu hr c4).2.2 hk e4⟩
  · exact absurd hk a

end

/-- Windows as in C110: one with a mnemonic, whichever it is, and six keys, which also has a seed and an accepted root key, and
one that shows another root key. -/
example (order : List (Bytes × List VersionBytes)) (ho : order.Perm pathTable) {l : List Bytes} (hg : GoodList l) (m : Bytes)
    (hm : isMnemonicValid (hashesIL 5) (setWordList l) m = .ok true) :
    ∃ fs u w, Ui.run (hashesIL 5) (setWordList l) (Registry.init order) {} fs = .ok u ∧ u.mnemonic = m ∧ u.mnemonic ≠ [] ∧
      u.seed ≠ [] ∧ (b58Deserialize (hashesIL 5) u.rootKeyStr).2 = none ∧ u.tabs.length = 6 ∧
      Used (hashesIL 5) (setWordList l) (Registry.init order) w ∧ w.tabs = [⟨str "m", xprvKey 7⟩] := by
  obtain ⟨t, h1, h2, h3⟩ := seed_of_mnemonic (hashesIL 5) hg [] hm
  have hp : parse256 (((hashesIL 5).hmacSha512 (str "Bitcoin seed") (bip39Seed (hashesIL 5).hmacSha512 m [])).take 32) = 5 := by
    rw [hashesIL_take]; decide +kernel
  obtain ⟨n0, h0⟩ : ∃ n0, masterNode (hashesIL 5).hmacSha512 (bip39Seed (hashesIL 5).hmacSha512 m []) = some n0 := by
    unfold masterNode
    dsimp only
    rw [hp, if_neg (by decide)]
    exact ⟨_, rfl⟩
  obtain ⟨k, h4, h5⟩ := masterNode_root (hashesIL 5) h2 (by omega) h0
  have hne : m ≠ [] := by rintro rfl; cases hm
  obtain ⟨u, u1, u2, u3, u4, -⟩ := run_wallet (hashesIL 5) (setWordList l) (Registry.init order) hne h1 h4
    (p := str "m/44'/0'/0' /0/7") (by decide +kernel) 5
  have hw := C71_tabs (hashesIL 5) order ho hg u1 (by rw [u2]; exact hm) bip44Comps
    (.inl ⟨by rw [u4]; exact bip44_text, by decide +kernel⟩) n0 (by rw [u2, u3]; exact h0)
  obtain ⟨⟨e, c1⟩, c2, -⟩ := (C65_chain u1).2 (.inl (by rw [u2]; exact hne))
  obtain ⟨e', c3⟩ := (C65_chain u1).1 (by rw [u2]; exact hne)
  rw [u2, u3, h1] at c3
  obtain rfl : t = u.seed := (Prod.mk.inj (Outcome.ok.inj c3)).1
  obtain rfl : k = u.rootKey := (Prod.mk.inj (Outcome.ok.inj (h4.symm.trans c1))).1
  have h7 : ∀ k' : Key, GoodRoot k' →
      ∃ w, Used (hashesIL 5) (setWordList l) (Registry.init order) w ∧ w.tabs = [⟨str "m", k'⟩] := by
    intro k' hk'
    have h7 := run_rootKey_edit (H := hashesIL 5) (S := setWordList l) (R := Registry.init order) (u := {}) rfl initial_synced
      (k'.string (hashesIL 5)) (string_ne_nil hk')
    rw [type_rootKey rfl hk' rfl] at h7
    exact ⟨_, ⟨⟨_, h7⟩, ⟨rfl, rfl, rfl, rfl, rfl⟩⟩, rfl⟩
  obtain ⟨w, w1, w2⟩ := h7 _ (goodRoot_xprvKey 7)
  refine ⟨_, u, w, u1, u2, by rw [u2]; exact hne, ?_, ?_, hw.1, w1, w2⟩
  · intro e
    rw [e] at h2
    generalize bip39Seed (hashesIL 5).hmacSha512 m [] = b at h2 h3
    have : b = [] := (Option.some.inj (h2.symm.trans (show hexDecode [] = some [] from rfl)))
    rw [this] at h3
    simp at h3
  · rw [c2, C16_base58_roundtrip (hashesIL 5) u.rootKey]
    intro e
    have hv := h5.version
    rw [show u.rootKey = Key.zero from Key.ext' e] at hv
    revert hv
    decide +kernel

end Bips
