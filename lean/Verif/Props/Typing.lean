import Verif.Props.Restore

/-!
# C111: every edit and every click takes effect

What the window is after an edit of one of its five fields, or after a click on the button that makes a mnemonic, exactly.
-/

namespace Bips
open Spec

variable {H : Hashes} {S : WordState} {R : Registry}

/-- The window `w` with another root key: its text, its keys, and the old tab selected, or the last one if there are fewer now. -/
def withRoot (H : Hashes) (R : Registry) (w : Ui) (k : Key) : Ui :=
  let tabs := (deriveBIP32Result H R k w.currentPath).1
  { w with rootKey := k, rootKeyStr := k.string H, rootKeyField := k.string H, tabs := tabs,
           selected := min w.selected ((tabs.length : Int) - 1) }

theorem keyPathChange_eq (w : Ui) : w.onKeyPathChange H R =
    { w with tabs := (deriveBIP32Result H R w.rootKey w.currentPath).1,
             selected := min w.selected (((deriveBIP32Result H R w.rootKey w.currentPath).1.length : Int) - 1) } := by
  unfold Ui.onKeyPathChange
  dsimp only
  have : (if w.selected ≥ ((deriveBIP32Result H R w.rootKey w.currentPath).1.length : Int) then
      ((deriveBIP32Result H R w.rootKey w.currentPath).1.length : Int) - 1 else w.selected) =
      min w.selected (((deriveBIP32Result H R w.rootKey w.currentPath).1.length : Int) - 1) := by
    split <;> omega
  rw [← this]

theorem rootFromSeed_eq (w : Ui) : w.rootFromSeed H R = (rootKeyFromSeed H w.seed).bind fun (k, _) => .ok (withRoot H R w k) := by
  unfold Ui.rootFromSeed
  congr 1
  funext ⟨k, e⟩
  dsimp only
  rw [keyPathChange_eq]
  rfl

theorem bind_assoc' {α β γ : Type} (x : Outcome α) (f : α → Outcome β) (g : β → Outcome γ) :
    (x.bind f).bind g = x.bind fun a => (f a).bind g := by cases x <;> rfl

/-- A frame with an edit and one without input. -/
theorem run_edit {w : Ui} (hw : Used H S R w) {f : Frame} (hg : f.generate = none) :
    Ui.run H S R w [f, {}] = (w.layout f).update H S R none := by
  obtain ⟨⟨gs, hr⟩, hs⟩ := hw
  have h1 : w.frame H S R f = .ok (w.layout f) :=
    frame_ok.2 ⟨w, by rw [hg]; exact update_idle (run_inv hr (init_inv _ _ _)).path hs, rfl⟩
  rw [Ui.run, h1]
  show Outcome.bind (Ui.frame H S R (w.layout f) {}) _ = _
  cases h : (w.layout f).update H S R none with
  | ok v => rw [frame_ok.2 ⟨v, h, (layout_idle v).symm⟩]; rfl
  | panic =>
    have : (w.layout f).frame H S R {} = .panic := by
      unfold Ui.frame
      rw [h]
      rfl
    rw [this]
    rfl

section
variable {w : Ui} (hw : Used H S R w)
include hw

/-- **C111**, the mnemonic. -/
theorem C111_mnemonic (t : Bytes) (ht : t ≠ w.mnemonic) :
    Ui.run H S R w [{ mnemonicEdit := some t }, {}] =
      (deriveSeedFromMnemonic H S t w.passphrase).bind fun (seed, _) => (rootKeyFromSeed H seed).bind fun (k, _) =>
        .ok (withRoot H R { w with mnemonic := t, mnemonicField := t, seed := seed, seedField := seed } k) := by
  have hs := hw.2
  rw [run_edit hw rfl]
  have hl : w.layout { mnemonicEdit := some t } = { w with mnemonicField := t } := by
    unfold Ui.layout; simp
  have hu : { ({ w with mnemonicField := t } : Ui) with derivationPath := pathFormatted w.derivationStr } =
      ({ w with mnemonicField := t } : Ui) := by rw [← hw.path]
  rw [hl]
  unfold Ui.update
  dsimp only at hu ⊢
  rw [hu]
  show Outcome.bind (if t ≠ w.mnemonic then _ else _) _ = _
  rw [if_pos ht]
  unfold Ui.onMnemonicChange
  dsimp only
  rw [bind_assoc']
  congr 1
  funext ⟨seed, e⟩
  dsimp only
  rw [rootFromSeed_eq, bind_assoc']
  congr 1
  funext ⟨k, e'⟩
  show Outcome.bind (if w.passphraseField ≠ w.passphrase then _ else _) _ = _
  rw [if_neg (not_not.2 hs.passphrase)]
  show Outcome.bind (if seed ≠ seed then _ else _) _ = _
  rw [if_neg (not_not.2 rfl)]
  exact tail_idle _ rfl hs.derivation

/-- **C111**, the passphrase. -/
theorem C111_passphrase (t : Bytes) (ht : t ≠ w.passphrase) :
    Ui.run H S R w [{ passphraseEdit := some t }, {}] =
      (deriveSeedFromMnemonic H S w.mnemonic t).bind fun (seed, _) => (rootKeyFromSeed H seed).bind fun (k, _) =>
        .ok (withRoot H R { w with passphrase := t, passphraseField := t, seed := seed, seedField := seed } k) := by
  have hs := hw.2
  rw [run_edit hw rfl]
  have hl : w.layout { passphraseEdit := some t } = { w with passphraseField := t } := by
    unfold Ui.layout; simp
  have hu : { ({ w with passphraseField := t } : Ui) with derivationPath := pathFormatted w.derivationStr } =
      ({ w with passphraseField := t } : Ui) := by rw [← hw.path]
  rw [hl]
  unfold Ui.update
  dsimp only at hu ⊢
  rw [hu]
  show Outcome.bind (if w.mnemonicField ≠ w.mnemonic then _ else _) _ = _
  rw [if_neg (not_not.2 hs.mnemonic)]
  show Outcome.bind (if t ≠ w.passphrase then _ else _) _ = _
  rw [if_pos ht]
  unfold Ui.onMnemonicPassphraseChange
  dsimp only
  rw [bind_assoc']
  congr 1
  funext ⟨seed, e⟩
  dsimp only
  rw [rootFromSeed_eq, bind_assoc']
  congr 1
  funext ⟨k, e'⟩
  show Outcome.bind (if seed ≠ seed then _ else _) _ = _
  rw [if_neg (not_not.2 rfl)]
  exact tail_idle _ rfl hs.derivation

/-- **C111**, the seed. -/
theorem C111_seed (t : Bytes) (ht : t ≠ w.seed) :
    Ui.run H S R w [{ seedEdit := some t }, {}] = (rootKeyFromSeed H t).bind fun (k, _) =>
      .ok (withRoot H R { w with mnemonic := [], mnemonicField := [], seed := t, seedField := t } k) := by
  have hs := hw.2
  rw [run_edit hw rfl]
  have hl : w.layout { seedEdit := some t } = { w with seedField := t } := by
    unfold Ui.layout; simp
  have hu : { ({ w with seedField := t } : Ui) with derivationPath := pathFormatted w.derivationStr } =
      ({ w with seedField := t } : Ui) := by rw [← hw.path]
  rw [hl]
  unfold Ui.update
  dsimp only at hu ⊢
  rw [hu]
  show Outcome.bind (if w.mnemonicField ≠ w.mnemonic then _ else _) _ = _
  rw [if_neg (not_not.2 hs.mnemonic)]
  show Outcome.bind (if w.passphraseField ≠ w.passphrase then _ else _) _ = _
  rw [if_neg (not_not.2 hs.passphrase)]
  show Outcome.bind (if t ≠ w.seed then _ else _) _ = _
  rw [if_pos ht]
  unfold Ui.onSeedChange
  rw [rootFromSeed_eq, bind_assoc']
  congr 1
  funext ⟨k, e'⟩
  exact tail_idle _ rfl hs.derivation

/-- **C111**, the root key: an accepted text stays as it is. -/
theorem C111_root (t : Bytes) (ht : t ≠ w.rootKeyStr) :
    (∀ k, b58Deserialize H t = (k, none) → Ui.run H S R w [{ rootKeyEdit := some t }, {}] =
      .ok (withRoot H R { w with mnemonic := [], mnemonicField := [], seed := [], seedField := [] } k) ∧
      (k.bytes ≠ List.replicate 78 0 → k.string H = t)) ∧
    ((b58Deserialize H t).2 ≠ none → Ui.run H S R w [{ rootKeyEdit := some t }, {}] =
      .ok { w with mnemonic := [], mnemonicField := [], seed := [], seedField := [], rootKeyStr := t, rootKeyField := t,
                   rootKey := Key.zero }) := by
  have h1 := run_rootKey_edit (H := H) (S := S) (R := R) hw.path hw.2 t ht
  rw [h1]
  unfold Ui.onRootKeyStrChange
  dsimp only
  refine ⟨fun k hk => ⟨?_, fun hz => ?_⟩, fun hk => ?_⟩
  · rw [hk]
    dsimp only
    rw [keyPathChange_eq]
    rfl
  · exact (C17_canonical_text H t k hk).1 hz
  · cases h : b58Deserialize H t with
    | mk k e =>
      cases e with
      | none => rw [h] at hk; exact absurd rfl hk
      | some e => rfl

/-- **C111**, the path: white space aside, the text typed is the path, and nothing but keys and labels changes. -/
theorem C111_path (t : Bytes) : Ui.run H S R w [{ derivationEdit := some t }, {}] =
    if stripSpace t = stripSpace w.derivationStr then .ok { w with derivationField := t }
    else .ok (withRoot H R { w with derivationField := t, derivationStr := t, derivationPath := stripSpace t } w.rootKey) := by
  have hs := hw.2
  rw [run_edit hw rfl]
  have hl : w.layout { derivationEdit := some t } = { w with derivationField := t } := by
    unfold Ui.layout; simp
  have hu : { ({ w with derivationField := t } : Ui) with derivationPath := pathFormatted w.derivationStr } =
      ({ w with derivationField := t } : Ui) := by rw [← hw.path]
  rw [hl]
  unfold Ui.update
  dsimp only at hu ⊢
  rw [hu]
  show Outcome.bind (if w.mnemonicField ≠ w.mnemonic then _ else _) _ = _
  rw [if_neg (not_not.2 hs.mnemonic)]
  show Outcome.bind (if w.passphraseField ≠ w.passphrase then _ else _) _ = _
  rw [if_neg (not_not.2 hs.passphrase)]
  show Outcome.bind (if w.seedField ≠ w.seed then _ else _) _ = _
  rw [if_neg (not_not.2 hs.seed)]
  show (let u := if w.rootKeyStr ≠ w.rootKeyField then _ else ({ w with derivationField := t } : Ui)
     let u := if pathString u.derivationField ≠ pathString u.derivationStr then u.onDerivationPathChange H R else u
     Outcome.ok u) = _
  rw [if_neg (not_not.2 hs.rootKey.symm)]
  dsimp only
  rw [pathString_eq, pathString_eq]
  by_cases h : stripSpace t = stripSpace w.derivationStr
  · rw [if_neg (not_not.2 h), if_pos h]
  · rw [if_pos h, if_neg h]
    unfold Ui.onDerivationPathChange
    dsimp only
    rw [keyPathChange_eq, show pathFormatted t = stripSpace t from pathString_eq t]
    rfl

/-- **C111**, the button. -/
theorem C111_button (read : Nat → Bytes) : Ui.run H S R w [{ generate := some read }] =
    (generateMnemonic H S read (UInt8.ofNat ((atoi w.radio).1 % 256).toNat)).bind fun (m, _) =>
      (deriveSeedFromMnemonic H S m w.passphrase).bind fun (seed, _) => (rootKeyFromSeed H seed).bind fun (k, _) =>
        .ok (withRoot H R { w with mnemonic := m, mnemonicField := m, seed := seed, seedField := seed } k) := by
  have hs := hw.2
  have hu : { w with derivationPath := pathFormatted w.derivationStr } = w := by rw [← hw.path]
  have hf : ∀ (w : Ui), Ui.run H S R w [{ generate := some read }] = w.update H S R (some read) := by
    intro w
    show Outcome.bind (Ui.frame H S R w { generate := some read }) _ = _
    cases h : w.update H S R (some read) with
    | ok v =>
      rw [frame_ok.2 ⟨v, h, rfl⟩, show v.layout { generate := some read } = v from layout_idle v]
      rfl
    | panic =>
      unfold Ui.frame
      rw [h]
      rfl
  rw [hf]
  unfold Ui.update
  dsimp only
  rw [hu]
  unfold Ui.onAutoCreateMnemonicClicked
  dsimp only
  rw [bind_assoc']
  congr 1
  funext ⟨m, e⟩
  dsimp only
  rw [bind_assoc']
  congr 1
  funext ⟨seed, e⟩
  dsimp only
  rw [rootFromSeed_eq, bind_assoc']
  congr 1
  funext ⟨k, e'⟩
  show Outcome.bind (if m ≠ m then _ else _) _ = _
  rw [if_neg (not_not.2 rfl)]
  show Outcome.bind (if w.passphraseField ≠ w.passphrase then _ else _) _ = _
  rw [if_neg (not_not.2 hs.passphrase)]
  show Outcome.bind (if seed ≠ seed then _ else _) _ = _
  rw [if_neg (not_not.2 rfl)]
  exact tail_idle _ rfl hs.derivation

end

/-- **C111**, the button, with a word list of 2048 words and 12, 15, 18, 21 or 24 words chosen: the new mnemonic has that many words,
is valid and has the bytes of the random source as its entropy; the seed is the one of mnemonic and passphrase; passphrase and
path stay. The window can only crash for a seed without a master key. -/
theorem C111_generate {l : List Bytes} (hg : GoodList l) {w : Ui} (hw : Used H (setWordList l) R w) (read : Nat → Bytes)
    (hread : ∀ n, (read n).length = n) {n : Nat}
    (hn : (n, w.radio) ∈ [(12, str "12"), (15, str "15"), (18, str "18"), (21, str "21"), (24, str "24")]) :
    ∃ m ws seed, Layout m ws ∧ ws.length = n ∧ isMnemonicValid H (setWordList l) m = .ok true ∧
      entropyFromMnemonic H (setWordList l) m = .ok (read (4 * n / 3), none) ∧
      deriveSeedFromMnemonic H (setWordList l) m w.passphrase = .ok (seed, none) ∧
      Ui.run H (setWordList l) R w [{ generate := some read }] = (rootKeyFromSeed H seed).bind fun (k, _) =>
        .ok (withRoot H R { w with mnemonic := m, mnemonicField := m, seed := seed, seedField := seed } k) := by
  have hr : (UInt8.ofNat ((atoi w.radio).1 % 256).toNat).toNat = n ∧ n ∈ [12, 15, 18, 21, 24] := by
    simp only [List.mem_cons, Prod.mk.injEq, List.not_mem_nil, or_false] at hn
    rcases hn with ⟨rfl, h⟩ | ⟨rfl, h⟩ | ⟨rfl, h⟩ | ⟨rfl, h⟩ | ⟨rfl, h⟩ <;> rw [h] <;> decide +kernel
  obtain ⟨m, ws, h1, h2, h3, h4, h5⟩ := (C42_generate H hg read hread (UInt8.ofNat ((atoi w.radio).1 % 256).toNat)).2
    (by rw [hr.1]; exact hr.2)
  obtain ⟨seed, h6, -⟩ := (C43_seed_text H hg m w.passphrase).1 h4
  rw [hr.1] at h3 h5
  refine ⟨m, ws, seed, h2, h3, h4, h5, h6, ?_⟩
  rw [C111_button hw, h1]
  show Outcome.bind (deriveSeedFromMnemonic H (setWordList l) m w.passphrase) _ = _
  rw [h6]
  rfl

/-- The window as it starts is one of those of C111, with 12 words chosen; so is one in which any good root key was typed, and
typing a seed there replaces it. -/
example (k : Key) (hk : GoodRoot k) (t : Bytes) (ht : t ≠ []) (k' : Key) (e : Option Err) (hk' : rootKeyFromSeed H t = .ok (k', e)) :
    Used H S R {} ∧ ({} : Ui).radio = str "12" ∧
    ∃ w v, Used H S R w ∧ w.tabs = [⟨str "m", k⟩] ∧ w.selected = 0 ∧ t ≠ w.seed ∧
      Ui.run H S R w [{ seedEdit := some t }, {}] = .ok v ∧ v.rootKey = k' ∧ v.rootKeyField = k'.string H := by
  have h7 := run_rootKey_edit (H := H) (S := S) (R := R) (u := {}) rfl initial_synced (k.string H) (string_ne_nil hk)
  rw [type_rootKey rfl hk rfl] at h7
  have hu : Used H S R _ := ⟨⟨_, h7⟩, ⟨rfl, rfl, rfl, rfl, rfl⟩⟩
  have h8 := C111_seed hu t ht
  rw [hk'] at h8
  exact ⟨⟨⟨[], rfl⟩, initial_synced⟩, rfl, _, _, hu, rfl, rfl, ht, h8, rfl, rfl⟩

end Bips
