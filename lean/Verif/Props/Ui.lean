import Verif.Lemmas.Ui

/-!
# The example window: C59–C62, C65, C66

A history is a list of frames from the initial state. `H`, the word state `S` and the registry `R` are arbitrary unless
said otherwise.
-/

namespace Bips
open Spec

variable (H : Hashes) (S : WordState) (R : Registry)

/-! ### C59 -/

/-- C59: after every history the selected index is -1 or that of a tab, or it is the initial 0 and there is no tab; and
what is shown is the tab with that index. -/
theorem C59_index {fs : List Frame} {u : Ui} (h : Ui.run H S R {} fs = .ok u) :
    (u.selected = -1 ∨ (∃ i : Nat, u.selected = i ∧ i < u.tabs.length) ∨ (u.selected = 0 ∧ u.tabs = [])) ∧
    ∃ o, u.shown = .ok o ∧ ∀ k, o = some k → ∃ i : Nat, u.selected = i ∧ u.tabs[i]? = some k := by
  have hr := (run_inv h (init_inv H S R)).range
  obtain ⟨o, ho, -, hk⟩ := shown_ok u
  refine ⟨?_, o, ho, fun k hok => ?_⟩
  · rcases hr.2 with h2 | h2
    · rcases Int.lt_or_le u.selected 0 with h3 | h3
      · left; omega
      · right; left; exact ⟨u.selected.toNat, by omega, by omega⟩
    · exact .inr (.inr h2)
  · have := hk k hok
    exact ⟨u.selected.toNat, by omega, this.2⟩

variable {H S R}

theorem rootFromSeed_panic {u : Ui} (h : u.rootFromSeed H R = .panic) : rootKeyFromSeed H u.seed = .panic := by
  rcases Outcome.bind_panic.1 h with h | ⟨⟨k, e⟩, -, h⟩
  · exact h
  · cases h

/-- Some seed of at least 16 bytes makes the master key invalid. -/
def BadSeed (H : Hashes) : Prop := ∃ b : Bytes, 16 ≤ b.length ∧
  (parse256 ((H.hmacSha512 (str "Bitcoin seed") b).take 32) = 0 ∨
    secpN ≤ parse256 ((H.hmacSha512 (str "Bitcoin seed") b).take 32))

theorem badSeed_of_panic {seed : Bytes} (h : rootKeyFromSeed H seed = .panic) : BadSeed H := by
  by_contra hb
  obtain ⟨k, e, hk, -⟩ := C44_root_key_partial H seed fun b _ hl => by
    constructor
    · intro h0; exact hb ⟨b, hl, .inl h0⟩
    · by_contra hge; exact hb ⟨b, hl, .inr (by omega)⟩
  rw [hk] at h
  cases h

theorem deriveSeed_no_panic (H : Hashes) {l : List Bytes} (hg : GoodList l) (m p : Bytes) :
    deriveSeedFromMnemonic H (setWordList l) m p ≠ .panic := by
  intro hp
  unfold deriveSeedFromMnemonic at hp
  cases he : entropyFromMnemonic H (setWordList l) m with
  | panic => exact (C04_errors H hg m _ (layout_fields m)).2.2.2 he
  | ok r =>
    rw [he] at hp
    obtain ⟨b, e⟩ := r
    cases e <;> cases hp

theorem generate_no_panic (H : Hashes) {l : List Bytes} (hg : GoodList l) (read : Nat → Bytes)
    (hread : ∀ n, (read n).length = n) (w : UInt8) : generateMnemonic H (setWordList l) read w ≠ .panic := by
  have h := C42_generate H hg read hread w
  by_cases hw : w.toNat ∈ [12, 15, 18, 21, 24]
  · obtain ⟨m, ws, hm, -⟩ := h.2 hw
    rw [hm]; simp
  · rw [h.1 hw]; simp

/-- The random source fills the buffers it is given. -/
def Frame.Reads (f : Frame) : Prop := ∀ read, f.generate = some read → ∀ n, (read n).length = n

theorem update_panic {l : List Bytes} (hg : GoodList l) {u : Ui} {f : Frame} (hf : f.Reads)
    (h : u.update H (setWordList l) R f.generate = .panic) : BadSeed H := by
  have hroot : ∀ {u : Ui}, u.rootFromSeed H R = .panic → BadSeed H := fun h => badSeed_of_panic (rootFromSeed_panic h)
  unfold Ui.update at h
  rcases Outcome.bind_panic.1 h with h | ⟨u1, -, h⟩
  · cases hgen : f.generate with
    | none => rw [hgen] at h; cases h
    | some read =>
      rw [hgen] at h
      rcases Outcome.bind_panic.1 h with h | ⟨m, -, h⟩
      · exact absurd h (generate_no_panic H hg read (hf read hgen) _)
      · rcases Outcome.bind_panic.1 h with h | ⟨s, -, h⟩
        · exact absurd h (deriveSeed_no_panic H hg _ _)
        · exact hroot h
  rcases Outcome.bind_panic.1 h with h | ⟨u2, -, h⟩
  · split at h
    · rcases Outcome.bind_panic.1 h with h | ⟨s, -, h⟩
      · exact absurd h (deriveSeed_no_panic H hg _ _)
      · exact hroot h
    · cases h
  rcases Outcome.bind_panic.1 h with h | ⟨u3, -, h⟩
  · split at h
    · rcases Outcome.bind_panic.1 h with h | ⟨s, -, h⟩
      · exact absurd h (deriveSeed_no_panic H hg _ _)
      · exact hroot h
    · cases h
  rcases Outcome.bind_panic.1 h with h | ⟨u4, -, h⟩
  · split at h
    · exact hroot h
    · cases h
  cases h

/-- C59: with a good word list, a history can end in a panic only if some seed gives an invalid master key (see C44);
no index expression panics. -/
theorem C59_panic_only_bad_seed {l : List Bytes} (hg : GoodList l) {fs : List Frame} (hf : ∀ f ∈ fs, f.Reads)
    (h : Ui.run H (setWordList l) R {} fs = .panic) : BadSeed H := by
  have key : ∀ u : Ui, Ui.run H (setWordList l) R u fs = .panic → BadSeed H := by
    clear h
    induction fs with
    | nil => intro u h; cases h
    | cons f fs ih =>
      intro u h
      rcases Outcome.bind_panic.1 h with h | ⟨v, -, h⟩
      · rcases Outcome.bind_panic.1 h with h | ⟨v, -, h⟩
        · exact update_panic hg (hf f (by simp)) h
        · rcases Outcome.bind_panic.1 h with h | ⟨o, -, h⟩
          · obtain ⟨o, ho, -⟩ := shown_ok (v.layout f)
            rw [ho] at h
            cases h
          · cases h
      · exact ih (fun f hf' => hf f (by simp [hf'])) v h
  exact key _ h

/-- Such a panic does happen for some hash function: a seed of 16 zero bytes typed into the seed field. -/
theorem C59_bad_seed_panics (S : WordState) (R : Registry) :
    ∃ H fs, (∀ f ∈ fs, f.Reads) ∧ Ui.run H S R {} fs = .panic := by
  obtain ⟨H, -, hp⟩ := C44_panics (List.replicate 32 48) (List.replicate 16 0) (by decide +kernel) (by decide)
  refine ⟨H, [{ seedEdit := some (List.replicate 32 48) }, {}], ?_, ?_⟩
  · intro f hf read hr
    simp only [List.mem_cons, List.not_mem_nil, or_false] at hf
    rcases hf with rfl | rfl <;> cases hr
  · have h1 : Ui.frame H S R {} { seedEdit := some (List.replicate 32 48) } =
        .ok { seedField := List.replicate 32 48 } :=
      frame_ok.2 ⟨{}, rfl, rfl⟩
    rw [Ui.run, h1]
    show Outcome.bind (Ui.frame H S R { seedField := List.replicate 32 48 } {}) _ = _
    have h2 : Ui.update H S R none { seedField := List.replicate 32 48 } = .panic := by
      unfold Ui.update
      refine Outcome.bind_panic.2 (.inr ⟨_, rfl, ?_⟩)
      refine Outcome.bind_panic.2 (.inr ⟨_, rfl, ?_⟩)
      refine Outcome.bind_panic.2 (.inr ⟨_, rfl, ?_⟩)
      refine Outcome.bind_panic.2 (.inl ?_)
      rw [if_pos (by decide)]
      exact Outcome.bind_panic.2 (.inl hp)
    rw [Ui.frame, h2]
    rfl

/-! ### C61 -/

/-- No text is edited and no radio button clicked. -/
def Frame.NoEdit (f : Frame) : Prop :=
  f.mnemonicEdit = none ∧ f.passphraseEdit = none ∧ f.seedEdit = none ∧ f.rootKeyEdit = none ∧
    f.derivationEdit = none ∧ f.radioEdit = none

/-- C61: when a frame is laid out, the fields show the remembered values (paths up to white space). -/
theorem C61_fields_agree {u u' : Ui} {g : Option (Nat → Bytes)} (h : u.update H S R g = .ok u') :
    u'.mnemonicField = u'.mnemonic ∧ u'.passphraseField = u'.passphrase ∧ u'.seedField = u'.seed ∧
      u'.rootKeyField = u'.rootKeyStr ∧ pathString u'.derivationField = pathString u'.derivationStr :=
  let h := update_synced h
  ⟨h.mnemonic, h.passphrase, h.seed, h.rootKey, h.derivation⟩

theorem update_idle {u : Ui} (hi : u.derivationPath = pathFormatted u.derivationStr) (hs : u.Synced) :
    u.update H S R none = .ok u := by
  have hu : { u with derivationPath := pathFormatted u.derivationStr } = u := by rw [← hi]
  unfold Ui.update
  rw [hu]
  refine Outcome.bind_ok.2 ⟨u, rfl, ?_⟩
  refine Outcome.bind_ok.2 ⟨u, by rw [if_neg (by simpa using hs.mnemonic)], ?_⟩
  refine Outcome.bind_ok.2 ⟨u, by rw [if_neg (by simpa using hs.passphrase)], ?_⟩
  refine Outcome.bind_ok.2 ⟨u, by rw [if_neg (by simpa using hs.seed)], ?_⟩
  rw [if_neg (by simpa using hs.rootKey.symm)]
  dsimp only
  rw [if_neg (by simpa using hs.derivation)]

theorem layout_idle (u : Ui) : u.layout {} = u := by
  unfold Ui.layout
  simp

/-- The layout touches fields only through edits. -/
theorem layout_fields_noEdit {f : Frame} (hf : f.NoEdit) (u : Ui) :
    (u.layout f).mnemonicField = u.mnemonicField ∧ (u.layout f).passphraseField = u.passphraseField ∧
    (u.layout f).seedField = u.seedField ∧ (u.layout f).rootKeyField = u.rootKeyField ∧
    (u.layout f).derivationField = u.derivationField := by
  obtain ⟨h1, h2, h3, h4, h5, h6⟩ := hf
  have key : ∀ (l : List Nat) (u : Ui), (l.foldl Ui.clickTab u).mnemonicField = u.mnemonicField ∧
      (l.foldl Ui.clickTab u).passphraseField = u.passphraseField ∧ (l.foldl Ui.clickTab u).seedField = u.seedField ∧
      (l.foldl Ui.clickTab u).rootKeyField = u.rootKeyField ∧
      (l.foldl Ui.clickTab u).derivationField = u.derivationField := by
    intro l
    induction l with
    | nil => intro u; exact ⟨rfl, rfl, rfl, rfl, rfl⟩
    | cons i l ih =>
      intro u
      have := ih (u.clickTab i)
      unfold Ui.clickTab at this
      split at this
      · simp [List.foldl_cons, Ui.clickTab, *]
      · simp [List.foldl_cons, Ui.clickTab, *]
  unfold Ui.layout
  simp only [h1, h2, h3, h4, h5, h6, Option.getD_none]
  split
  · exact ⟨rfl, rfl, rfl, rfl, rfl⟩
  · have := key f.tabClicks
    simp only [this]
    unfold Ui.clickLeft Ui.clickRight
    cases f.left <;> cases f.right <;> dsimp only <;> (repeat' split) <;> exact ⟨rfl, rfl, rfl, rfl, rfl⟩

/-- C61: after a history whose last frame brought no edit, a frame without input changes nothing at all. -/
theorem C61_idle {fs : List Frame} {f : Frame} {u u' : Ui} (h : Ui.run H S R {} fs = .ok u) (hf : f.NoEdit)
    (h' : u.frame H S R f = .ok u') : u'.frame H S R {} = .ok u' := by
  have hi := frame_inv h' (run_inv h (init_inv H S R))
  obtain ⟨v, hv, rfl⟩ := frame_ok.1 h'
  have hs := update_synced hv
  have hl := (layout_step f v).1
  have hn := layout_fields_noEdit hf v
  refine frame_ok.2 ⟨v.layout f, update_idle hi.path ⟨?_, ?_, ?_, ?_, ?_⟩, (layout_idle _).symm⟩
  · rw [hn.1, hl.mnemonic]; exact hs.mnemonic
  · rw [hn.2.1, hl.passphrase]; exact hs.passphrase
  · rw [hn.2.2.1, hl.seed]; exact hs.seed
  · rw [hn.2.2.2.1, hl.rootKeyStr]; exact hs.rootKey
  · rw [hn.2.2.2.2, hl.derivationStr]; exact hs.derivation

/-! ### C60 -/

/-- C60, what holds: after every history the tabs are the derivation of the current root key along the current path, and
the root key text is that of the root key — or the text of the root key was refused. -/
theorem C60_tabs_partial {fs : List Frame} {u : Ui} (h : Ui.run H S R {} fs = .ok u) :
    (u.tabs = (deriveBIP32Result H R u.rootKey u.currentPath).1 ∧ u.rootKeyStr = u.rootKey.string H) ∨
      (u.rootKey = Key.zero ∧ (b58Deserialize H u.rootKeyStr).2 ≠ none) := by
  rcases (run_inv h (init_inv H S R)).tabs with h | h
  · exact .inl h
  · exact .inr ⟨h.1, h.2.1⟩

/-- A frame that only brings a new text for the root key, after a synced state. -/
theorem run_rootKey_edit {u : Ui} (hp : u.derivationPath = pathFormatted u.derivationStr) (hs : u.Synced) (t : Bytes)
    (ht : t ≠ u.rootKeyStr) :
    Ui.run H S R u [{ rootKeyEdit := some t }, {}] =
      .ok ({ u with rootKeyField := t }.onRootKeyStrChange H R) := by
  have h1 : u.frame H S R { rootKeyEdit := some t } = .ok { u with rootKeyField := t } := by
    refine frame_ok.2 ⟨u, update_idle hp hs, ?_⟩
    unfold Ui.layout
    simp
  rw [Ui.run, h1]
  show Outcome.bind (Ui.frame H S R { u with rootKeyField := t } {}) _ = _
  have h2 : Ui.frame H S R { u with rootKeyField := t } {} =
      .ok ({ u with rootKeyField := t }.onRootKeyStrChange H R) := by
    refine frame_ok.2 ⟨_, ?_, (layout_idle _).symm⟩
    have hu : { ({ u with rootKeyField := t } : Ui) with derivationPath := pathFormatted u.derivationStr } =
        ({ u with rootKeyField := t } : Ui) := by rw [← hp]
    unfold Ui.update
    dsimp only at hu ⊢
    rw [hu]
    refine Outcome.bind_ok.2 ⟨_, rfl, ?_⟩
    refine Outcome.bind_ok.2 ⟨{ u with rootKeyField := t }, by rw [if_neg (by simpa using hs.mnemonic)], ?_⟩
    refine Outcome.bind_ok.2 ⟨{ u with rootKeyField := t }, by rw [if_neg (by simpa using hs.passphrase)], ?_⟩
    refine Outcome.bind_ok.2 ⟨{ u with rootKeyField := t }, by rw [if_neg (by simpa using hs.seed)], ?_⟩
    have hc : ({ u with rootKeyField := t } : Ui).rootKeyStr ≠ ({ u with rootKeyField := t } : Ui).rootKeyField :=
      fun e => ht e.symm
    rw [if_pos hc, if_neg]
    rw [not_not]
    unfold Ui.onRootKeyStrChange
    dsimp only
    split <;> exact hs.derivation
  rw [h2]
  rfl

theorem run_append (u : Ui) (fs gs : List Frame) :
    Ui.run H S R u (fs ++ gs) = (Ui.run H S R u fs).bind fun v => Ui.run H S R v gs := by
  induction fs generalizing u with
  | nil => rfl
  | cons f fs ih =>
    rw [List.cons_append, Ui.run, Ui.run]
    cases u.frame H S R f with
    | panic => rfl
    | ok v => exact ih v

theorem initial_synced : ({} : Ui).Synced := ⟨rfl, rfl, rfl, rfl, rfl⟩

theorem initial_currentPath {u : Ui} (h : u.derivationPath = []) : u.currentPath = str "m" := by
  unfold Ui.currentPath
  rw [h, if_neg (by decide +kernel)]

theorem derive_m {k : Key} (hk : GoodRoot k) : (deriveBIP32Result H R k (str "m")).1 = [⟨str "m", k⟩] := by
  rw [derive_eq H R hk (vs := []) (by decide +kernel)]
  rfl

theorem goodRoot_ne_zero {k : Key} (hk : GoodRoot k) : k.bytes ≠ List.replicate 78 0 := hk.1

/-- Typing the text of a good root key shows it under `m`. -/
theorem type_rootKey {u : Ui} (hp : u.derivationPath = []) {k : Key} (hk : GoodRoot k)
    (ht : u.rootKeyField = k.string H) :
    u.onRootKeyStrChange H R =
      { u with rootKeyStr := k.string H, mnemonic := [], mnemonicField := [], seed := [], seedField := [],
               rootKey := k, tabs := [⟨str "m", k⟩],
               selected := if u.selected ≥ 1 then 0 else u.selected } := by
  unfold Ui.onRootKeyStrChange
  dsimp only
  rw [ht, C16_base58_roundtrip H k (goodRoot_ne_zero hk)]
  dsimp only
  unfold Ui.onKeyPathChange
  dsimp only
  rw [initial_currentPath (by exact hp), derive_m hk]
  rfl

theorem string_ne_nil {k : Key} (hk : GoodRoot k) : k.string H ≠ [] := by
  intro h
  have h1 := C16_base58_roundtrip H k (goodRoot_ne_zero hk)
  rw [h] at h1
  have h2 : (b58Deserialize H []).2 ≠ none := by
    unfold b58Deserialize deserialize
    rw [show b58Decode [] = [] from by decide +kernel, dif_pos (by decide), dif_pos (by decide)]
    simp
  rw [h1] at h2
  exact h2 rfl

theorem refuse_x : ∃ e, (b58Deserialize H (str "x")).2 = some e := by
  have hl : (b58Decode (str "x")).length = 1 := by decide +kernel
  unfold b58Deserialize deserialize
  rw [dif_pos (by rw [hl]; decide), dif_pos (by rw [hl]; decide)]
  exact ⟨_, rfl⟩

variable (H S R) in
/-- C60 is false as stated: type a root key, then a text that is no root key. The window has no root key any more, but
still shows the keys of the first one. -/
theorem C60_stale_tabs (k : Key) (hk : GoodRoot k) :
    ∃ u, Ui.run H S R {} [{ rootKeyEdit := some (k.string H) }, {}, { rootKeyEdit := some (str "x") }, {}] = .ok u ∧
      u.rootKey = Key.zero ∧ u.tabs = [⟨str "m", k⟩] ∧ u.shown = .ok (some ⟨str "m", k⟩) ∧
      (deriveBIP32Result H R u.rootKey u.currentPath).1 = [] := by
  obtain ⟨e, he⟩ := refuse_x (H := H)
  have hx : k.string H ≠ str "x" := by
    intro hx
    rw [← hx, C16_base58_roundtrip H k (goodRoot_ne_zero hk)] at he
    cases he
  have h1 := run_rootKey_edit (H := H) (S := S) (R := R) (u := {}) rfl initial_synced (k.string H) (string_ne_nil hk)
  rw [type_rootKey rfl hk rfl] at h1
  rw [show [{ rootKeyEdit := some (k.string H) }, ({} : Frame), { rootKeyEdit := some (str "x") }, {}] =
    [{ rootKeyEdit := some (k.string H) }, {}] ++ [{ rootKeyEdit := some (str "x") }, {}] from rfl, run_append, h1]
  refine ⟨_, run_rootKey_edit rfl ⟨rfl, rfl, rfl, rfl, rfl⟩ (str "x") (Ne.symm hx), ?_⟩
  have hr : ∀ u : Ui, u.rootKeyField = str "x" → u.onRootKeyStrChange H R =
      { u with rootKeyStr := str "x", mnemonic := [], mnemonicField := [], seed := [], seedField := [],
               rootKey := Key.zero } := by
    intro u hu
    unfold Ui.onRootKeyStrChange
    dsimp only
    rw [hu]
    cases hd : b58Deserialize H (str "x") with
    | mk k' e' =>
      rw [hd] at he
      dsimp only at he
      rw [he]
  rw [hr _ rfl]
  exact ⟨rfl, rfl, rfl, deriveBIP32Result_zero H R _⟩

/-- Good root keys exist. -/
example : GoodRoot (xprvKey 1) := goodRoot_xprvKey 1

/-! ### C62, C66 -/

theorem passphrase_wipes {u : Ui} (hm : u.mnemonic = []) (hsel : -1 ≤ u.selected) :
    u.onMnemonicPassphraseChange H S R = .ok
      { u with passphrase := u.passphraseField, seed := [], seedField := [], rootKey := Key.zero, tabs := [],
               selected := -1, rootKeyStr := [], rootKeyField := [] } := by
  have h1 : deriveSeedFromMnemonic H S u.mnemonic u.passphraseField = .ok ([], some .invalidMnemonic) := by
    rw [hm]; rfl
  have h2 : rootKeyFromSeed H [] = .ok (Key.zero, some .invalidBIP39Seed) := rfl
  have h3 : (if u.selected ≥ (([] : List KeyPath).length : Int) then (([] : List KeyPath).length : Int) - 1
      else u.selected) = -1 := by
    simp only [List.length_nil]
    split <;> omega
  unfold Ui.onMnemonicPassphraseChange
  simp only [h1, Outcome.bind]
  unfold Ui.rootFromSeed
  simp only [h2, Outcome.bind]
  unfold Ui.onKeyPathChange
  simp only [deriveBIP32Result_zero, string_zero, h3]

/-- C66: if no mnemonic is there, because a seed or a root key was typed, a change of the passphrase throws the seed,
the root key and all tabs away (the passphrase plays no role for them). -/
theorem C66_passphrase_discards {fs : List Frame} {u : Ui} (h : Ui.run H S R {} fs = .ok u) (hs : u.Synced)
    (hm : u.mnemonic = []) (p : Bytes) (hp : p ≠ u.passphrase) :
    ∃ u', Ui.run H S R u [{ passphraseEdit := some p }, {}] = .ok u' ∧ u'.passphrase = p ∧
      u'.seed = [] ∧ u'.rootKey = Key.zero ∧ u'.rootKeyField = [] ∧ u'.tabs = [] ∧ u'.selected = -1 ∧
      u'.derivationField = u.derivationField ∧ u'.derivationStr = u.derivationStr ∧
      u'.derivationPath = u.derivationPath ∧ u'.Synced := by
  have hi := run_inv h (init_inv H S R)
  have h1 : u.frame H S R { passphraseEdit := some p } = .ok { u with passphraseField := p } := by
    refine frame_ok.2 ⟨u, update_idle hi.path hs, ?_⟩
    unfold Ui.layout
    simp
  have hu : { ({ u with passphraseField := p } : Ui) with derivationPath := pathFormatted u.derivationStr } =
      ({ u with passphraseField := p } : Ui) := by rw [← hi.path]
  have h2 : Ui.frame H S R { u with passphraseField := p } {} =
      .ok { u with passphraseField := p, passphrase := p, seed := [], seedField := [], rootKey := Key.zero, tabs := [],
                   selected := -1, rootKeyStr := [], rootKeyField := [] } := by
    refine frame_ok.2 ⟨_, ?_, (layout_idle _).symm⟩
    unfold Ui.update
    dsimp only at hu ⊢
    rw [hu]
    refine Outcome.bind_ok.2 ⟨_, rfl, ?_⟩
    refine Outcome.bind_ok.2 ⟨{ u with passphraseField := p }, by rw [if_neg (by simpa using hs.mnemonic)], ?_⟩
    refine Outcome.bind_ok.2 ⟨_, by rw [if_pos hp]; exact passphrase_wipes hm hi.range.1, ?_⟩
    refine Outcome.bind_ok.2 ⟨_, by rw [if_neg (by simp)], ?_⟩
    rw [if_neg (by simpa using hs.derivation), if_neg (by simp)]
  have h3 : Ui.run H S R u [{ passphraseEdit := some p }, {}] =
      .ok { u with passphraseField := p, passphrase := p, seed := [], seedField := [], rootKey := Key.zero, tabs := [],
                   selected := -1, rootKeyStr := [], rootKeyField := [] } := by
    rw [Ui.run, h1]
    show Outcome.bind (Ui.frame H S R { u with passphraseField := p } {}) _ = _
    rw [h2]
    rfl
  refine ⟨_, h3,
    rfl, rfl, rfl, rfl, rfl, rfl, rfl, rfl, rfl, ⟨hs.mnemonic, rfl, rfl, rfl, hs.derivation⟩⟩

variable (H S R) in
/-- A state as in C66: a root key was typed and is shown. -/
example (k : Key) (hk : GoodRoot k) : ∃ fs u, Ui.run H S R {} fs = .ok u ∧ u.Synced ∧ u.mnemonic = [] ∧
    u.rootKey = k ∧ u.shown = .ok (some ⟨str "m", k⟩) := by
  have h1 := run_rootKey_edit (H := H) (S := S) (R := R) (u := {}) rfl initial_synced (k.string H) (string_ne_nil hk)
  rw [type_rootKey rfl hk rfl] at h1
  exact ⟨_, _, h1, ⟨rfl, rfl, rfl, rfl, rfl⟩, rfl, rfl, rfl⟩

variable (H S R) in
/-- C62 is false as stated: change the passphrase, then type a root key. Its tab is there, but none is selected and no
key is shown. -/
theorem C62_nothing_selected (k : Key) (hk : GoodRoot k) :
    ∃ u, Ui.run H S R {} [{ passphraseEdit := some (str "x") }, {}, { rootKeyEdit := some (k.string H) }, {}] = .ok u ∧
      u.tabs = [⟨str "m", k⟩] ∧ u.selected = -1 ∧ u.shown = .ok none := by
  obtain ⟨u, h1, -, -, -, hrf, ht, hsel, -, -, hdp, hs⟩ :=
    C66_passphrase_discards (H := H) (S := S) (R := R) (fs := []) (u := {}) rfl initial_synced rfl (str "x") (by decide)
  have hrk : u.rootKeyStr = [] := by rw [← hs.rootKey]; exact hrf
  have hi := run_inv h1 (init_inv H S R)
  have h2 := run_rootKey_edit (H := H) (S := S) (R := R) (u := u) hi.path hs (k.string H)
    (by rw [hrk]; exact string_ne_nil hk)
  rw [type_rootKey (u := { u with rootKeyField := k.string H }) hdp hk rfl] at h2
  rw [show [{ passphraseEdit := some (str "x") }, ({} : Frame), { rootKeyEdit := some (k.string H) }, {}] =
    [{ passphraseEdit := some (str "x") }, {}] ++ [{ rootKeyEdit := some (k.string H) }, {}] from rfl, run_append, h1]
  refine ⟨_, h2, rfl, ?_, ?_⟩
  · dsimp only; rw [hsel]; rfl
  · unfold Ui.shown
    dsimp only
    rw [hsel]
    rfl

/-- C62, what holds: when there are tabs, the selected index is that of a tab or -1; in the latter case a click on the
right arrow or on any tab selects one; and no layout, whatever the user does during it, loses a selection. (So it is
lost only when the tabs are rebuilt.) -/
theorem C62_selection_partial {fs : List Frame} {u : Ui} (h : Ui.run H S R {} fs = .ok u) (ht : u.tabs ≠ []) :
    (u.selected = -1 ∨ (0 ≤ u.selected ∧ u.selected < u.tabs.length)) ∧
    (u.selected = -1 → (u.layout { right := true }).selected = 0) ∧
    (∀ i, i < u.tabs.length → (u.layout { tabClicks := [i] }).selected = i) ∧
    (∀ f : Frame, 0 ≤ u.selected → 0 ≤ (u.layout f).selected ∧ (u.layout f).selected < (u.layout f).tabs.length) := by
  have hr := (run_inv h (init_inv H S R)).range
  have hlt : u.selected < u.tabs.length := hr.2.resolve_right fun hh => ht hh.2
  have hpos : 0 < u.tabs.length := List.length_pos_iff.2 ht
  refine ⟨by omega, ?_, ?_, ?_⟩
  · intro hs
    unfold Ui.layout Ui.clickRight
    dsimp only [Option.getD]
    rw [if_neg (by omega)]
    simp only [Bool.false_eq_true, if_false, if_true, List.foldl_nil]
    rw [if_pos (by omega)]
    dsimp only
    omega
  · intro i hi
    unfold Ui.layout
    dsimp only [Option.getD]
    rw [if_neg (by omega)]
    simp only [Bool.false_eq_true, if_false, List.foldl_cons, List.foldl_nil]
    unfold Ui.clickTab
    rw [if_pos (by exact hi)]
  · intro f h0
    have hl := (layout_step f u).1
    rw [hl.tabs]
    exact ⟨hl.keep h0, (hl.range (by omega) hlt).2⟩

/-! ### C65 -/

/-- C65: mnemonic, seed and root key belong together after every history: a mnemonic determines the seed (with the
passphrase), and a mnemonic or seed determines the root key and its text. -/
theorem C65_chain {fs : List Frame} {u : Ui} (h : Ui.run H S R {} fs = .ok u) :
    (u.mnemonic ≠ [] → ∃ e, deriveSeedFromMnemonic H S u.mnemonic u.passphrase = .ok (u.seed, e)) ∧
    (u.mnemonic ≠ [] ∨ u.seed ≠ [] →
      (∃ e, rootKeyFromSeed H u.seed = .ok (u.rootKey, e)) ∧ u.rootKeyStr = u.rootKey.string H ∧
      u.tabs = (deriveBIP32Result H R u.rootKey u.currentPath).1) := by
  have hi := run_inv h (init_inv H S R)
  refine ⟨hi.seed, fun hm => ⟨hi.root hm, ?_⟩⟩
  rcases hi.tabs with ht | ht
  · exact ⟨ht.2, ht.1⟩
  · exact absurd hm (by simp [ht.2.2.1, ht.2.2.2])

/-- Typing a seed derives its root key. -/
theorem run_seed_edit (t : Bytes) (ht : t ≠ []) {k : Key} {e : Option Err} (hk : rootKeyFromSeed H t = .ok (k, e)) :
    ∃ u, Ui.run H S R {} [{ seedEdit := some t }, {}] = .ok u ∧ u.seed = t ∧ u.rootKey = k := by
  have h1 : Ui.frame H S R {} { seedEdit := some t } = .ok { seedField := t } := frame_ok.2 ⟨{}, rfl, rfl⟩
  have h4 : Ui.onSeedChange H R { seedField := t } = .ok
      (let u := ({ seedField := t, seed := t, rootKey := k } : Ui).onKeyPathChange H R
       { u with rootKeyStr := k.string H, rootKeyField := k.string H }) := by
    unfold Ui.onSeedChange Ui.rootFromSeed
    refine Outcome.bind_ok.2 ⟨_, hk, rfl⟩
  obtain ⟨u, hu, hs, hr⟩ : ∃ u : Ui, Ui.update H S R none { seedField := t } = .ok u ∧ u.seed = t ∧ u.rootKey = k := by
    refine ⟨let u := ({ seedField := t, seed := t, rootKey := k } : Ui).onKeyPathChange H R
      { u with rootKeyStr := k.string H, rootKeyField := k.string H }, ?_, rfl, rfl⟩
    · unfold Ui.update
      refine Outcome.bind_ok.2 ⟨_, rfl, Outcome.bind_ok.2 ⟨_, rfl, Outcome.bind_ok.2 ⟨_, rfl,
        Outcome.bind_ok.2 ⟨_, by rw [if_pos (by exact ht)]; exact h4, ?_⟩⟩⟩⟩
      rw [if_neg (by simp)]
      dsimp only
      rw [if_neg (by simp [Ui.onKeyPathChange])]
  refine ⟨u, ?_, hs, hr⟩
  rw [Ui.run, h1]
  show Outcome.bind (Ui.frame _ S R { seedField := t } {}) _ = _
  rw [frame_ok.2 ⟨u, hu, (layout_idle u).symm⟩]
  rfl

/-- A history as in C65. -/
example : ∃ fs u k, Ui.run (hashesIL 5) S R {} fs = .ok u ∧ u.seed = str "000102030405060708090a0b0c0d0E0F" ∧
    u.rootKey = k ∧ rootKeyFromSeed (hashesIL 5) (str "000102030405060708090a0b0c0d0E0F") = .ok (k, none) := by
  obtain ⟨k, hk⟩ := example_root
  obtain ⟨u, hu, hs, hr⟩ := run_seed_edit (S := S) (R := R) _ (by decide) hk
  exact ⟨_, u, k, hu, hs, hr, hk⟩

end Bips
