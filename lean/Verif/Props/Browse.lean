import Verif.Props.WalletTyped

/-!
# C109: going through the tabs

The arrows and the tabs of the example window, over any number of clicks.
-/

namespace Bips
open Spec

/-- One click of the user. -/
inductive BrowseClick
  | left
  | right
  | tab (i : Nat)

/-- The frame with that click and nothing else. -/
def BrowseClick.frame : BrowseClick → Frame
  | .left => { left := true }
  | .right => { right := true }
  | .tab i => { tabClicks := [i] }

/-- Where a click leads in a row of `n` tabs: one to the left or one to the right, but not over the ends; -1 is no tab. -/
def Spec.browse (n : Nat) (s : Int) : BrowseClick → Int
  | .left => if s = -1 then -1 else max (s - 1) 0
  | .right => min (s + 1) (n - 1)
  | .tab i => i

variable {H : Hashes} {S : WordState} {R : Registry}

/-- A window after a history whose last frame brought no edit. -/
structure Rests (H : Hashes) (S : WordState) (R : Registry) (u : Ui) : Prop where
  path : u.derivationPath = pathFormatted u.derivationStr
  synced : u.Synced

theorem rests_of_run {fs : List Frame} {f : Frame} {u u' : Ui} (h : Ui.run H S R {} fs = .ok u) (hf : f.NoEdit)
    (h' : u.frame H S R f = .ok u') : Rests H S R u' := by
  have hi := frame_inv h' (run_inv h (init_inv H S R))
  obtain ⟨v, hv, rfl⟩ := frame_ok.1 h'
  have hs := update_synced hv
  have hl := (layout_step f v).1
  have hn := layout_fields_noEdit hf v
  refine ⟨hi.path, ⟨?_, ?_, ?_, ?_, ?_⟩⟩
  · rw [hn.1, hl.mnemonic]; exact hs.mnemonic
  · rw [hn.2.1, hl.passphrase]; exact hs.passphrase
  · rw [hn.2.2.1, hl.seed]; exact hs.seed
  · rw [hn.2.2.2.1, hl.rootKeyStr]; exact hs.rootKey
  · rw [hn.2.2.2.2, hl.derivationStr]; exact hs.derivation

theorem click_frame (u : Ui) (hu : Rests H S R u) (ht : u.tabs ≠ []) (hs : -1 ≤ u.selected ∧ u.selected < u.tabs.length)
    (c : BrowseClick) (hc : ∀ i, c = .tab i → i < u.tabs.length) :
    u.frame H S R c.frame = .ok { u with selected := Spec.browse u.tabs.length u.selected c } := by
  refine frame_ok.2 ⟨u, ?_, ?_⟩
  · have : c.frame.generate = none := by cases c <;> rfl
    rw [this]
    exact update_idle hu.path hu.synced
  · have hl : ¬ u.tabs.length = 0 := fun h => ht (List.length_eq_zero_iff.1 h)
    cases c with
    | left =>
      unfold Ui.layout
      simp only [BrowseClick.frame, Option.getD_none, if_neg hl, if_true, Bool.false_eq_true, if_false, List.foldl_nil, Ui.clickLeft,
        Spec.browse]
      have : (if u.selected = -1 then -1 else max (u.selected - 1) 0) = if u.selected > 0 then u.selected - 1 else u.selected := by
        split <;> split <;> omega
      rw [this]
      split <;> rfl
    | right =>
      unfold Ui.layout
      simp only [BrowseClick.frame, Option.getD_none, if_neg hl, if_true, Bool.false_eq_true, if_false, List.foldl_nil, Ui.clickRight,
        Spec.browse]
      have : min (u.selected + 1) ((u.tabs.length : Int) - 1) =
          if u.selected < (u.tabs.length : Int) - 1 then u.selected + 1 else u.selected := by
        split <;> omega
      rw [this]
      split <;> rfl
    | tab i =>
      unfold Ui.layout
      simp only [BrowseClick.frame, Option.getD_none, if_neg hl, Bool.false_eq_true, if_false, List.foldl_cons, List.foldl_nil,
        Ui.clickTab, Spec.browse, if_pos (hc i rfl)]

theorem browse_range (n : Nat) (s : Int) (hs : -1 ≤ s ∧ s < n) (c : BrowseClick) (hc : ∀ i, c = .tab i → i < n) :
    -1 ≤ Spec.browse n s c ∧ Spec.browse n s c < n := by
  cases c with
  | left => simp only [Spec.browse]; split <;> omega
  | right => simp only [Spec.browse]; omega
  | tab i => have := hc i rfl; simp only [Spec.browse]; omega

/-- **C109.** In a window at rest with tabs, any sequence of clicks on the arrows and on tabs leads where the row of tabs says,
changes nothing but the selection, and shows the key of the tab it leads to. -/
theorem C109_browse {fs : List Frame} {f : Frame} {u₀ u : Ui} (h : Ui.run H S R {} fs = .ok u₀) (hf : f.NoEdit)
    (h' : u₀.frame H S R f = .ok u) (ht : u.tabs ≠ []) (cs : List BrowseClick) (hc : ∀ i, .tab i ∈ cs → i < u.tabs.length) :
    let s := cs.foldl (Spec.browse u.tabs.length) u.selected
    let v := { u with selected := s }
    Ui.run H S R u (cs.map BrowseClick.frame) = .ok v ∧ (s = -1 → v.shown = .ok none) ∧
      (s ≠ -1 → ∃ i : Nat, s = i ∧ ∃ k, u.tabs[i]? = some k ∧ v.shown = .ok (some k)) := by
  intro s v
  have hu := rests_of_run h hf h'
  have hr := (frame_inv h' (run_inv h (init_inv H S R))).range
  have hs : -1 ≤ u.selected ∧ u.selected < u.tabs.length := by
    refine ⟨by omega, ?_⟩
    rcases hr.2 with h | h
    · exact h
    · exact absurd h.2 ht
  have key : Ui.run H S R u (cs.map BrowseClick.frame) = .ok v ∧ -1 ≤ s ∧ s < u.tabs.length := by
    simp only [v, s]
    clear h h' hr v s
    induction cs generalizing u with
    | nil => exact ⟨rfl, hs⟩
    | cons c cs ih =>
      have hc1 : ∀ i, c = .tab i → i < u.tabs.length := fun i hi => hc i (by rw [hi]; simp)
      have h1 := click_frame u hu ht hs c hc1
      have := ih (u := { u with selected := Spec.browse u.tabs.length u.selected c }) ht (fun i hi => hc i (by simp [hi]))
        ⟨hu.path, ⟨hu.synced.mnemonic, hu.synced.passphrase, hu.synced.seed, hu.synced.rootKey, hu.synced.derivation⟩⟩
        (browse_range _ _ hs c hc1)
      rw [List.map_cons, Ui.run, h1]
      exact this
  obtain ⟨o, ho, hn, hk⟩ := shown_ok v
  refine ⟨key.1, fun e => ?_, fun e => ?_⟩
  · have : o = none := hn.2 (by simp only [v]; omega)
    rw [ho, this]
  · have hne : o ≠ none := fun e => by
      have := hn.1 e
      simp only [v] at this
      omega
    obtain ⟨k, hk'⟩ := Option.ne_none_iff_exists'.1 hne
    have := hk k hk'
    exact ⟨s.toNat, by omega, k, this.2, by rw [ho, hk']⟩

/-- Many clicks on the same arrow. -/
theorem browse_arrows (n m s : Nat) (hs : s < n) :
    (List.replicate m BrowseClick.right).foldl (Spec.browse n) s = (min (s + m) (n - 1) : Nat) ∧
    (List.replicate m BrowseClick.left).foldl (Spec.browse n) s = (s - m : Nat) ∧
    (List.replicate m BrowseClick.right).foldl (Spec.browse n) (-1) = if m = 0 then (-1 : Int) else ((min (m - 1) (n - 1) : Nat) : Int) := by
  have hr : ∀ m (s : Int), -1 ≤ s → s < n → (List.replicate m BrowseClick.right).foldl (Spec.browse n) s = min (s + m) (n - 1) := by
    intro m
    induction m with
    | zero => intro s h1 h2; simp; omega
    | succ m ih =>
      intro s h1 h2
      rw [List.replicate_succ, List.foldl_cons, ih _ (by simp only [Spec.browse]; omega) (by simp only [Spec.browse]; omega)]
      simp only [Spec.browse]
      push_cast
      omega
  refine ⟨?_, ?_, ?_⟩
  · rw [hr m s (by omega) (by omega)]; omega
  · induction m generalizing s with
    | zero => simp
    | succ m ih =>
      rw [List.replicate_succ, List.foldl_cons,
        show Spec.browse n s .left = ((s - 1 : Nat) : Int) by simp only [Spec.browse]; split <;> omega, ih (s - 1) (by omega)]
      omega
  · rw [hr m (-1) (by omega) (by omega)]
    split <;> omega

/-- **C109**, the arrows: with tab `s` selected, `m` clicks on the right arrow show the key `m` tabs to the right, or the last
one, and `m` clicks on the left arrow the key `m` tabs to the left, or the first one. If no tab is selected, the right arrow
begins with the first tab and the left arrow does nothing. -/
theorem C109_arrows {fs : List Frame} {f : Frame} {u₀ u : Ui} (h : Ui.run H S R {} fs = .ok u₀) (hf : f.NoEdit)
    (h' : u₀.frame H S R f = .ok u) (ht : u.tabs ≠ []) (m : Nat) :
    (∀ s : Nat, u.selected = s → ∃ v w kv kw,
      Ui.run H S R u (List.replicate m { right := true }) = .ok v ∧ v.shown = .ok (some kv) ∧
      u.tabs[min (s + m) (u.tabs.length - 1)]? = some kv ∧
      Ui.run H S R u (List.replicate m { left := true }) = .ok w ∧ w.shown = .ok (some kw) ∧ u.tabs[s - m]? = some kw) ∧
    (u.selected = -1 → Ui.run H S R u (List.replicate m { left := true }) = .ok u ∧ (m ≠ 0 → ∃ v kv,
      Ui.run H S R u (List.replicate m { right := true }) = .ok v ∧ v.shown = .ok (some kv) ∧
      u.tabs[min (m - 1) (u.tabs.length - 1)]? = some kv)) := by
  have hr := (frame_inv h' (run_inv h (init_inv H S R))).range
  have hs : -1 ≤ u.selected ∧ u.selected < u.tabs.length := by
    refine ⟨by omega, ?_⟩
    rcases hr.2 with h | h
    · exact h
    · exact absurd h.2 ht
  have R1 := C109_browse h hf h' ht (List.replicate m .right) (fun i hi => by simpa using List.eq_of_mem_replicate hi)
  have L1 := C109_browse h hf h' ht (List.replicate m .left) (fun i hi => by simpa using List.eq_of_mem_replicate hi)
  rw [List.map_replicate] at R1 L1
  refine ⟨fun s e => ?_, fun e => ⟨?_, fun hm => ?_⟩⟩
  · obtain ⟨a1, a2, -⟩ := browse_arrows u.tabs.length m s (by omega)
    rw [← e] at a1 a2
    obtain ⟨r1, -, r2⟩ := R1
    obtain ⟨l1, -, l2⟩ := L1
    obtain ⟨i, hi, kv, h1, h2⟩ := r2 (by rw [a1]; omega)
    obtain ⟨i', hi', kw, h3, h4⟩ := l2 (by rw [a2]; omega)
    rw [a1] at hi
    rw [a2] at hi'
    refine ⟨_, _, kv, kw, r1, h2, ?_, l1, h4, ?_⟩
    · rw [← h1]; congr 1; omega
    · rw [← h3]; congr 1; omega
  · have : (List.replicate m BrowseClick.left).foldl (Spec.browse u.tabs.length) u.selected = u.selected := by
      rw [e]
      clear L1 R1
      induction m with
      | zero => rfl
      | succ m ih => rw [List.replicate_succ, List.foldl_cons, show Spec.browse u.tabs.length (-1) .left = -1 from rfl, ih]
    have h1 := L1.1
    rw [this] at h1
    exact h1
  · have hl : u.tabs.length ≠ 0 := fun h => ht (List.length_eq_zero_iff.1 h)
    obtain ⟨-, -, a3⟩ := browse_arrows u.tabs.length m 0 (by omega)
    rw [if_neg hm, ← e] at a3
    obtain ⟨r1, -, r2⟩ := R1
    obtain ⟨i, hi, kv, h1, h2⟩ := r2 (by rw [a3]; omega)
    rw [a3] at hi
    refine ⟨_, kv, r1, h2, ?_⟩
    rw [← h1]; congr 1; omega

/-- A window as in C109, with six tabs: a seed and a path of five components were typed. -/
example (order : List (Bytes × List VersionBytes)) (ho : order.Perm pathTable) :
    ∃ fs f u₀ u, Ui.run (hashesIL 5) S (Registry.init order) {} fs = .ok u₀ ∧ Frame.NoEdit f ∧
      u₀.frame (hashesIL 5) S (Registry.init order) f = .ok u ∧ u.tabs.length = 6 := by
  obtain ⟨k, hk⟩ := example_root
  obtain ⟨u, u1, u2, u3⟩ := run_seed_path (hashesIL 5) S (Registry.init order) (by decide) hk
    (p := str "m/44'/0'/0' /0/7") (by decide +kernel)
  obtain ⟨b, hb, hl⟩ : ∃ b, hexDecode (str "000102030405060708090a0b0c0d0E0F") = some b ∧ b.length = 16 :=
    ⟨_, rfl, by decide +kernel⟩
  have hp : parse256 (((hashesIL 5).hmacSha512 (str "Bitcoin seed") b).take 32) = 5 := by
    rw [hashesIL_take]; decide +kernel
  obtain ⟨n0, h0⟩ : ∃ n0, masterNode (hashesIL 5).hmacSha512 b = some n0 := by
    unfold masterNode
    dsimp only
    rw [hp, if_neg (by decide)]
    exact ⟨_, rfl⟩
  have hw := C86_seed (hashesIL 5) order ho u1 b (by rw [u2]; exact hb) (by omega) bip44Comps
    (.inl ⟨by rw [u3]; exact bip44_text, by decide +kernel⟩) n0 h0
  obtain ⟨u₀, h1, h2⟩ := Outcome.bind_ok.1 u1
  obtain ⟨u', h3, h4⟩ := Outcome.bind_ok.1 h2
  cases h4
  let f₀ : Frame :=
    { seedEdit := some (str "000102030405060708090a0b0c0d0E0F"), derivationEdit := some (str "m/44'/0'/0' /0/7") }
  refine ⟨[f₀], {}, u₀, u, ?_, ⟨rfl, rfl, rfl, rfl, rfl, rfl⟩, h3, hw.1⟩
  exact Outcome.bind_ok.2 ⟨u₀, h1, rfl⟩

end Bips
