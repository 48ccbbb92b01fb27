import Verif.Src.Safe

/-!
# How many steps of its own a call takes

A bound on the accesses a call still makes, whatever the variables contain when it gets to them.
-/

namespace Bips.Src

/-- If the lists read satisfy `A`, the call ends after at most `n` more accesses (bip39/bip39.go:78-82, 88, 93, 128, 208). -/
def Access.within (A : List Bytes → Prop) : Access (List Val) → Nat → Prop
  | .leaf _, _ => True
  | .readList k, n => ∃ m, n = m + 1 ∧ ∀ l, A l → (k l).within A m
  | .readMap _ k, n => ∃ m, n = m + 1 ∧ ∀ r, (k r).within A m
  | .writeList _ t, n => ∃ m, n = m + 1 ∧ t.within A m
  | .newMap t, n => ∃ m, n = m + 1 ∧ t.within A m
  | .insert _ _ t, n => ∃ m, n = m + 1 ∧ t.within A m

theorem within_mono {A : List Bytes → Prop} {t : Access (List Val)} : ∀ {n m : Nat}, n ≤ m → t.within A n → t.within A m := by
  induction t with
  | leaf r => intro n m _ _; trivial
  | readList k ih =>
    rintro n m hnm ⟨n', rfl, h⟩
    exact ⟨m - 1, by omega, fun l hl => ih l (by omega) (h l hl)⟩
  | readMap w k ih =>
    rintro n m hnm ⟨n', rfl, h⟩
    exact ⟨m - 1, by omega, fun r => ih r (by omega) (h r)⟩
  | writeList l t ih =>
    rintro n m hnm ⟨n', rfl, h⟩
    exact ⟨m - 1, by omega, ih (by omega) h⟩
  | newMap t ih =>
    rintro n m hnm ⟨n', rfl, h⟩
    exact ⟨m - 1, by omega, ih (by omega) h⟩
  | insert w i t ih =>
    rintro n m hnm ⟨n', rfl, h⟩
    exact ⟨m - 1, by omega, ih (by omega) h⟩

section
variable {A : List Bytes → Prop} {M : Bytes → Nat → Prop} {P : Nat → Res (List Val) → Prop}

theorem within_step (c : Calls) (h : c.kept A M P) (i n : Nat) (x : Access (List Val)) (hx : c.calls[i]? = some x) (hw : x.within A (n + 1)) :
    ∃ y, (c.step i).calls[i]? = some y ∧ y.within A n := by
  have hlt := (List.getElem?_eq_some_iff.1 hx).1
  unfold Calls.step
  rw [hx]
  cases x with
  | leaf r => exact ⟨.leaf r, hx, trivial⟩
  | readList k =>
    obtain ⟨m, hm, hk⟩ := hw
    cases hm
    exact ⟨_, List.getElem?_set_self hlt, hk _ h.1⟩
  | readMap w k =>
    obtain ⟨m, hm, hk⟩ := hw
    cases hm
    exact ⟨_, List.getElem?_set_self hlt, hk _⟩
  | writeList l t =>
    obtain ⟨m, hm, hk⟩ := hw
    cases hm
    exact ⟨_, List.getElem?_set_self hlt, hk⟩
  | newMap t =>
    obtain ⟨m, hm, hk⟩ := hw
    cases hm
    exact ⟨_, List.getElem?_set_self hlt, hk⟩
  | insert w j t =>
    obtain ⟨m, hm, hk⟩ := hw
    cases hm
    exact ⟨_, List.getElem?_set_self hlt, hk⟩

theorem within_zero {x : Access (List Val)} (h : x.within A 0) : ∃ r, x = .leaf r := by
  cases x with
  | leaf r => exact ⟨r, rfl⟩
  | _ => obtain ⟨m, hm, -⟩ := h; omega

theorem within_run (i : Nat) (schedule : List Nat) : ∀ (c : Calls) (n : Nat) (x : Access (List Val)), c.kept A M P → c.calls[i]? = some x → x.within A n →
    n ≤ schedule.count i → ∃ r, (c.run schedule).calls[i]? = some (.leaf r) := by
  induction schedule with
  | nil =>
    intro c n x _ hx hw hn
    have : n = 0 := by simpa using hn
    subst this
    obtain ⟨r, rfl⟩ := within_zero hw
    exact ⟨r, hx⟩
  | cons t ts ih =>
    intro c n x h hx hw hn
    have hk := kept_step c t h
    by_cases ht : t = i
    · subst ht
      rw [List.count_cons_self] at hn
      obtain ⟨y, hy, hyw⟩ := within_step c h t (n - 1) x hx (within_mono (by omega) hw)
      exact ih _ (n - 1) y hk hy hyw (by omega)
    · rw [List.count_cons_of_ne ht] at hn
      refine ih _ n x hk ?_ hw hn
      rw [(step_same c c t t rfl rfl).2.2.1 i (Ne.symm ht), hx]

/-! ### The same when an access to the map is several steps -/

/-- At most `n` more steps, where an access takes up to six (bip39/bip39.go:82, 93, 128). -/
def Micro.left (A : List Bytes → Prop) : Micro → Nat → Prop
  | .at (.leaf _), _ => True
  | .at t, n => ∃ k, 6 * k ≤ n ∧ t.within A k
  | .loaded _ _ _ t, n => ∃ k, 6 * k + 5 ≤ n ∧ t.within A k
  | .entered _ _ _ t, n => ∃ k, 6 * k + 4 ≤ n ∧ t.within A k
  | .marked _ _ _ t, n => ∃ k, 6 * k + 3 ≤ n ∧ t.within A k
  | .assigned _ _ _ t, n => ∃ k, 6 * k + 2 ≤ n ∧ t.within A k
  | .placed _ _ _ t, n => ∃ k, 6 * k + 1 ≤ n ∧ t.within A k
  | .reading _ _ k, n => ∃ j, 6 * j + 5 ≤ n ∧ ∀ r, (k r).within A j

theorem left_at {t : Access (List Val)} {k n : Nat} (h : t.within A k) (hn : 6 * k ≤ n) : (Micro.at t).left A n := by
  cases t <;> first | trivial | exact ⟨k, hn, h⟩

theorem left_mono {x : Micro} {n m : Nat} (hnm : n ≤ m) (h : x.left A n) : x.left A m := by
  cases x with
  | «at» t =>
    cases t with
    | leaf r => trivial
    | _ => obtain ⟨k, hk, hw⟩ := h; exact ⟨k, by omega, hw⟩
  | _ => obtain ⟨k, hk, hw⟩ := h; exact ⟨k, by omega, hw⟩

theorem goto_self (c : MapCalls) (i : Nat) (y : Micro) (hlt : i < c.calls.length) : (c.goto i y).calls[i]? = some y := List.getElem?_set_self hlt

theorem left_step (c : MapCalls) (h : c.kept A M P) (hf : c.fatal = false) (i n : Nat) (x : Micro) (hx : c.calls[i]? = some x) (hw : x.left A (n + 1)) :
    (c.step i).fatal = true ∨ ∃ y, (c.step i).calls[i]? = some y ∧ y.left A n := by
  have hlt := (List.getElem?_eq_some_iff.1 hx).1
  unfold MapCalls.step
  rw [if_neg (by simp [hf]), hx]
  cases x with
  | «at» t =>
    cases t with
    | leaf r => exact .inr ⟨_, hx, trivial⟩
    | readList k =>
      obtain ⟨m, hm, m', rfl, hk⟩ := hw
      exact .inr ⟨_, goto_self _ _ _ hlt, left_at (hk _ h.1) (by omega)⟩
    | readMap w k =>
      obtain ⟨m, hm, m', rfl, hk⟩ := hw
      exact .inr ⟨_, goto_self _ _ _ hlt, ⟨m', by omega, hk⟩⟩
    | writeList l t =>
      obtain ⟨m, hm, m', rfl, hk⟩ := hw
      exact .inr ⟨_, goto_self _ _ _ hlt, left_at hk (by omega)⟩
    | newMap t =>
      obtain ⟨m, hm, m', rfl, hk⟩ := hw
      exact .inr ⟨_, goto_self _ _ _ hlt, left_at hk (by omega)⟩
    | insert w j t =>
      obtain ⟨m, hm, m', rfl, hk⟩ := hw
      exact .inr ⟨_, goto_self _ _ _ hlt, ⟨m', by omega, hk⟩⟩
  | loaded w j m t =>
    obtain ⟨k, hk, hw⟩ := hw
    dsimp only
    split
    · exact .inl rfl
    · exact .inr ⟨_, goto_self _ _ _ hlt, ⟨k, by omega, hw⟩⟩
  | entered w j m t =>
    obtain ⟨k, hk, hw⟩ := hw
    exact .inr ⟨_, goto_self _ _ _ hlt, ⟨k, by omega, hw⟩⟩
  | marked w j m t =>
    obtain ⟨k, hk, hw⟩ := hw
    exact .inr ⟨_, goto_self _ _ _ hlt, ⟨k, by omega, hw⟩⟩
  | assigned w j m t =>
    obtain ⟨k, hk, hw⟩ := hw
    dsimp only
    split
    · exact .inr ⟨_, goto_self _ _ _ hlt, ⟨k, by omega, hw⟩⟩
    · exact .inl rfl
  | placed w j m t =>
    obtain ⟨k, hk, hw⟩ := hw
    exact .inr ⟨_, goto_self _ _ _ hlt, left_at hw (by omega)⟩
  | reading w m k =>
    obtain ⟨j, hj, hw⟩ := hw
    dsimp only
    split
    · exact .inl rfl
    · exact .inr ⟨_, goto_self _ _ _ hlt, left_at (hw _) (by omega)⟩

theorem goto_others (c : MapCalls) (t i : Nat) (y : Micro) (h : t ≠ i) : (c.goto t y).calls[i]? = c.calls[i]? := List.getElem?_set_ne h

theorem step_others (c : MapCalls) (t i : Nat) (h : t ≠ i) : (c.step t).calls[i]? = c.calls[i]? := by
  unfold MapCalls.step
  split
  · rfl
  · rcases c.calls[t]? with _ | x
    · rfl
    · cases x with
      | «at» y => cases y <;> first | rfl | exact goto_others _ t i _ h
      | entered w j m k => exact goto_others _ t i _ h
      | marked w j m k => exact goto_others _ t i _ h
      | placed w j m k => exact goto_others _ t i _ h
      | _ => dsimp only; split <;> first | rfl | exact goto_others _ t i _ h

theorem fatal_run (schedule : List Nat) : ∀ c : MapCalls, c.fatal = true → (c.run schedule).fatal = true := by
  induction schedule with
  | nil => intro c h; exact h
  | cons t ts ih => intro c h; exact ih _ (by simp [MapCalls.step, h])

theorem left_zero {x : Micro} (h : x.left A 0) : ∃ r, x = .at (.leaf r) := by
  cases x with
  | «at» t =>
    cases t with
    | leaf r => exact ⟨r, rfl⟩
    | _ =>
      obtain ⟨k, hk, hw⟩ := h
      have : k = 0 := by omega
      subst this
      obtain ⟨r, hr⟩ := within_zero hw
      cases hr
  | _ => obtain ⟨k, hk, -⟩ := h; omega

theorem left_run (h0 : ∀ w, M w 0) (i : Nat) (schedule : List Nat) : ∀ (c : MapCalls) (n : Nat) (x : Micro), c.kept A M P → c.calls[i]? = some x →
    x.left A n → n ≤ schedule.count i → (c.run schedule).fatal = true ∨ ∃ r, (c.run schedule).calls[i]? = some (.at (.leaf r)) := by
  induction schedule with
  | nil =>
    intro c n x _ hx hw hn
    have : n = 0 := by simpa using hn
    subst this
    obtain ⟨r, rfl⟩ := left_zero hw
    exact .inr ⟨r, hx⟩
  | cons t ts ih =>
    intro c n x h hx hw hn
    have hk := micro_kept_step h0 c t h
    rcases hf : c.fatal with _ | _
    · by_cases ht : t = i
      · subst ht
        rw [List.count_cons_self] at hn
        rcases left_step c h hf t (n - 1) x hx (left_mono (by omega) hw) with hfat | ⟨y, hy, hyw⟩
        · exact .inl (fatal_run ts _ hfat)
        · exact ih _ (n - 1) y hk hy hyw (by omega)
      · rw [List.count_cons_of_ne ht] at hn
        exact ih _ n x hk (by rw [step_others c t i ht, hx]) hw hn
    · exact .inl (fatal_run (t :: ts) c hf)

end

/-! ### The functions -/

section
variable {A : List Bytes → Prop}

theorem inserts_within (ws : List Bytes) : ∀ i r, (inserts ws i (.leaf r)).within A ws.length := by
  induction ws with
  | nil => intro i r; trivial
  | cons w ws ih => intro i r; exact ⟨ws.length, rfl, ih _ _⟩

theorem lookups_within (g : List (Option Nat) → Res (List Val)) (ws : List Bytes) : ∀ got, (lookups ws got fun got => .leaf (g got)).within A ws.length := by
  induction ws with
  | nil => intro got; trivial
  | cons w ws ih =>
    intro got
    refine ⟨ws.length, rfl, fun r => ?_⟩
    cases r with
    | none => trivial
    | some x => exact ih _

theorem picks_within (g : List (List Bytes) → Res (List Val)) (n : Nat) : ∀ d got, (picks n d got fun got => .leaf (g got)).within A n := by
  induction n with
  | zero => intro d got; trivial
  | succ n ih =>
    intro d got
    refine ⟨n, rfl, fun l _ => ?_⟩
    dsimp only
    split
    · trivial
    · exact ih _ _

end

end Bips.Src
