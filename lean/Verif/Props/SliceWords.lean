import Verif.Model.SliceWords
import Verif.Props.MnemonicRace
import Verif.Props.Words
import Verif.Crypto.Go

/-!
# `wordList` as two machine words (C121)
-/

namespace Bips

open Spec

set_option linter.unusedSimpArgs false

/-! ### The words come from some list -/

/-- Each word of what a call holds comes from one of the lists. -/
def HeaderPc.from (ls : List (List Bytes)) : HeaderPc → Prop
  | .store _ l => l ∈ ls
  | .stored _ l => l ∈ ls
  | .done => True
  | .load _ _ got => ∀ h ∈ got, h.array ∈ ls ∧ ∃ l ∈ ls, h.len = l.length
  | .haveAddr _ a got => a ∈ ls ∧ ∀ h ∈ got, h.array ∈ ls ∧ ∃ l ∈ ls, h.len = l.length
  | .haveLen _ k got => (∃ l ∈ ls, k = l.length) ∧ ∀ h ∈ got, h.array ∈ ls ∧ ∃ l ∈ ls, h.len = l.length

/-- Each word of everything comes from one of the lists. -/
def HeaderRun.from (ls : List (List Bytes)) (c : HeaderRun) : Prop :=
  (c.header.array ∈ ls ∧ ∃ l ∈ ls, c.header.len = l.length) ∧ ∀ p ∈ c.pcs, p.from ls

theorem from_set {ls : List (List Bytes)} {pcs : List HeaderPc} (h : ∀ p ∈ pcs, p.from ls) {x : HeaderPc} (hx : x.from ls) (t : Nat) :
    ∀ p ∈ pcs.set t x, p.from ls := by
  intro p hp
  rcases List.mem_or_eq_of_mem_set hp with hp | rfl
  · exact h p hp
  · exact hx

theorem from_step {ls : List (List Bytes)} {c : HeaderRun} (h : c.from ls) (t : Nat) : (c.step t).from ls := by
  unfold HeaderRun.step
  obtain ⟨⟨ha, l₁, hl₁, hk⟩, hp⟩ := h
  have hg : ∀ p, c.pcs[t]? = some p → p.from ls := fun p h => hp p (List.mem_of_getElem? h)
  split <;> rename_i hx
  · exact ⟨⟨ha, l₁, hl₁, hk⟩, hp⟩
  · have := hg _ hx
    refine ⟨⟨this, l₁, hl₁, hk⟩, from_set hp ?_ t⟩
    exact this
  · have := hg _ hx
    refine ⟨⟨ha, _, this, rfl⟩, from_set hp ?_ t⟩
    exact this
  · have := hg _ hx
    refine ⟨⟨ha, _, this, rfl⟩, from_set hp ?_ t⟩
    exact trivial
  · have := hg _ hx
    refine ⟨⟨this, l₁, hl₁, hk⟩, from_set hp ?_ t⟩
    exact trivial
  · exact ⟨⟨ha, l₁, hl₁, hk⟩, hp⟩
  · exact ⟨⟨ha, l₁, hl₁, hk⟩, hp⟩
  · have := hg _ hx
    refine ⟨⟨ha, l₁, hl₁, hk⟩, from_set hp ?_ t⟩
    exact ⟨ha, this⟩
  · have := hg _ hx
    refine ⟨⟨ha, l₁, hl₁, hk⟩, from_set hp ?_ t⟩
    exact ⟨⟨l₁, hl₁, hk⟩, this⟩
  · obtain ⟨h1, h2⟩ := hg _ hx
    refine ⟨⟨ha, l₁, hl₁, hk⟩, from_set hp ?_ t⟩
    intro h hh
    rcases List.mem_append.1 hh with hh | hh
    · exact h2 h hh
    · rw [List.mem_singleton.1 hh]; exact ⟨h1, l₁, hl₁, hk⟩
  · obtain ⟨h1, h2⟩ := hg _ hx
    refine ⟨⟨ha, l₁, hl₁, hk⟩, from_set hp ?_ t⟩
    intro h hh
    rcases List.mem_append.1 hh with hh | hh
    · exact h2 h hh
    · rw [List.mem_singleton.1 hh]; exact ⟨ha, h1⟩

theorem from_run {ls : List (List Bytes)} (schedule : List Nat) : ∀ {c : HeaderRun}, c.from ls → (c.run schedule).from ls := by
  induction schedule with
  | nil => intro c h; exact h
  | cons t schedule ih => intro c h; exact ih (from_step h t)

theorem from_begin (l : List Bytes) (args : List (WordOrder × List Bytes)) (readers : List (WordOrder × Nat)) :
    (HeaderRun.begin l args readers).from (l :: args.map Prod.snd) := by
  refine ⟨⟨by simp [HeaderRun.begin, Header.of], l, by simp, rfl⟩, ?_⟩
  intro p hp
  simp only [HeaderRun.begin, List.mem_append, List.mem_map] at hp
  rcases hp with ⟨a, ha, rfl⟩ | ⟨r, hr, rfl⟩
  · exact List.mem_cons_of_mem _ (List.mem_map_of_mem ha)
  · intro h hh; cases hh

/-- **C121**, any number of calls: the address a reader loads is that of the list set before or of an argument, the length too, but they need not belong together. So a
reader that gets to memory beyond a list has an index between the lengths of two of the lists. -/
theorem C121_words (l : List Bytes) (args : List (WordOrder × List Bytes)) (readers : List (WordOrder × Nat)) (schedule : List Nat) (t : Nat) (o : WordOrder) (n : Nat)
    (got : List Header) (h : ((HeaderRun.begin l args readers).run schedule).pcs[t]? = some (.load o n got)) :
    ∀ x ∈ got, x.array ∈ l :: args.map Prod.snd ∧ (∃ k ∈ l :: args.map Prod.snd, x.len = k.length) ∧
      ∀ i, x.pick i = .beyond → ∃ k ∈ l :: args.map Prod.snd, ∃ k' ∈ l :: args.map Prod.snd, k.length ≤ i ∧ i < k'.length := by
  intro x hx
  obtain ⟨h1, k', hk', h2⟩ := ((from_run schedule (from_begin l args readers)).2 _ (List.mem_of_getElem? h)) x hx
  refine ⟨h1, ⟨k', hk', h2⟩, fun i hi => ⟨_, h1, k', hk', ?_⟩⟩
  unfold Header.pick at hi
  split at hi
  · rename_i hlt
    refine ⟨?_, h2 ▸ hlt⟩
    by_contra hc
    rw [List.getElem?_eq_getElem (by omega)] at hi
    cases hi
  · cases hi

/-! ### Lists of one length -/

/-- The lists a call holds have `m` words, and the headers are those of lists. -/
def HeaderPc.fits (m : Nat) : HeaderPc → Prop
  | .store _ l => l.length = m
  | .stored _ l => l.length = m
  | .done => True
  | .load _ _ got => ∀ h ∈ got, h.array.length = m ∧ h.len = m
  | .haveAddr _ a got => a.length = m ∧ ∀ h ∈ got, h.array.length = m ∧ h.len = m
  | .haveLen _ k got => k = m ∧ ∀ h ∈ got, h.array.length = m ∧ h.len = m

theorem from_fits {m : Nat} {ls : List (List Bytes)} (hm : ∀ l ∈ ls, l.length = m) {p : HeaderPc} (h : p.from ls) : p.fits m := by
  have key : ∀ got : List Header, (∀ h ∈ got, h.array ∈ ls ∧ ∃ l ∈ ls, h.len = l.length) → ∀ h ∈ got, h.array.length = m ∧ h.len = m := by
    intro got hg h hh
    obtain ⟨h1, l, hl, h2⟩ := hg h hh
    exact ⟨hm _ h1, h2.trans (hm _ hl)⟩
  cases p with
  | store o l => exact hm _ h
  | stored o l => exact hm _ h
  | done => trivial
  | load o n got => exact key got h
  | haveAddr n a got => exact ⟨hm _ h.1, key got h.2⟩
  | haveLen n k got =>
    obtain ⟨⟨l, hl, rfl⟩, h2⟩ := h
    exact ⟨hm _ hl, key got h2⟩

/-- What a call has done when the store or load of the address counts for the whole. -/
def HeaderPc.whole : HeaderPc → ListPc
  | .store _ l => .set l
  | .stored .addrFirst _ => .done
  | .stored .lenFirst l => .set l
  | .done => .done
  | .load _ n got => .read n (got.map Header.array)
  | .haveAddr n a got => .read n (got.map Header.array ++ [a])
  | .haveLen n _ got => .read (n + 1) (got.map Header.array)

/-- The list and what the calls have done. -/
def HeaderRun.whole (c : HeaderRun) : ListRun := ⟨c.header.array, c.pcs.map HeaderPc.whole⟩

theorem set_same {α : Type} (f : HeaderPc → α) (pcs : List HeaderPc) (t : Nat) (p x : HeaderPc) (h : pcs[t]? = some p) (hx : f x = f p) :
    (pcs.set t x).map f = pcs.map f := by
  rw [List.map_set, hx]
  apply List.ext_getElem?
  intro k
  by_cases hk : t = k
  · subst hk
    obtain ⟨hl, -⟩ := List.getElem?_eq_some_iff.1 h
    rw [List.getElem?_set_self (by simpa using hl), List.getElem?_map, h]; rfl
  · rw [List.getElem?_set_ne hk]

/-- A step makes the same step with one access for each use, or none. -/
theorem whole_step (c : HeaderRun) (t : Nat) : (c.step t).whole = c.whole.step t ∨ (c.step t).whole = c.whole := by
  have hw : c.whole.pcs[t]? = c.pcs[t]?.map HeaderPc.whole := by simp [HeaderRun.whole]
  unfold HeaderRun.step
  split <;> rename_i hx
  · exact .inr rfl
  · left
    simp only [HeaderRun.whole, List.map_set] at *
    simp [ListRun.step, hx, HeaderPc.whole]
  · right
    simp only [HeaderRun.whole, ListRun.mk.injEq, true_and]
    exact set_same _ _ _ _ _ hx rfl
  · right
    simp only [HeaderRun.whole, ListRun.mk.injEq, true_and]
    exact set_same _ _ _ _ _ hx rfl
  · left
    simp only [HeaderRun.whole, List.map_set] at *
    simp [ListRun.step, hx, HeaderPc.whole]
  · exact .inr rfl
  · exact .inr rfl
  · left
    simp only [HeaderRun.whole, List.map_set] at *
    simp [ListRun.step, hx, HeaderPc.whole]
  · right
    simp only [HeaderRun.whole, ListRun.mk.injEq, true_and]
    exact set_same _ _ _ _ _ hx rfl
  · right
    simp only [HeaderRun.whole, ListRun.mk.injEq, true_and]
    exact set_same _ _ _ _ _ hx (by simp [HeaderPc.whole])
  · left
    simp only [HeaderRun.whole, List.map_set] at *
    simp [ListRun.step, hx, HeaderPc.whole]

theorem whole_run (schedule : List Nat) : ∀ c : HeaderRun, ∃ schedule', (c.run schedule).whole = c.whole.run schedule' := by
  induction schedule with
  | nil => intro c; exact ⟨[], rfl⟩
  | cons t schedule ih =>
    intro c
    obtain ⟨s, hs⟩ := ih (c.step t)
    rcases whole_step c t with h | h
    · exact ⟨t :: s, by rw [show c.run (t :: schedule) = (c.step t).run schedule from rfl, hs, h]; rfl⟩
    · exact ⟨s, by rw [show c.run (t :: schedule) = (c.step t).run schedule from rfl, hs, h]⟩

/-- Between two uses. -/
def HeaderPc.rests : HeaderPc → Prop
  | .store _ _ => True
  | .stored _ _ => False
  | .done => True
  | .load _ _ _ => True
  | .haveAddr _ _ _ => False
  | .haveLen _ _ _ => False

theorem rests_set {pcs : List HeaderPc} (h : ∀ p ∈ pcs, p.rests) {x : HeaderPc} (hx : x.rests) (t : Nat) : ∀ p ∈ pcs.set t x, p.rests := by
  intro p hp
  rcases List.mem_or_eq_of_mem_set hp with hp | rfl
  · exact h p hp
  · exact hx

/-- Two steps of one call after the other are one assignment or use. -/
theorem twice_step (c : HeaderRun) (t : Nat) (h : ∀ p ∈ c.pcs, p.rests) :
    ((c.step t).step t).whole = c.whole.step t ∧ ∀ p ∈ ((c.step t).step t).pcs, p.rests := by
  rcases hx : c.pcs[t]? with _ | p
  · have : c.step t = c := by simp [HeaderRun.step, hx]
    rw [this, this]
    refine ⟨?_, h⟩
    simp [ListRun.step, HeaderRun.whole, hx]
  · obtain ⟨ht, -⟩ := List.getElem?_eq_some_iff.1 hx
    have hr := h p (List.mem_of_getElem? hx)
    rcases p with ⟨_ | _, l⟩ | ⟨_, l⟩ | _ | ⟨_ | _, _ | n, got⟩ | ⟨n, a, got⟩ | ⟨n, k, got⟩
    · have hs : ∀ x, (c.pcs.set t x)[t]? = some x := fun x => List.getElem?_set_self ht
      refine ⟨?_, ?_⟩
      · simp only [HeaderRun.step, hx, hs, List.set_set, ListRun.step, HeaderRun.whole, HeaderPc.whole, List.getElem?_map, Option.map_some, List.map_set, List.map_append,
          List.map_cons, List.map_nil]
      · simp only [HeaderRun.step, hx, hs, List.set_set]
        refine rests_set h ?_ t
        trivial
    · have hs : ∀ x, (c.pcs.set t x)[t]? = some x := fun x => List.getElem?_set_self ht
      refine ⟨?_, ?_⟩
      · simp only [HeaderRun.step, hx, hs, List.set_set, ListRun.step, HeaderRun.whole, HeaderPc.whole, List.getElem?_map, Option.map_some, List.map_set, List.map_append,
          List.map_cons, List.map_nil]
      · simp only [HeaderRun.step, hx, hs, List.set_set]
        refine rests_set h ?_ t
        trivial
    · exact hr.elim
    · simp [HeaderRun.step, hx, ListRun.step, HeaderRun.whole, HeaderPc.whole]
      exact h
    · simp [HeaderRun.step, hx, ListRun.step, HeaderRun.whole, HeaderPc.whole]
      exact h
    · have hs : ∀ x, (c.pcs.set t x)[t]? = some x := fun x => List.getElem?_set_self ht
      refine ⟨?_, ?_⟩
      · simp only [HeaderRun.step, hx, hs, List.set_set, ListRun.step, HeaderRun.whole, HeaderPc.whole, List.getElem?_map, Option.map_some, List.map_set, List.map_append,
          List.map_cons, List.map_nil]
      · simp only [HeaderRun.step, hx, hs, List.set_set]
        refine rests_set h ?_ t
        trivial
    · simp [HeaderRun.step, hx, ListRun.step, HeaderRun.whole, HeaderPc.whole]
      exact h
    · have hs : ∀ x, (c.pcs.set t x)[t]? = some x := fun x => List.getElem?_set_self ht
      refine ⟨?_, ?_⟩
      · simp only [HeaderRun.step, hx, hs, List.set_set, ListRun.step, HeaderRun.whole, HeaderPc.whole, List.getElem?_map, Option.map_some, List.map_set, List.map_append,
          List.map_cons, List.map_nil]
      · simp only [HeaderRun.step, hx, hs, List.set_set]
        refine rests_set h ?_ t
        trivial
    · exact hr.elim
    · exact hr.elim

theorem twice_run (schedule : List Nat) : ∀ c : HeaderRun, (∀ p ∈ c.pcs, p.rests) →
    (c.run (schedule.flatMap fun t => [t, t])).whole = c.whole.run schedule ∧ ∀ p ∈ (c.run (schedule.flatMap fun t => [t, t])).pcs, p.rests := by
  induction schedule with
  | nil => intro c h; exact ⟨rfl, h⟩
  | cons t schedule ih =>
    intro c h
    obtain ⟨h1, h2⟩ := twice_step c t h
    obtain ⟨h3, h4⟩ := ih _ h2
    refine ⟨?_, h4⟩
    rw [show c.run ((t :: schedule).flatMap fun t => [t, t]) = ((c.step t).step t).run (schedule.flatMap fun t => [t, t]) from rfl, h3, h1]
    rfl

theorem begin_whole (l : List Bytes) (args : List (WordOrder × List Bytes)) (readers : List (WordOrder × Nat)) :
    (HeaderRun.begin l args readers).whole = ListRun.begin l (args.map Prod.snd) (readers.map Prod.snd) := by
  simp [HeaderRun.begin, ListRun.begin, HeaderRun.whole, Header.of, Function.comp_def, HeaderPc.whole]

theorem begin_rests (l : List Bytes) (args : List (WordOrder × List Bytes)) (readers : List (WordOrder × Nat)) :
    ∀ p ∈ (HeaderRun.begin l args readers).pcs, p.rests := by
  intro p hp
  simp only [HeaderRun.begin, List.mem_append, List.mem_map] at hp
  rcases hp with ⟨a, ha, rfl⟩ | ⟨r, hr, rfl⟩ <;> trivial

theorem of_arrays {m : Nat} {got : List Header} (h : ∀ h ∈ got, h.array.length = m ∧ h.len = m) : got = (got.map Header.array).map Header.of := by
  rw [List.map_map]
  conv_lhs => rw [← List.map_id got]
  apply List.map_congr_left
  intro x hx
  obtain ⟨h1, h2⟩ := h x hx
  rcases x with ⟨a, k⟩
  simp_all [Header.of]

/-- The order in which a reader loads. -/
def HeaderPc.order : HeaderPc → Option WordOrder
  | .store _ _ => none
  | .stored _ _ => none
  | .done => none
  | .load o _ _ => some o
  | .haveAddr _ _ _ => some .addrFirst
  | .haveLen _ _ _ => some .lenFirst

theorem order_step (c : HeaderRun) (t : Nat) : (c.step t).pcs.map HeaderPc.order = c.pcs.map HeaderPc.order := by
  unfold HeaderRun.step
  split <;> rename_i hx <;> first | rfl | exact set_same _ _ _ _ _ hx rfl

theorem order_run (schedule : List Nat) : ∀ c : HeaderRun, (c.run schedule).pcs.map HeaderPc.order = c.pcs.map HeaderPc.order := by
  induction schedule with
  | nil => intro c; rfl
  | cons t schedule ih => intro c; exact (ih (c.step t)).trans (order_step c t)

/-- **C121**, lists of one length: whatever the orders of stores and loads, what is left in `wordList` and what each call loads is what it would be if each assignment
and each use were one step; and everything that can happen then can happen with two. -/
theorem C121_same_length (l : List Bytes) (args : List (WordOrder × List Bytes)) (readers : List (WordOrder × Nat))
    (hl : ∀ a ∈ args, a.2.length = l.length) :
    (∀ schedule, ∃ schedule', let c := (HeaderRun.begin l args readers).run schedule
      let d := (ListRun.begin l (args.map Prod.snd) (readers.map Prod.snd)).run schedule'
      c.header = .of d.list ∧ ∀ (t : Nat) o n got, c.pcs[t]? = some (.load o n got) → ∃ lists, d.pcs[t]? = some (.read n lists) ∧ got = lists.map Header.of) ∧
    (∀ schedule', ∃ schedule, let c := (HeaderRun.begin l args readers).run schedule
      let d := (ListRun.begin l (args.map Prod.snd) (readers.map Prod.snd)).run schedule'
      c.header = .of d.list ∧ ∀ (t : Nat) n lists, d.pcs[t]? = some (.read n lists) → ∃ o, c.pcs[t]? = some (.load o n (lists.map Header.of))) := by
  have hls : ∀ k ∈ l :: args.map Prod.snd, k.length = l.length := by
    intro k hk
    rcases List.mem_cons.1 hk with rfl | hk
    · rfl
    · obtain ⟨a, ha, rfl⟩ := List.mem_map.1 hk
      exact hl a ha
  have hh : ∀ schedule, ((HeaderRun.begin l args readers).run schedule).header = .of ((HeaderRun.begin l args readers).run schedule).whole.list := by
    intro schedule
    obtain ⟨⟨h1, k, hk, h2⟩, -⟩ := from_run schedule (from_begin l args readers)
    have e1 := hls _ h1
    have e2 := h2.trans (hls _ hk)
    show _ = Header.of ((HeaderRun.begin l args readers).run schedule).header.array
    generalize ((HeaderRun.begin l args readers).run schedule).header = x at e1 e2
    rcases x with ⟨a, k⟩
    simp_all [Header.of]
  have hf : ∀ schedule, ∀ (t : Nat) p, ((HeaderRun.begin l args readers).run schedule).pcs[t]? = some p → p.fits l.length := fun schedule t p h =>
    from_fits hls ((from_run schedule (from_begin l args readers)).2 p (List.mem_of_getElem? h))
  refine ⟨fun schedule => ?_, fun schedule' => ?_⟩
  · obtain ⟨s, hs⟩ := whole_run schedule (HeaderRun.begin l args readers)
    rw [begin_whole] at hs
    refine ⟨s, ?_⟩
    intro c d
    refine ⟨(hh schedule).trans (by rw [hs]), ?_⟩
    intro t o n got hg
    refine ⟨got.map Header.array, ?_, of_arrays (hf schedule t _ hg)⟩
    show ((ListRun.begin l (args.map Prod.snd) (readers.map Prod.snd)).run s).pcs[t]? = _
    rw [← hs]
    have : c.whole.pcs[t]? = c.pcs[t]?.map HeaderPc.whole := by simp [HeaderRun.whole]
    exact this.trans (by rw [hg]; rfl)
  · obtain ⟨hs, hr⟩ := twice_run schedule' (HeaderRun.begin l args readers) (begin_rests l args readers)
    rw [begin_whole] at hs
    refine ⟨schedule'.flatMap fun t => [t, t], ?_⟩
    intro c d
    refine ⟨(hh _).trans (by rw [hs]), ?_⟩
    intro t n lists hg
    have hd : c.whole = d := hs
    rw [← hd] at hg
    have hw : c.whole.pcs[t]? = c.pcs[t]?.map HeaderPc.whole := by simp [HeaderRun.whole]
    rw [hw] at hg
    rcases hp : c.pcs[t]? with _ | p
    · rw [hp] at hg; cases hg
    · have hrp := hr p (List.mem_of_getElem? hp)
      have hfp := hf _ t p hp
      rw [hp] at hg
      rcases p with ⟨_, l⟩ | ⟨_, l⟩ | _ | ⟨o, n', got⟩ | ⟨n, a, got⟩ | ⟨n, k, got⟩
      · cases hg
      · exact hrp.elim
      · cases hg
      · simp only [Option.map_some, HeaderPc.whole, Option.some.injEq, ListPc.read.injEq] at hg
        obtain ⟨rfl, rfl⟩ := hg
        exact ⟨o, by rw [← of_arrays hfp]⟩
      · exact hrp.elim
      · exact hrp.elim

/-! ### One use beside one assignment -/

/-- `wordList` after `s` stores of the call that replaces `l` with `l'`. -/
def storedAt (o : WordOrder) (l l' : List Bytes) : Nat → Header
  | 0 => .of l
  | 1 => match o with
    | .addrFirst => ⟨l', l.length⟩
    | .lenFirst => ⟨l, l'.length⟩
  | _ + 2 => .of l'

/-- Where that call is. -/
def storePc (o : WordOrder) (l' : List Bytes) : Nat → HeaderPc
  | 0 => .store o l'
  | 1 => .stored o l'
  | _ + 2 => .done

/-- Where the reader is after its first load. -/
def firstPc (o : WordOrder) (h : Header) : HeaderPc :=
  match o with
  | .addrFirst => .haveAddr 0 h.array []
  | .lenFirst => .haveLen 0 h.len []

/-- What it has after its second. -/
def mixed (o : WordOrder) (h h' : Header) : Header :=
  match o with
  | .addrFirst => ⟨h.array, h'.len⟩
  | .lenFirst => ⟨h'.array, h.len⟩

theorem one_use_step (o o' : WordOrder) (l l' : List Bytes) (c : HeaderRun)
    (h : ∃ s ≤ 2, ∃ r, c = ⟨storedAt o l l' s, [storePc o l' s, r]⟩ ∧ (r = .load o' 1 [] ∨ (∃ a ≤ s, r = firstPc o' (storedAt o l l' a)) ∨
      ∃ a b, a ≤ b ∧ b ≤ s ∧ r = .load o' 0 [mixed o' (storedAt o l l' a) (storedAt o l l' b)])) (t : Nat) :
    ∃ s ≤ 2, ∃ r, c.step t = ⟨storedAt o l l' s, [storePc o l' s, r]⟩ ∧ (r = .load o' 1 [] ∨ (∃ a ≤ s, r = firstPc o' (storedAt o l l' a)) ∨
      ∃ a b, a ≤ b ∧ b ≤ s ∧ r = .load o' 0 [mixed o' (storedAt o l l' a) (storedAt o l l' b)]) := by
  obtain ⟨s, hs, r, rfl, hr⟩ := h
  rcases t with _ | _ | t
  · by_cases h2 : s = 2
    · exact ⟨s, hs, r, by subst h2; rfl, hr⟩
    · refine ⟨s + 1, by omega, r, ?_, ?_⟩
      · have : s = 0 ∨ s = 1 := by omega
        rcases this with rfl | rfl <;> cases o <;> rfl
      · rcases hr with h | ⟨a, ha, h⟩ | ⟨a, b, ha, hb, h⟩
        · exact .inl h
        · exact .inr (.inl ⟨a, by omega, h⟩)
        · exact .inr (.inr ⟨a, b, ha, by omega, h⟩)
  · rcases hr with rfl | ⟨a, ha, rfl⟩ | ⟨a, b, ha, hb, rfl⟩
    · exact ⟨s, hs, firstPc o' (storedAt o l l' s), by cases o' <;> rfl, .inr (.inl ⟨s, le_refl _, rfl⟩)⟩
    · exact ⟨s, hs, _, by cases o' <;> rfl, .inr (.inr ⟨a, s, ha, le_refl _, rfl⟩)⟩
    · exact ⟨s, hs, _, rfl, .inr (.inr ⟨a, b, ha, hb, rfl⟩)⟩
  · exact ⟨s, hs, r, rfl, hr⟩

theorem one_use_run (o o' : WordOrder) (l l' : List Bytes) (schedule : List Nat) :
    ∀ c : HeaderRun, (∃ s ≤ 2, ∃ r, c = ⟨storedAt o l l' s, [storePc o l' s, r]⟩ ∧ (r = .load o' 1 [] ∨ (∃ a ≤ s, r = firstPc o' (storedAt o l l' a)) ∨
      ∃ a b, a ≤ b ∧ b ≤ s ∧ r = .load o' 0 [mixed o' (storedAt o l l' a) (storedAt o l l' b)])) →
    ∃ s ≤ 2, ∃ r, c.run schedule = ⟨storedAt o l l' s, [storePc o l' s, r]⟩ ∧ (r = .load o' 1 [] ∨ (∃ a ≤ s, r = firstPc o' (storedAt o l l' a)) ∨
      ∃ a b, a ≤ b ∧ b ≤ s ∧ r = .load o' 0 [mixed o' (storedAt o l l' a) (storedAt o l l' b)]) := by
  induction schedule with
  | nil => intro c h; exact h
  | cons t schedule ih => intro c h; exact ih _ (one_use_step o o' l l' c h t)

/-- **C121**, one use of `wordList` (as in `GetWordList`) beside `SetWordList(l')`, exactly: the old list, the new list, the address of the old with the length of the new
unless the address is stored first and loaded last, and the address of the new with the length of the old unless it is stored last and loaded first. -/
theorem C121_use_iff (o o' : WordOrder) (l l' : List Bytes) (x : Header) :
    (∃ schedule, ((HeaderRun.begin l [(o, l')] [(o', 1)]).run schedule).pcs[1]? = some (.load o' 0 [x])) ↔
      x = .of l ∨ x = .of l' ∨ (x = ⟨l, l'.length⟩ ∧ (o = .lenFirst ∨ o' = .addrFirst)) ∨ (x = ⟨l', l.length⟩ ∧ (o = .addrFirst ∨ o' = .lenFirst)) := by
  constructor
  · rintro ⟨schedule, h⟩
    obtain ⟨s, hs, r, hc, hr⟩ := one_use_run o o' l l' schedule (HeaderRun.begin l [(o, l')] [(o', 1)]) ⟨0, by omega, _, rfl, .inl rfl⟩
    rw [hc] at h
    have hrx : r = .load o' 0 [x] := Option.some.inj h
    subst hrx
    rcases hr with h | ⟨a, ha, h⟩ | ⟨a, b, ha, hb, h⟩
    · cases h
    · cases o' <;> cases h
    · simp only [HeaderPc.load.injEq, List.cons.injEq, and_true, true_and] at h
      subst h
      have hb2 : b ≤ 2 := by omega
      have ha2 : a ≤ 2 := by omega
      interval_cases b <;> interval_cases a <;> cases o <;> cases o' <;> simp [mixed, storedAt, Header.of]
  · have key : ∀ a b, a ≤ b → b ≤ 2 → x = mixed o' (storedAt o l l' a) (storedAt o l l' b) →
        ∃ schedule, ((HeaderRun.begin l [(o, l')] [(o', 1)]).run schedule).pcs[1]? = some (.load o' 0 [x]) := by
      rintro a b hab hb rfl
      refine ⟨List.replicate a 0 ++ [1] ++ List.replicate (b - a) 0 ++ [1], ?_⟩
      have ha2 : a ≤ 2 := by omega
      interval_cases b <;> interval_cases a <;> cases o <;> cases o' <;> rfl
    rintro (h | h | ⟨h, h'⟩ | ⟨h, h'⟩)
    · exact key 0 0 (by omega) (by omega) (by rw [h]; cases o' <;> rfl)
    · exact key 2 2 (by omega) (by omega) (by rw [h]; cases o' <;> rfl)
    · cases o
      · rcases h' with h' | rfl
        · cases h'
        · exact key 0 2 (by omega) (by omega) h
      · exact key 1 1 (by omega) (by omega) (by rw [h]; cases o' <;> rfl)
    · cases o
      · exact key 1 1 (by omega) (by omega) (by rw [h]; cases o' <;> rfl)
      · rcases h' with h' | rfl
        · cases h'
        · exact key 0 2 (by omega) (by omega) h

theorem pick_beyond_iff (x : Header) (i : Nat) : x.pick i = .beyond ↔ x.array.length ≤ i ∧ i < x.len := by
  unfold Header.pick
  by_cases h : i < x.len
  · rw [if_pos h]
    by_cases h2 : i < x.array.length
    · rw [List.getElem?_eq_getElem h2]; simp; omega
    · rw [List.getElem?_eq_none (by omega)]; simp; omega
  · rw [if_neg h]; simp; omega

/-- **C121**, indexing `wordList` beside `SetWordList(l')` can get to memory beyond a list exactly if the index is between the lengths of the lists and the orders of stores
and loads do not exclude it. -/
theorem C121_beyond_iff (o o' : WordOrder) (l l' : List Bytes) (i : Nat) :
    (∃ schedule x, ((HeaderRun.begin l [(o, l')] [(o', 1)]).run schedule).pcs[1]? = some (.load o' 0 [x]) ∧ x.pick i = .beyond) ↔
      (l.length ≤ i ∧ i < l'.length ∧ (o = .lenFirst ∨ o' = .addrFirst)) ∨ (l'.length ≤ i ∧ i < l.length ∧ (o = .addrFirst ∨ o' = .lenFirst)) := by
  constructor
  · rintro ⟨schedule, x, h, hx⟩
    rw [pick_beyond_iff] at hx
    rcases (C121_use_iff o o' l l' x).1 ⟨schedule, h⟩ with rfl | rfl | ⟨rfl, h'⟩ | ⟨rfl, h'⟩
    · simp only [Header.of] at hx; omega
    · simp only [Header.of] at hx; omega
    · exact .inl ⟨hx.1, hx.2, h'⟩
    · exact .inr ⟨hx.1, hx.2, h'⟩
  · rintro (⟨h1, h2, h'⟩ | ⟨h1, h2, h'⟩)
    · obtain ⟨s, hs⟩ := (C121_use_iff o o' l l' ⟨l, l'.length⟩).2 (.inr (.inr (.inl ⟨rfl, h'⟩)))
      exact ⟨s, _, hs, (pick_beyond_iff _ _).2 ⟨h1, h2⟩⟩
    · obtain ⟨s, hs⟩ := (C121_use_iff o o' l l' ⟨l', l.length⟩).2 (.inr (.inr (.inr ⟨rfl, h'⟩)))
      exact ⟨s, _, hs, (pick_beyond_iff _ _).2 ⟨h1, h2⟩⟩

/-- **C121**, whatever the orders of stores and loads: some replacement of one list by another can get a reader beyond a list, and it is one of a
longer list by a shorter one if the address is stored first, of a shorter by a longer one if the length is. -/
theorem C121_every_order (o o' : WordOrder) (l l' : List Bytes) (i : Nat)
    (h : match o with | .addrFirst => l'.length ≤ i ∧ i < l.length | .lenFirst => l.length ≤ i ∧ i < l'.length) :
    ∃ schedule x, ((HeaderRun.begin l [(o, l')] [(o', 1)]).run schedule).pcs[1]? = some (.load o' 0 [x]) ∧ x.pick i = .beyond := by
  rw [C121_beyond_iff]
  cases o
  · exact .inr ⟨h.1, h.2, .inl rfl⟩
  · exact .inl ⟨h.1, h.2, .inl rfl⟩

/-! ### Two assignments -/

theorem left_step (hd : Header) (o : WordOrder) (c : HeaderRun) (h : c.header = hd ∧ c.pcs.take 2 = [.done, .done] ∧ c.pcs.length = 3 ∧
      ((∃ n got, c.pcs[2]? = some (.load o n got) ∧ ∀ x ∈ got, x = hd) ∨ (∃ n got, c.pcs[2]? = some (.haveAddr n hd.array got) ∧ o = .addrFirst ∧ ∀ x ∈ got, x = hd) ∨
        ∃ n got, c.pcs[2]? = some (.haveLen n hd.len got) ∧ o = .lenFirst ∧ ∀ x ∈ got, x = hd)) (t : Nat) :
    (c.step t).header = hd ∧ (c.step t).pcs.take 2 = [.done, .done] ∧ (c.step t).pcs.length = 3 ∧
      ((∃ n got, (c.step t).pcs[2]? = some (.load o n got) ∧ ∀ x ∈ got, x = hd) ∨
        (∃ n got, (c.step t).pcs[2]? = some (.haveAddr n hd.array got) ∧ o = .addrFirst ∧ ∀ x ∈ got, x = hd) ∨
        ∃ n got, (c.step t).pcs[2]? = some (.haveLen n hd.len got) ∧ o = .lenFirst ∧ ∀ x ∈ got, x = hd) := by
  obtain ⟨h1, h2, h3, h4⟩ := h
  rcases c with ⟨hh, _ | ⟨p, _ | ⟨q, _ | ⟨r, _ | ⟨z, zs⟩⟩⟩⟩⟩
  · simp at h3
  · simp at h3
  · simp at h3
  · simp only [List.take_succ_cons, List.take_zero, List.cons.injEq, and_true] at h2
    obtain ⟨rfl, rfl⟩ := h2
    subst h1
    rcases t with _ | _ | _ | t
    · exact ⟨rfl, rfl, rfl, h4⟩
    · exact ⟨rfl, rfl, rfl, h4⟩
    · have grow : ∀ got : List Header, (∀ x ∈ got, x = hh) → ∀ x ∈ got ++ [hh], x = hh := by
        intro got hg x hx
        rcases List.mem_append.1 hx with hx | hx
        · exact hg x hx
        · exact List.mem_singleton.1 hx
      rcases h4 with ⟨n, got, hr, hg⟩ | ⟨n, got, hr, rfl, hg⟩ | ⟨n, got, hr, rfl, hg⟩
      · have hr : r = .load o n got := Option.some.inj hr
        subst hr
        rcases n with _ | n
        · cases o <;> exact ⟨rfl, rfl, rfl, .inl ⟨0, got, rfl, hg⟩⟩
        · cases o
          · exact ⟨rfl, rfl, rfl, .inr (.inl ⟨n, got, rfl, rfl, hg⟩)⟩
          · exact ⟨rfl, rfl, rfl, .inr (.inr ⟨n, got, rfl, rfl, hg⟩)⟩
      · have hr : r = .haveAddr n hh.array got := Option.some.inj hr
        subst hr
        exact ⟨rfl, rfl, rfl, .inl ⟨n, got ++ [hh], rfl, grow got hg⟩⟩
      · have hr : r = .haveLen n hh.len got := Option.some.inj hr
        subst hr
        exact ⟨rfl, rfl, rfl, .inl ⟨n, got ++ [hh], rfl, grow got hg⟩⟩
    · exact ⟨rfl, rfl, rfl, h4⟩
  · simp at h3

theorem left_run (hd : Header) (o : WordOrder) (schedule : List Nat) : ∀ c : HeaderRun, (c.header = hd ∧ c.pcs.take 2 = [.done, .done] ∧ c.pcs.length = 3 ∧
      ((∃ n got, c.pcs[2]? = some (.load o n got) ∧ ∀ x ∈ got, x = hd) ∨ (∃ n got, c.pcs[2]? = some (.haveAddr n hd.array got) ∧ o = .addrFirst ∧ ∀ x ∈ got, x = hd) ∨
        ∃ n got, c.pcs[2]? = some (.haveLen n hd.len got) ∧ o = .lenFirst ∧ ∀ x ∈ got, x = hd)) →
    (c.run schedule).header = hd ∧ (c.run schedule).pcs.take 2 = [.done, .done] ∧ (c.run schedule).pcs.length = 3 ∧
      ((∃ n got, (c.run schedule).pcs[2]? = some (.load o n got) ∧ ∀ x ∈ got, x = hd) ∨
        (∃ n got, (c.run schedule).pcs[2]? = some (.haveAddr n hd.array got) ∧ o = .addrFirst ∧ ∀ x ∈ got, x = hd) ∨
        ∃ n got, (c.run schedule).pcs[2]? = some (.haveLen n hd.len got) ∧ o = .lenFirst ∧ ∀ x ∈ got, x = hd) := by
  induction schedule with
  | nil => intro c h; exact h
  | cons t schedule ih => intro c h; exact ih _ (left_step hd o c h t)

/-- **C121**, two calls of `SetWordList` at the same time, by the same code: when both have returned, `wordList` can have the address of the one list and the length of the
other, for good: whoever uses it later, alone, gets that. -/
theorem C121_left (o o' : WordOrder) (l a b : List Bytes) (n : Nat) :
    ∃ schedule, ∀ later, let c := (HeaderRun.begin l [(o, a), (o, b)] [(o', n)]).run (schedule ++ later)
      c.header = ⟨b, a.length⟩ ∧ c.pcs.take 2 = [.done, .done] ∧ ∀ k got, c.pcs[2]? = some (.load o' k got) → ∀ x ∈ got, x = ⟨b, a.length⟩ := by
  refine ⟨match o with | .addrFirst => [0, 1, 1, 0] | .lenFirst => [1, 0, 0, 1], fun later => ?_⟩
  intro c
  have hc : c = HeaderRun.run ⟨⟨b, a.length⟩, [.done, .done, .load o' n []]⟩ later := by
    show HeaderRun.run _ _ = _
    unfold HeaderRun.run
    rw [List.foldl_append]
    cases o <;> rfl
  obtain ⟨h1, h2, -, h4⟩ := left_run ⟨b, a.length⟩ o' later ⟨⟨b, a.length⟩, [.done, .done, .load o' n []]⟩
    ⟨rfl, rfl, rfl, .inl ⟨n, [], rfl, by simp⟩⟩
  rw [← hc] at h1 h2 h4
  refine ⟨h1, h2, ?_⟩
  intro k got hk
  rcases h4 with ⟨n, g, hr, hg⟩ | ⟨n, g, hr, -, hg⟩ | ⟨n, g, hr, -, hg⟩
  · rw [hk] at hr
    simp only [Option.some.injEq, HeaderPc.load.injEq] at hr
    obtain ⟨-, -, rfl⟩ := hr
    exact hg
  · rw [hk] at hr; cases hr
  · rw [hk] at hr; cases hr

/-! ### `NewMnemonic` -/

theorem encode_headers (lists : List (List Bytes)) : ∀ (k n : Nat) (acc : List Bytes),
    encodeWordsHeaders (lists.map Header.of) k n acc = some (encodeWordsRacing lists k n acc) := by
  induction lists with
  | nil => intro k n acc; cases k <;> rfl
  | cons l lists ih =>
    intro k n acc
    cases k with
    | zero => rfl
    | succ k =>
      simp only [List.map_cons, encodeWordsHeaders, encodeWordsRacing, Header.pick, Header.of]
      generalize setBytes (padByteSlice (bigBytes (n &&& 2047)) 2) = i
      by_cases h : i < l.length
      · simp only [h, if_true, List.getElem?_eq_getElem]
        exact ih k _ _
      · simp only [h, if_false]
        rw [List.getElem?_eq_none (by omega)]

theorem newMnemonic_headers (H : Hashes) (lists : List (List Bytes)) (e : Bytes) :
    newMnemonicHeaders H (lists.map Header.of) e = some (newMnemonicRacing H lists e) := by
  unfold newMnemonicHeaders newMnemonicRacing
  dsimp only
  rcases validateEntropyBitSize ((e.length * 8 : Nat) : Int) with _ | x
  swap
  · rfl
  · dsimp only
    rw [encode_headers]
    rcases encodeWordsRacing lists ((e.length * 8 + e.length * 8 / 32) / 11) (setBytes (addChecksum H e)) [] with _ | _ <;> rfl

theorem one_reader_step (l l' : List Bytes) (n : Nat) (c : ListRun)
    (h : ∃ s ≤ 1, ∃ (k : Nat) (times : List Nat), c = ⟨if s = 0 then l else l', [if s = 0 then .set l' else .done, .read k (times.map fun t : Nat => if t = 0 then l else l')]⟩ ∧
      k + times.length = n ∧ times.Pairwise (· ≤ ·) ∧ ∀ t ∈ times, t ≤ s) (t : Nat) :
    ∃ s ≤ 1, ∃ (k : Nat) (times : List Nat), c.step t = ⟨if s = 0 then l else l', [if s = 0 then .set l' else .done, .read k (times.map fun t : Nat => if t = 0 then l else l')]⟩ ∧
      k + times.length = n ∧ times.Pairwise (· ≤ ·) ∧ ∀ t ∈ times, t ≤ s := by
  obtain ⟨s, hs, k, times, rfl, h1, h2, h3⟩ := h
  rcases t with _ | _ | t
  · have : s = 0 ∨ s = 1 := by omega
    rcases this with rfl | rfl
    · exact ⟨1, by omega, k, times, rfl, h1, h2, fun t ht => (h3 t ht).trans (by omega)⟩
    · exact ⟨1, by omega, k, times, rfl, h1, h2, h3⟩
  · rcases k with _ | k
    · exact ⟨s, hs, 0, times, rfl, h1, h2, h3⟩
    · refine ⟨s, hs, k, times ++ [s], ?_, by simp; omega, ?_, ?_⟩
      · simp [ListRun.step]
      · rw [List.pairwise_append]
        exact ⟨h2, List.pairwise_singleton _ _, fun a ha b hb => by rw [List.mem_singleton.1 hb]; exact h3 a ha⟩
      · intro t ht
        rcases List.mem_append.1 ht with ht | ht
        · exact h3 t ht
        · rw [List.mem_singleton.1 ht]
  · exact ⟨s, hs, k, times, rfl, h1, h2, h3⟩

theorem one_reader_run (l l' : List Bytes) (n : Nat) (schedule : List Nat) : ∀ c : ListRun,
    (∃ s ≤ 1, ∃ (k : Nat) (times : List Nat), c = ⟨if s = 0 then l else l', [if s = 0 then .set l' else .done, .read k (times.map fun t : Nat => if t = 0 then l else l')]⟩ ∧
      k + times.length = n ∧ times.Pairwise (· ≤ ·) ∧ ∀ t ∈ times, t ≤ s) →
    ∃ s ≤ 1, ∃ (k : Nat) (times : List Nat), c.run schedule = ⟨if s = 0 then l else l', [if s = 0 then .set l' else .done, .read k (times.map fun t : Nat => if t = 0 then l else l')]⟩ ∧
      k + times.length = n ∧ times.Pairwise (· ≤ ·) ∧ ∀ t ∈ times, t ≤ s := by
  induction schedule with
  | nil => intro c h; exact h
  | cons t schedule ih => intro c h; exact ih _ (one_reader_step l l' n c h t)

theorem reads_run (l : List Bytes) (p : ListPc) (m : Nat) : ∀ (k : Nat) (got : List (List Bytes)),
    ListRun.run ⟨l, [p, .read (k + m) got]⟩ (List.replicate k 1) = ⟨l, [p, .read m (got ++ List.replicate k l)]⟩ := by
  intro k
  induction k with
  | zero => intro got; simp [ListRun.run]
  | succ k ih =>
    intro got
    rw [List.replicate_succ, show ListRun.run ⟨l, [p, .read (k + 1 + m) got]⟩ (1 :: List.replicate k 1) =
      ListRun.run (ListRun.step ⟨l, [p, .read (k + 1 + m) got]⟩ 1) (List.replicate k 1) from rfl,
      show k + 1 + m = (k + m) + 1 by omega, show ListRun.step ⟨l, [p, .read (k + m + 1) got]⟩ 1 = ⟨l, [p, .read (k + m) (got ++ [l])]⟩ from rfl, ih,
      List.append_assoc, List.replicate_succ]
    rfl

theorem writer_list (S : WordState) (l' : List Bytes) (t : Nat) : (writerState S l' t).list = if t = 0 then S.list else l' := by
  rcases t with _ | _ | t <;> rfl

/-- The lists a reader gets beside `SetWordList(l')`. -/
theorem one_reader (S : WordState) (l' : List Bytes) (n : Nat) (lists : List (List Bytes)) :
    (∃ schedule, ((ListRun.begin S.list [l'] [n]).run schedule).pcs[1]? = some (.read 0 lists)) ↔
      ∃ times, Schedule l' n times ∧ lists = times.map fun t => (writerState S l' t).list := by
  simp only [writer_list]
  constructor
  · rintro ⟨schedule, h⟩
    obtain ⟨s, hs, k, times, hc, h1, h2, h3⟩ := one_reader_run S.list l' n schedule (ListRun.begin S.list [l'] [n])
      ⟨0, by omega, n, [], rfl, by simp, List.Pairwise.nil, by simp⟩
    rw [hc] at h
    have h : ListPc.read k (times.map fun t : Nat => if t = 0 then S.list else l') = .read 0 lists := Option.some.inj h
    simp only [ListPc.read.injEq] at h
    obtain ⟨rfl, rfl⟩ := h
    exact ⟨times, ⟨by omega, h2, fun t ht => (h3 t ht).trans (by unfold writerSteps; omega)⟩, rfl⟩
  · rintro ⟨times, ⟨h1, h2, -⟩, rfl⟩
    have hsp := schedule_split times h2 S.list l' S.map
    simp only [writer_list] at hsp
    have hcnt := List.count_le_length (a := 0) (l := times)
    refine ⟨List.replicate (times.count 0) 1 ++ [0] ++ List.replicate (n - times.count 0) 1, ?_⟩
    rw [hsp, show ListRun.begin S.list [l'] [n] = ⟨S.list, [.set l', .read (times.count 0 + (n - times.count 0)) []]⟩ by
      rw [Nat.add_sub_cancel' (by omega)]; rfl]
    have r1 := reads_run S.list (.set l') (n - times.count 0) (times.count 0) []
    have r2 := reads_run l' .done 0 (n - times.count 0) ([] ++ List.replicate (times.count 0) S.list)
    unfold ListRun.run at r1 r2 ⊢
    rw [List.foldl_append, List.foldl_append, r1, List.foldl_cons, List.foldl_nil,
      show ListRun.step ⟨S.list, [.set l', .read (n - times.count 0) ([] ++ List.replicate (times.count 0) S.list)]⟩ 0 =
        ⟨l', [.done, .read (n - times.count 0 + 0) ([] ++ List.replicate (times.count 0) S.list)]⟩ from rfl, r2, h1]
    rfl

/-- **C121**, `NewMnemonic` beside `SetWordList` of a list as long as the one in force: it never gets beyond a list, and its results are those of the model
in which each assignment and use is one step (C13, C120), no others and all of them. -/
theorem C121_mnemonic (H : Hashes) (o o' : WordOrder) (S : WordState) (l' : List Bytes) (hl : l'.length = S.list.length) (e : Bytes)
    (r : Option (Outcome (Bytes × Option Err))) :
    (∃ schedule got, ((HeaderRun.begin S.list [(o, l')] [(o', (e.length * 8 + e.length * 8 / 32) / 11)]).run schedule).pcs[1]? = some (.load o' 0 got) ∧
      r = newMnemonicHeaders H got e) ↔
      ∃ times, Schedule l' ((e.length * 8 + e.length * 8 / 32) / 11) times ∧ r = some (newMnemonicScheduled H S l' times e) := by
  obtain ⟨h1, h2⟩ := C121_same_length S.list [(o, l')] [(o', (e.length * 8 + e.length * 8 / 32) / 11)] (by simpa using hl)
  constructor
  · rintro ⟨schedule, got, hg, rfl⟩
    obtain ⟨s, -, hs⟩ := h1 schedule
    obtain ⟨lists, hr, rfl⟩ := hs 1 o' 0 got hg
    obtain ⟨times, ht, rfl⟩ := (one_reader S l' _ lists).1 ⟨s, hr⟩
    exact ⟨times, ht, newMnemonic_headers H _ e⟩
  · rintro ⟨times, ht, rfl⟩
    obtain ⟨s, hs⟩ := (one_reader S l' _ _).2 ⟨times, ht, rfl⟩
    obtain ⟨schedule, -, h⟩ := h2 s
    obtain ⟨o'', ho⟩ := h 1 0 _ hs
    have hq := congrArg (fun x => x[1]?) (order_run schedule (HeaderRun.begin S.list [(o, l')] [(o', (e.length * 8 + e.length * 8 / 32) / 11)]))
    simp only [List.getElem?_map, ho, Option.map_some, HeaderPc.order] at hq
    have hq : some o'' = some o' := Option.some.inj hq
    cases hq
    exact ⟨schedule, _, ho, (newMnemonic_headers H _ e).symm⟩

theorem reader_rests (hd : Header) (p : HeaderPc) (o' : WordOrder) : ∀ (k : Nat) (got : List Header),
    HeaderRun.run ⟨hd, [p, .load o' k got]⟩ (List.replicate (2 * k) 1) = ⟨hd, [p, .load o' 0 (got ++ List.replicate k hd)]⟩ := by
  intro k
  induction k with
  | zero => intro got; simp [HeaderRun.run]
  | succ k ih =>
    intro got
    rw [show 2 * (k + 1) = 2 * k + 1 + 1 by ring, List.replicate_succ, List.replicate_succ,
      show HeaderRun.run ⟨hd, [p, .load o' (k + 1) got]⟩ (1 :: 1 :: List.replicate (2 * k) 1) =
        HeaderRun.run (HeaderRun.step (HeaderRun.step ⟨hd, [p, .load o' (k + 1) got]⟩ 1) 1) (List.replicate (2 * k) 1) from rfl,
      show HeaderRun.step (HeaderRun.step ⟨hd, [p, .load o' (k + 1) got]⟩ 1) 1 = ⟨hd, [p, .load o' k (got ++ [hd])]⟩ by cases o' <;> rfl, ih,
      List.append_assoc, List.replicate_succ]
    rfl

/-- **C121**, `NewMnemonic` beside `SetWordList` of a list of another length: for every order of the stores, if the index of the last word of the sentence is beyond the shorter
list, and the longer list is the one in force (the address is stored first) or the new one (the length is), it can read memory beyond a list instead of
panicking or giving a sentence. -/
theorem C121_mnemonic_beyond (H : Hashes) (o o' : WordOrder) (l l' : List Bytes) (e : Bytes) (he : e.length ∈ entropySizes) (idx : List Nat) (i : Nat)
    (hidx : ∀ x ∈ idx ++ [i], x < 2048) (hbits : (idx ++ [i]).flatMap (bitsN 11) = mnemonicBits H.sha256 e)
    (h : match o with | .addrFirst => l'.length ≤ i ∧ i < l.length | .lenFirst => l.length ≤ i ∧ i < l'.length) :
    ∃ schedule got, ((HeaderRun.begin l [(o, l')] [(o', (e.length * 8 + e.length * 8 / 32) / 11)]).run schedule).pcs[1]? = some (.load o' 0 got) ∧
      newMnemonicHeaders H got e = none := by
  obtain ⟨k, hek, hk1, hk2⟩ := (entropySizes_iff _).1 he
  have hlen : (e.length * 8 + e.length * 8 / 32) / 11 = 3 * k := by omega
  have hN := setBytes_addChecksum H e k hek hk2
  obtain ⟨-, hd⟩ := (encodes_bits_iff H e k hek hk2 (idx ++ [i]) hidx).1 hbits
  rw [← hN, ofDigitsBE_concat] at hd
  have hi : setBytes (addChecksum H e) % 2048 = i := by
    have := hidx i (by simp)
    rw [← hd]; omega
  have hword : setBytes (padByteSlice (bigBytes (setBytes (addChecksum H e) &&& 2047)) 2) = i := by
    rw [padByteSlice_eq, setBytes_padLeft, setBytes_bigBytes, ← hi]
    exact Nat.and_two_pow_sub_one_eq_mod _ 11
  rw [hlen]
  refine ⟨0 :: List.replicate (2 * (3 * k)) 1, List.replicate (3 * k) (storedAt o l l' 1), ?_, ?_⟩
  · have := reader_rests (storedAt o l l' 1) (.stored o l') o' (3 * k) []
    rw [show HeaderRun.run (HeaderRun.begin l [(o, l')] [(o', 3 * k)]) (0 :: List.replicate (2 * (3 * k)) 1) =
      HeaderRun.run (HeaderRun.step (HeaderRun.begin l [(o, l')] [(o', 3 * k)]) 0) (List.replicate (2 * (3 * k)) 1) from rfl,
      show HeaderRun.step (HeaderRun.begin l [(o, l')] [(o', 3 * k)]) 0 = ⟨storedAt o l l' 1, [.stored o l', .load o' (3 * k) []]⟩ by cases o <;> rfl, this]
    rfl
  · have hb : (storedAt o l l' 1).pick i = .beyond := by
      rw [pick_beyond_iff]
      cases o <;> exact h
    obtain ⟨m, hm⟩ : ∃ m, 3 * k = m + 1 := ⟨3 * k - 1, by omega⟩
    unfold newMnemonicHeaders
    dsimp only
    rw [(validate_none_iff e.length).2 he]
    dsimp only
    rw [hlen, hm, List.replicate_succ, encodeWordsHeaders, hword, hb]

/-- **C121**, the shipped lists: they all have 2048 words, so replacing one by another gets nobody beyond a list, whatever the orders of stores and loads and however
many calls run: `wordList` is always one of them, and each use gets one of them, whole. -/
theorem C121_shipped (f : WordFile) (hf : f ∈ wordFiles) (args : List (WordOrder × WordFile)) (ha : ∀ a ∈ args, a.2 ∈ wordFiles)
    (readers : List (WordOrder × Nat)) (schedule : List Nat) :
    let c := (HeaderRun.begin f.list (args.map fun a => (a.1, a.2.list)) readers).run schedule
    (∃ g ∈ wordFiles, c.header = .of g.list) ∧
      ∀ (t : Nat) o n got, c.pcs[t]? = some (.load o n got) → ∀ x ∈ got, (∃ g ∈ wordFiles, x = .of g.list) ∧ ∀ i, i < 2048 → ∃ w, x.pick i = .word w := by
  intro c
  have hall : ∀ k ∈ f.list :: (args.map fun a => (a.1, a.2.list)).map Prod.snd, ∃ g ∈ wordFiles, k = g.list := by
    intro k hk
    rcases List.mem_cons.1 hk with rfl | hk
    · exact ⟨f, hf, rfl⟩
    · simp only [List.map_map, List.mem_map, Function.comp_apply] at hk
      obtain ⟨a, h1, rfl⟩ := hk
      exact ⟨a.2, ha a h1, rfl⟩
  have whole : ∀ x : Header, (x.array ∈ f.list :: (args.map fun a => (a.1, a.2.list)).map Prod.snd ∧
      ∃ k ∈ f.list :: (args.map fun a => (a.1, a.2.list)).map Prod.snd, x.len = k.length) → ∃ g ∈ wordFiles, x = .of g.list := by
    rintro ⟨a, n⟩ ⟨h1, k, h2, h3⟩
    obtain ⟨g, hg, rfl⟩ := hall a h1
    obtain ⟨g', hg', rfl⟩ := hall k h2
    refine ⟨g, hg, ?_⟩
    simp only at h3
    simp [Header.of, h3, (C10_lists_good g hg).length, (C10_lists_good g' hg').length]
  obtain ⟨h1, h2⟩ := from_run schedule (from_begin f.list (args.map fun a => (a.1, a.2.list)) readers)
  refine ⟨whole _ h1, ?_⟩
  intro t o n got hg x hx
  obtain ⟨g, hg', rfl⟩ := whole x (h2 _ (List.mem_of_getElem? hg) x hx)
  refine ⟨⟨g, hg', rfl⟩, fun i hi => ?_⟩
  have hl := (C10_lists_good g hg').length
  refine ⟨g.list[i], ?_⟩
  simp [Header.pick, Header.of, hl, hi]

/-! ### Cases -/

/-- A list of three words is replaced by one of two; the address is stored first. Index 2 gets beyond the new list. -/
example : ∃ schedule x, ((HeaderRun.begin [str "a", str "b", str "c"] [(.addrFirst, [str "d", str "e"])] [(.addrFirst, 1)]).run schedule).pcs[1]? =
    some (.load .addrFirst 0 [x]) ∧ x.pick 2 = .beyond :=
  C121_every_order .addrFirst .addrFirst _ _ 2 ⟨by decide, by decide⟩

/-- Stored first and loaded last: the address of the old list with the length of the new one is excluded, for any lists of different lengths. -/
example (l l' : List Bytes) (h : l.length ≠ l'.length) (schedule : List Nat) :
    ((HeaderRun.begin l [(.addrFirst, l')] [(.lenFirst, 1)]).run schedule).pcs[1]? ≠ some (.load .lenFirst 0 [⟨l, l'.length⟩]) := by
  intro hc
  rcases (C121_use_iff .addrFirst .lenFirst l l' _).1 ⟨schedule, hc⟩ with h' | h' | ⟨_, h' | h'⟩ | ⟨h', _⟩
  · simp only [Header.of, Header.mk.injEq, true_and] at h'; exact h h'.symm
  · simp only [Header.of, Header.mk.injEq, and_true] at h'; exact h (by rw [h'])
  · cases h'
  · cases h'
  · simp only [Header.mk.injEq] at h'; exact h h'.2.symm

/-- Two calls leave the address of the one list with the length of the other; reading on from there, alone, gets beyond. -/
example : ∃ schedule, ∀ later, ∀ got, ((HeaderRun.begin [] [(.lenFirst, [str "a", str "b"]), (.lenFirst, [str "c"])] [(.addrFirst, 1)]).run (schedule ++ later)).pcs[2]? =
    some (.load .addrFirst 0 got) → ∀ x ∈ got, x.pick 1 = .beyond := by
  obtain ⟨s, hs⟩ := C121_left .lenFirst .addrFirst [] [str "a", str "b"] [str "c"] 1
  refine ⟨s, fun later got hg x hx => ?_⟩
  rw [(hs later).2.2 0 got hg x hx]
  decide

theorem zero_bits : (List.replicate 11 0 ++ [3]).flatMap (bitsN 11) = mnemonicBits goHashes.sha256 (List.replicate 16 0) := by decide +kernel

/-- The last word of the sentence of the all-zero entropy of 16 bytes is number 3: with the real SHA-256, a list of three words replacing a longer one gets `NewMnemonic` beyond. -/
example (o' : WordOrder) (l l' : List Bytes) (h : l'.length = 3) (hl : 3 < l.length) : ∃ schedule got,
    ((HeaderRun.begin l [(.addrFirst, l')] [(o', 12)]).run schedule).pcs[1]? = some (.load o' 0 got) ∧ newMnemonicHeaders goHashes got (List.replicate 16 0) = none :=
  C121_mnemonic_beyond goHashes .addrFirst o' l l' (List.replicate 16 0) (by decide) (List.replicate 11 0) 3 (by decide) zero_bits ⟨by omega, hl⟩

end Bips
