import Verif.Props.MapFatal

/-! # C101: an execution that does not end the program leaves what `WordSetters` says -/

namespace Bips
namespace MapRun

/-- The write a call is in: the word, the words after it, its index, and the map. -/
def pend : MapPc → Option (Bytes × List Bytes × Nat × Nat)
  | .loaded v vs i m => some (v, vs, i, m)
  | .entered v vs i m => some (v, vs, i, m)
  | .marked v vs i m => some (v, vs, i, m)
  | .assigned v vs i m => some (v, vs, i, m)
  | .placed v vs i m => some (v, vs, i, m)
  | _ => none

/-- The call in `WordSetters`: a write to the map in force is still to be done, a write to another map has been done. -/
def coarse (cur : Nat) : MapPc → SetterPc
  | .start l => .start l
  | .listed => .listed
  | .made => .made
  | .loop rest i => .loop rest i
  | .loaded v vs i m => if m = cur then .loop (v :: vs) i else .loop vs (i + 1)
  | .entered v vs i m => if m = cur then .loop (v :: vs) i else .loop vs (i + 1)
  | .marked v vs i m => if m = cur then .loop (v :: vs) i else .loop vs (i + 1)
  | .assigned v vs i m => if m = cur then .loop (v :: vs) i else .loop vs (i + 1)
  | .placed v vs i m => if m = cur then .loop (v :: vs) i else .loop vs (i + 1)
  | _ => .done

theorem coarse_pend {p : MapPc} {v : Bytes} {vs : List Bytes} {i m : Nat} (h : pend p = some (v, vs, i, m)) (cur : Nat) :
    coarse cur p = if m = cur then .loop (v :: vs) i else .loop vs (i + 1) := by
  cases p <;> simp [pend] at h <;> obtain ⟨rfl, rfl, rfl, rfl⟩ := h <;> rfl

theorem coarse_not_pend {p : MapPc} (h : pend p = none) (cur cur' : Nat) : coarse cur p = coarse cur' p := by
  cases p <;> first | rfl | simp [pend] at h

/-- The call has put the word into the map and not yet stored its index. -/
def waits (w : Bytes) (m : Nat) : MapPc → Prop
  | .assigned v _ _ m' => v = w ∧ m' = m
  | .placed v _ _ m' => v = w ∧ m' = m
  | _ => False

def isReader : MapPc → Prop
  | .reads _ _ => True
  | .reading _ _ _ _ => True
  | _ => False

/-- What the two models have in common, the first `k` calls being those of `SetWordList`. -/
structure Sim (k : Nat) (c : MapRun) (d : Setters) : Prop where
  fatal : c.fatal = false
  readers : ∀ t, k ≤ t → ∀ p, c.pcs[t]? = some p → isReader p
  pcs : d.pcs = (c.pcs.take k).map (coarse c.cur)
  list : d.state.list = c.list
  cur : c.cur < c.next
  old : ∀ p ∈ c.pcs, ∀ v vs i m, pend p = some (v, vs, i, m) → m < c.next
  map : ∀ w, d.state.map w = (c.maps c.cur).content w ∨
    (d.state.map w = none ∧ (c.maps c.cur).content w = some 0 ∧ ∃ p ∈ c.pcs, waits w c.cur p)

theorem map_set_take {α β : Type} (f : α → β) (l : List α) (k t : Nat) (a : α) :
    ((l.set t a).take k).map f = ((l.take k).map f).set t (f a) := by
  rw [List.take_set, List.map_set]

theorem set_same {α : Type} (l : List α) (t : Nat) (a : α) (h : t < l.length → l[t]? = some a) : l.set t a = l := by
  apply List.ext_getElem?
  intro u
  rw [List.getElem?_set]
  split
  · next e =>
    subst e
    split
    · next hl => exact (h hl).symm
    · next hl => rw [List.getElem?_eq_none (by omega)]
  · rfl

theorem Sim.at {k : Nat} {c : MapRun} {d : Setters} (h : Sim k c d) {t : Nat} {p : MapPc} (hp : c.pcs[t]? = some p) (ht : t < k) :
    d.pcs[t]? = some (coarse c.cur p) := by
  rw [h.pcs, List.getElem?_map, List.getElem?_take_of_lt ht, hp]
  rfl

/-- A step of a call. -/
theorem Sim.moved {k : Nat} {c c' : MapRun} {d d' : Setters} (h : Sim k c d) {t : Nat} {p p' : MapPc} (hp : c.pcs[t]? = some p)
    (hpcs : c'.pcs = c.pcs.set t p') (hf : c'.fatal = false) (hcur : c'.cur = c.cur) (hnext : c'.next = c.next)
    (hr : isReader p → isReader p') (ho : ∀ v vs i m, pend p' = some (v, vs, i, m) → m < c.next)
    (hd : d'.pcs = d.pcs.set t (coarse c.cur p')) (hl : d'.state.list = c'.list)
    (hm : ∀ w, d'.state.map w = (c'.maps c.cur).content w ∨
      (d'.state.map w = none ∧ (c'.maps c.cur).content w = some 0 ∧ ∃ p ∈ c'.pcs, waits w c.cur p)) : Sim k c' d' where
  fatal := hf
  readers := by
    intro u hu q hq
    rw [hpcs, List.getElem?_set] at hq
    split at hq
    · next e =>
      subst e
      have : t < c.pcs.length := (List.getElem?_eq_some_iff.1 hp).1
      rw [if_pos this] at hq
      rw [← Option.some.inj hq]
      exact hr (h.readers t hu p hp)
    · exact h.readers u hu q hq
  pcs := by rw [hd, h.pcs, hpcs, map_set_take, hcur]
  list := hl
  cur := by rw [hcur, hnext]; exact h.cur
  old := by
    intro q hq v vs i m he
    rw [hnext]
    rw [hpcs] at hq
    rcases List.mem_or_eq_of_mem_set hq with hq | rfl
    · exact h.old q hq v vs i m he
    · exact ho v vs i m he
  map := by rw [hcur]; exact hm

/-- A step that `WordSetters` does not see. -/
theorem Sim.quiet {k : Nat} {c c' : MapRun} {d : Setters} (h : Sim k c d) {t : Nat} {p p' : MapPc} (hp : c.pcs[t]? = some p)
    (hpcs : c'.pcs = c.pcs.set t p') (hf : c'.fatal = false) (hcur : c'.cur = c.cur) (hnext : c'.next = c.next)
    (hr : isReader p → isReader p') (ho : ∀ v vs i m, pend p' = some (v, vs, i, m) → m < c.next)
    (hco : coarse c.cur p' = coarse c.cur p) (hl : c'.list = c.list)
    (hm : ∀ w, d.state.map w = (c'.maps c.cur).content w ∨
      (d.state.map w = none ∧ (c'.maps c.cur).content w = some 0 ∧ ∃ p ∈ c'.pcs, waits w c.cur p)) : Sim k c' d := by
  refine h.moved hp hpcs hf hcur hnext hr ho ?_ (by rw [h.list, hl]) hm
  rw [hco, set_same]
  intro hlt
  refine h.at hp ?_
  rw [h.pcs, List.length_map, List.length_take] at hlt
  omega

/-- A step after which the maps are as they were, of a call that does not wait to store. -/
theorem Sim.keep {k : Nat} {c : MapRun} {d : Setters} (h : Sim k c d) {t : Nat} {p p' : MapPc} (hp : c.pcs[t]? = some p)
    (c' : MapRun) (hpcs : c'.pcs = c.pcs.set t p') (hnw : ∀ w m, ¬ waits w m p) (hc : ∀ w, (c'.maps c.cur).content w = (c.maps c.cur).content w) :
    ∀ w, d.state.map w = (c'.maps c.cur).content w ∨
      (d.state.map w = none ∧ (c'.maps c.cur).content w = some 0 ∧ ∃ p ∈ c'.pcs, waits w c.cur p) := by
  intro w
  rw [hc]
  refine (h.map w).imp id fun ⟨h1, h2, q, hq, hw⟩ => ⟨h1, h2, q, ?_, hw⟩
  rw [hpcs]
  exact Setters.mem_set_of_ne hp hq (by rintro rfl; exact hnw _ _ hw)

/-- Before another map is made, the writes to the present one that have begun are done. -/
theorem Sim.flush {k : Nat} {c : MapRun} {d : Setters} (h : Sim k c d) :
    ∃ ts, (d.run ts).pcs = (c.pcs.take k).map (coarse c.next) ∧ (d.run ts).state.list = c.list := by
  have hall : ∀ (done rest : List MapPc) (d : Setters), d.pcs = done.map (coarse c.next) ++ rest.map (coarse c.cur) →
      (∀ p ∈ rest, ∀ v vs i m, pend p = some (v, vs, i, m) → m < c.next) →
      ∃ ts, (d.run ts).pcs = (done ++ rest).map (coarse c.next) ∧ (d.run ts).state.list = d.state.list := by
    intro done rest
    induction rest generalizing done with
    | nil => intro d hd _; exact ⟨[], by simpa [Setters.run] using hd, rfl⟩
    | cons p rest ih =>
      intro d hd ho
      have hat : d.pcs[done.length]? = some (coarse c.cur p) := by
        rw [hd, List.getElem?_append_right (by simp)]; simp
      have hset : ∀ q, d.pcs.set done.length q = done.map (coarse c.next) ++ q :: rest.map (coarse c.cur) := by
        intro q
        rw [hd, List.set_append_right _ _ (by simp)]; simp
      have go : ∀ d' : Setters, d'.pcs = d.pcs.set done.length (coarse c.next p) →
          ∃ ts, (d'.run ts).pcs = (done ++ p :: rest).map (coarse c.next) ∧ (d'.run ts).state.list = d'.state.list := by
        intro d' hd'
        obtain ⟨ts, h1, h2⟩ := ih (done ++ [p]) d' (by rw [hd', hset]; simp) fun q hq => ho q (List.mem_cons_of_mem _ hq)
        exact ⟨ts, by rw [h1]; simp, h2⟩
      cases hpd : pend p with
      | none => exact go d (by rw [coarse_not_pend hpd c.next c.cur, set_same _ _ _ fun _ => hat])
      | some x =>
        obtain ⟨v, vs, i, m⟩ := x
        have hm := ho p List.mem_cons_self v vs i m hpd
        have hne : m ≠ c.next := by omega
        by_cases hmc : m = c.cur
        · have hs : d.step done.length =
              ⟨⟨d.state.list, fun w => if w = v then some i else d.state.map w⟩, d.pcs.set done.length (.loop vs (i + 1))⟩ := by
            rw [Setters.step, hat, coarse_pend hpd, if_pos hmc]
          obtain ⟨ts, h1, h2⟩ := go (d.step done.length) (by rw [hs, coarse_pend hpd, if_neg hne])
          exact ⟨done.length :: ts, h1, by rw [Setters.run_cons, h2, hs]⟩
        · exact go d (by
            rw [coarse_pend hpd, if_neg hne, set_same _ _ _ fun _ => by rw [hat, coarse_pend hpd, if_neg hmc]])
  obtain ⟨ts, h1, h2⟩ := hall [] (c.pcs.take k) d (by simpa using h.pcs) fun p hp => h.old p (List.mem_of_mem_take hp)
  exact ⟨ts, by simpa using h1, by rw [h2, h.list]⟩

theorem assign_content (g : GoMap) (v w : Bytes) :
    (g.assign v).content w = g.content w ∨ (w = v ∧ g.content w = none ∧ (g.assign v).content w = some 0) := by
  unfold GoMap.assign
  split
  · exact .inl rfl
  · next h =>
    by_cases hw : w = v
    · subst hw; exact .inr ⟨rfl, h, by simp⟩
    · exact .inl (by simp [hw])

theorem sim_step (k : Nat) (c : MapRun) (d : Setters) (t : Nat) (h : Sim k c d) (hf : (c.step t).fatal = false) :
    ∃ ts, Sim k (c.step t) (d.run ts) := by
  have hcf := h.fatal
  cases hp : c.pcs[t]? with
  | none => exact ⟨[], by simpa [step, hp, Setters.run] using h⟩
  | some p =>
    have hlt : t < c.pcs.length := (List.getElem?_eq_some_iff.1 hp).1
    have hold := h.old p (List.mem_of_getElem? hp)
    have hk : ¬ isReader p → t < k := fun hr => by
      by_contra hc
      exact hr (h.readers t (by omega) p hp)
    unfold step at hf ⊢
    rw [if_neg (by simp [hcf]), hp] at hf ⊢
    cases p with
    | start l =>
      have hs : d.step t = ⟨⟨l, d.state.map⟩, d.pcs.set t .listed⟩ := by rw [Setters.step, h.at hp (hk id)]; rfl
      refine ⟨[t], ?_⟩
      rw [Setters.run_cons, hs]
      exact h.moved hp rfl hcf rfl rfl id (by simp [pend]) rfl rfl (h.keep (p' := .listed) hp _ rfl (by simp [waits]) fun _ => rfl)
    | listed =>
      obtain ⟨ts, h1, h2⟩ := h.flush
      have htk := hk id
      refine ⟨ts ++ [t], ?_⟩
      rw [Setters.run_append]
      have hs : (d.run ts).step t = ⟨⟨c.list, fun _ => none⟩, (d.run ts).pcs.set t .made⟩ := by
        rw [Setters.step, h1, List.getElem?_map, List.getElem?_take_of_lt htk, hp, ← h2]
        rfl
      rw [Setters.run_cons, hs]
      refine ⟨hcf, ?_, ?_, rfl, Nat.lt_succ_self _, ?_, fun w => .inl ?_⟩
      · intro u hu q hq
        rw [goto, List.getElem?_set_ne (by omega)] at hq
        exact h.readers u hu q hq
      · simp only [Setters.run, List.foldl_nil, goto, put]
        rw [map_set_take]
        exact congrArg (fun x => List.set x t _) h1
      · intro q hq v vs i m he
        rcases List.mem_or_eq_of_mem_set hq with hq | rfl
        · exact Nat.lt_succ_of_lt (h.old q hq v vs i m he)
        · simp [pend] at he
      · simp [Setters.run, goto, put, GoMap.empty]
    | made =>
      have hs : d.step t = ⟨d.state, d.pcs.set t (.loop c.list 0)⟩ := by
        rw [Setters.step, h.at hp (hk id), ← h.list]; rfl
      refine ⟨[t], ?_⟩
      rw [Setters.run_cons, hs]
      exact h.moved hp rfl hcf rfl rfl id (by simp [pend]) rfl h.list (h.keep (p' := .loop c.list 0) hp _ rfl (by simp [waits]) fun _ => rfl)
    | loop rest i =>
      cases rest with
      | nil =>
        have hs : d.step t = ⟨d.state, d.pcs.set t .done⟩ := by rw [Setters.step, h.at hp (hk id)]; rfl
        refine ⟨[t], ?_⟩
        rw [Setters.run_cons, hs]
        exact h.moved hp rfl hcf rfl rfl id (by simp [pend]) rfl h.list (h.keep (p' := .done) hp _ rfl (by simp [waits]) fun _ => rfl)
      | cons v vs =>
        refine ⟨[], h.quiet hp rfl hcf rfl rfl id ?_ (by simp [coarse]) rfl
          (h.keep (p' := .loaded v vs i c.cur) hp _ rfl (by simp [waits]) fun _ => rfl)⟩
        intro v' vs' i' m' he
        simp only [pend, Option.some.injEq, Prod.mk.injEq] at he
        rw [← he.2.2.2]; exact h.cur
    | loaded v vs i m =>
      simp only at hf ⊢
      split at hf
      · simp at hf
      · next hw =>
        rw [if_neg hw]
        exact ⟨[], h.quiet hp rfl hcf rfl rfl id (fun a b e f he => hold a b e f he) rfl rfl
          (h.keep (p' := .entered v vs i m) hp _ rfl (by simp [waits]) fun _ => rfl)⟩
    | entered v vs i m =>
      refine ⟨[], h.quiet hp rfl hcf rfl rfl id (fun a b e f he => hold a b e f he) rfl rfl
        (h.keep (p' := .marked v vs i m) hp _ rfl (by simp [waits]) fun w => ?_)⟩
      simp only [goto, put]
      split
      · next e => rw [e]
      · rfl
    | marked v vs i m =>
      refine ⟨[], h.quiet hp rfl hcf rfl rfl id (fun a b e f he => hold a b e f he) rfl rfl fun w => ?_⟩
      have hmem : ∀ q ∈ c.pcs, waits w c.cur q → q ∈ c.pcs.set t (.assigned v vs i m) := fun q hq hw =>
        Setters.mem_set_of_ne hp hq (by rintro rfl; exact hw)
      simp only [goto, put]
      change d.state.map w = _ ∨ (d.state.map w = none ∧ _)
      by_cases hmc : c.cur = m
      · rw [if_pos hmc, ← hmc]
        rcases assign_content (c.maps c.cur) v w with ha | ⟨hw, hn, ha⟩
        · rw [ha]
          exact (h.map w).imp id fun ⟨h1, h2, q, hq, hw⟩ => ⟨h1, h2, q, by rw [hmc]; exact hmem q hq hw, hw⟩
        · right
          rcases h.map w with h1 | ⟨h1, h2, -⟩
          · exact ⟨by rw [h1, hn], ha, .assigned v vs i c.cur, Setters.mem_set_self hp, by rw [hw]; exact ⟨rfl, rfl⟩⟩
          · rw [h2] at hn; simp at hn
      · rw [if_neg hmc]
        exact (h.map w).imp id fun ⟨h1, h2, q, hq, hw⟩ => ⟨h1, h2, q, hmem q hq hw, hw⟩
    | assigned v vs i m =>
      simp only at hf ⊢
      split at hf
      · next hw =>
        rw [if_pos hw]
        refine ⟨[], h.quiet hp rfl hcf rfl rfl id (fun a b e f he => hold a b e f he) rfl rfl fun w => ?_⟩
        have hc : ((c.put m { c.maps m with writing := false }).maps c.cur).content w = (c.maps c.cur).content w := by
          simp only [put]
          split
          · next e => rw [e]
          · rfl
        simp only [goto]
        rw [hc]
        refine (h.map w).imp id fun ⟨h1, h2, q, hq, hw⟩ => ⟨h1, h2, ?_⟩
        by_cases hq' : q = .assigned v vs i m
        · subst hq'
          exact ⟨.placed v vs i m, Setters.mem_set_self hp, hw⟩
        · exact ⟨q, Setters.mem_set_of_ne hp hq hq', hw⟩
      · simp at hf
    | placed v vs i m =>
      have hcontent : ∀ w, ((c.put m ((c.maps m).store v i)).maps c.cur).content w =
          if c.cur = m ∧ w = v then some i else (c.maps c.cur).content w := by
        intro w
        simp only [put, GoMap.store]
        by_cases hmc : c.cur = m
        · simp [hmc]
        · simp [hmc]
      by_cases hmc : c.cur = m
      · have hs : d.step t = ⟨⟨d.state.list, fun w => if w = v then some i else d.state.map w⟩, d.pcs.set t (.loop vs (i + 1))⟩ := by
          rw [Setters.step, h.at hp (hk id), coarse, if_pos hmc.symm]
        refine ⟨[t], ?_⟩
        rw [Setters.run_cons, hs]
        refine h.moved hp rfl hcf rfl rfl id (by simp [pend]) rfl h.list fun w => ?_
        simp only [goto, Setters.run, List.foldl_nil]
        rw [hcontent]
        by_cases hw : w = v
        · left; simp [hmc, hw]
        · rw [if_neg hw, if_neg (by simp [hw])]
          refine (h.map w).imp id fun ⟨h1, h2, q, hq, hq'⟩ => ⟨h1, h2, q, ?_, hq'⟩
          exact Setters.mem_set_of_ne hp hq (by rintro rfl; exact hw hq'.1.symm)
      · refine ⟨[], h.quiet hp rfl hcf rfl rfl id (by simp [pend]) ?_ rfl fun w => ?_⟩
        · simp only [coarse]; rw [if_neg (Ne.symm hmc)]
        · simp only [goto]
          rw [hcontent, if_neg (by simp [hmc])]
          refine (h.map w).imp id fun ⟨h1, h2, q, hq, hq'⟩ => ⟨h1, h2, q, ?_, hq'⟩
          exact Setters.mem_set_of_ne hp hq (by rintro rfl; exact hmc hq'.2.symm)
    | done => exact ⟨[], h⟩
    | reads ws got =>
      cases ws with
      | nil => exact ⟨[], h⟩
      | cons w ws =>
        exact ⟨[], h.quiet hp rfl hcf rfl rfl id (by simp [pend]) rfl rfl
          (h.keep (p' := .reading w ws got c.cur) hp _ rfl (by simp [waits]) fun _ => rfl)⟩
    | reading w ws got m =>
      simp only at hf ⊢
      split at hf
      · simp at hf
      · next hw =>
        rw [if_neg hw]
        split
        · exact ⟨[], h.quiet hp rfl hcf rfl rfl (fun _ => trivial) (by simp [pend]) rfl rfl
            (h.keep (p' := .reads [] (got ++ [none])) hp _ rfl (by simp [waits]) fun _ => rfl)⟩
        · next x _ =>
          exact ⟨[], h.quiet hp rfl hcf rfl rfl (fun _ => trivial) (by simp [pend]) rfl rfl
            (h.keep (p' := .reads ws (got ++ [some x])) hp _ rfl (by simp [waits]) fun _ => rfl)⟩

theorem step_fatal (c : MapRun) (t : Nat) (h : c.fatal = true) : c.step t = c := by simp [step, h]

theorem run_fatal (c : MapRun) (ts : List Nat) (h : c.fatal = true) : c.run ts = c := by
  induction ts with
  | nil => rfl
  | cons t ts ih => rw [run_cons, step_fatal c t h, ih]

theorem sim_run (k : Nat) (ts : List Nat) (c : MapRun) (d : Setters) (h : Sim k c d) (hf : (c.run ts).fatal = false) :
    ∃ us, Sim k (c.run ts) (d.run us) := by
  induction ts generalizing c d with
  | nil => exact ⟨[], h⟩
  | cons t ts ih =>
    rw [run_cons] at hf ⊢
    have h1 : (c.step t).fatal = false := by
      cases hx : (c.step t).fatal with
      | false => rfl
      | true => rw [run_fatal _ ts hx, hx] at hf; exact hf
    obtain ⟨us, hs⟩ := sim_step k c d t h h1
    obtain ⟨vs, hv⟩ := ih _ _ hs hf
    exact ⟨us ++ vs, by rw [Setters.run_append]; exact hv⟩

theorem sim_begin (S : WordState) (n : Nat) (args readers : List (List Bytes)) :
    Sim args.length (MapRun.begin S n args readers) (Setters.begin S args) where
  fatal := rfl
  readers := by
    intro t ht p hp
    rw [MapRun.begin, List.getElem?_append_right (by simpa using ht), List.getElem?_map] at hp
    obtain ⟨ws, -, rfl⟩ := Option.map_eq_some_iff.1 hp
    trivial
  pcs := by
    simp only [MapRun.begin, Setters.begin]
    rw [List.take_left' (by simp)]
    simp [coarse]
  list := rfl
  cur := Nat.one_pos
  old := by
    intro p hp v vs i m he
    simp only [MapRun.begin, List.mem_append, List.mem_map] at hp
    rcases hp with ⟨l, -, rfl⟩ | ⟨ws, -, rfl⟩ <;> simp [pend] at he
  map := fun w => .inl rfl

/-- No call is in a write. -/
structure Calm (k : Nat) (c : MapRun) (d : Setters) : Prop where
  fatal : c.fatal = false
  flags : ∀ m, (c.maps m).writing = false
  none : ∀ p ∈ c.pcs, pend p = none
  pcs : d.pcs = (c.pcs.take k).map (coarse c.cur)
  state : d.state = ⟨c.list, (c.maps c.cur).content⟩

/-- A word written without interruption. -/
theorem run_write (c : MapRun) (t : Nat) (v : Bytes) (vs : List Bytes) (i : Nat) (hf : c.fatal = false)
    (hp : c.pcs[t]? = some (.loop (v :: vs) i)) (hw : (c.maps c.cur).writing = false) :
    ∃ n, c.run (List.replicate 6 t) = (c.put c.cur ⟨fun w => if w = v then some i else (c.maps c.cur).content w, n, false⟩).goto t
      (.loop vs (i + 1)) := by
  have hlt : t < c.pcs.length := (List.getElem?_eq_some_iff.1 hp).1
  have h1 : c.step t = c.goto t (.loaded v vs i c.cur) := by simp [step, hf, hp]
  have h2 : (c.goto t (.loaded v vs i c.cur)).step t = c.goto t (.entered v vs i c.cur) := by
    simp [step, goto, hf, hlt, hw]
  have h3 : (c.goto t (.entered v vs i c.cur)).step t =
      (c.put c.cur { c.maps c.cur with writing := true }).goto t (.marked v vs i c.cur) := by
    simp [step, goto, put, hf, hlt, hw]
  have h4 : ((c.put c.cur { c.maps c.cur with writing := true }).goto t (.marked v vs i c.cur)).step t =
      (c.put c.cur (GoMap.assign { c.maps c.cur with writing := true } v)).goto t (.assigned v vs i c.cur) := by
    simp only [step, goto, put, hf, List.getElem?_set_self hlt, if_true, Bool.false_eq_true, if_false, List.set_set]
    congr 1
    funext k
    split <;> rfl
  have h5 : ((c.put c.cur (GoMap.assign { c.maps c.cur with writing := true } v)).goto t (.assigned v vs i c.cur)).step t =
      (c.put c.cur { GoMap.assign { c.maps c.cur with writing := true } v with writing := false }).goto t (.placed v vs i c.cur) := by
    simp only [step, goto, put, hf, List.getElem?_set_self hlt, if_true, Bool.false_eq_true, if_false, List.set_set, assign_writing]
    congr 1
    funext k
    split <;> rfl
  have h6 : ((c.put c.cur { GoMap.assign { c.maps c.cur with writing := true } v with writing := false }).goto t
      (.placed v vs i c.cur)).step t = (c.put c.cur ⟨fun w => if w = v then some i else (c.maps c.cur).content w,
        (GoMap.assign { c.maps c.cur with writing := true } v).count, false⟩).goto t (.loop vs (i + 1)) := by
    simp only [step, goto, put, hf, List.getElem?_set_self hlt, if_true, Bool.false_eq_true, if_false, List.set_set]
    congr 1
    funext k
    split
    · simp only [GoMap.store, GoMap.mk.injEq, and_true]
      funext w
      split
      · rfl
      · next hne =>
        rcases assign_content { c.maps c.cur with writing := true } v w with ha | ⟨hw, -⟩
        · exact ha
        · exact absurd hw hne
    · rfl
  refine ⟨(GoMap.assign { c.maps c.cur with writing := true } v).count, ?_⟩
  change (((((c.step t).step t).step t).step t).step t).step t = _
  rw [h1, h2, h3, h4, h5, h6]

theorem calm_step (k : Nat) (c : MapRun) (d : Setters) (t : Nat) (h : Calm k c d) : ∃ ts, Calm k (c.run ts) (d.step t) := by
  have hcf := h.fatal
  have stay : d.step t = d → ∃ ts, Calm k (c.run ts) (d.step t) := fun e => ⟨[], by rw [e]; exact h⟩
  by_cases htk : t < k
  swap
  · refine stay ?_
    rw [Setters.step, h.pcs, List.getElem?_eq_none (by simp; omega)]
  cases hp : c.pcs[t]? with
  | none =>
    refine stay ?_
    rw [Setters.step, h.pcs, List.getElem?_map, List.getElem?_take_of_lt htk, hp]
    rfl
  | some p =>
    have hat : d.pcs[t]? = some (coarse c.cur p) := by
      rw [h.pcs, List.getElem?_map, List.getElem?_take_of_lt htk, hp]; rfl
    have hpn := h.none p (List.mem_of_getElem? hp)
    have key : ∀ (c' : MapRun) (d' : Setters) (p' : MapPc), c'.fatal = false → (∀ m, (c'.maps m).writing = false) → pend p' = none →
        c'.pcs = c.pcs.set t p' → d'.pcs = d.pcs.set t (coarse c.cur p') → d'.state = ⟨c'.list, (c'.maps c'.cur).content⟩ → Calm k c' d' := by
      intro c' d' p' e1 e2 e3 e4 e5 e6
      have hn : ∀ q ∈ c'.pcs, pend q = none := by
        intro q hq
        rw [e4] at hq
        rcases List.mem_or_eq_of_mem_set hq with hq | rfl
        · exact h.none q hq
        · exact e3
      refine ⟨e1, e2, hn, ?_, e6⟩
      rw [e5, h.pcs, e4, ← map_set_take]
      refine List.map_congr_left fun q hq => coarse_not_pend (hn q ?_) _ _
      rw [e4]; exact List.mem_of_mem_take hq
    cases p with
    | start l =>
      refine ⟨[t], ?_⟩
      have hs : d.step t = ⟨⟨l, d.state.map⟩, d.pcs.set t .listed⟩ := by rw [Setters.step, hat]; rfl
      have hc : c.run [t] = { c with list := l }.goto t .listed := by
        change c.step t = _
        simp [step, hcf, hp]
      rw [hs, hc]
      exact key _ _ .listed hcf h.flags rfl rfl rfl (by rw [h.state]; rfl)
    | listed =>
      refine ⟨[t], ?_⟩
      have hs : d.step t = ⟨⟨d.state.list, fun _ => none⟩, d.pcs.set t .made⟩ := by rw [Setters.step, hat]; rfl
      have hc : c.run [t] = ({ c with next := c.next + 1, cur := c.next }.put c.next GoMap.empty).goto t .made := by
        change c.step t = _
        simp [step, hcf, hp]
      rw [hs, hc]
      refine key _ _ .made hcf (fun m => ?_) rfl rfl rfl ?_
      · simp only [goto, put]
        split
        · rfl
        · exact h.flags m
      · rw [h.state]; simp [goto, put, GoMap.empty]
    | made =>
      refine ⟨[t], ?_⟩
      have hs : d.step t = ⟨d.state, d.pcs.set t (.loop c.list 0)⟩ := by
        rw [Setters.step, hat]
        change Setters.mk d.state (d.pcs.set t (.loop d.state.list 0)) = _
        rw [h.state]
      have hc : c.run [t] = c.goto t (.loop c.list 0) := by
        change c.step t = _
        simp [step, hcf, hp]
      rw [hs, hc]
      exact key _ _ (.loop c.list 0) hcf h.flags rfl rfl rfl h.state
    | loop rest i =>
      cases rest with
      | nil =>
        refine ⟨[t], ?_⟩
        have hs : d.step t = ⟨d.state, d.pcs.set t .done⟩ := by rw [Setters.step, hat]; rfl
        have hc : c.run [t] = c.goto t .done := by
          change c.step t = _
          simp [step, hcf, hp]
        rw [hs, hc]
        exact key _ _ .done hcf h.flags rfl rfl rfl h.state
      | cons v vs =>
        obtain ⟨n, hn⟩ := run_write c t v vs i hcf hp (h.flags _)
        refine ⟨List.replicate 6 t, ?_⟩
        have hs : d.step t = ⟨⟨d.state.list, fun w => if w = v then some i else d.state.map w⟩, d.pcs.set t (.loop vs (i + 1))⟩ := by
          rw [Setters.step, hat]; rfl
        rw [hs, hn]
        refine key _ _ (.loop vs (i + 1)) hcf (fun m => ?_) rfl rfl rfl ?_
        · simp only [goto, put]
          split
          · rfl
          · exact h.flags m
        · rw [h.state]; simp [goto, put]
    | done => refine stay ?_; rw [Setters.step, hat]; rfl
    | reads ws got => refine stay ?_; rw [Setters.step, hat]; rfl
    | reading w ws got m => refine stay ?_; rw [Setters.step, hat]; rfl
    | loaded v vs i m => simp [pend] at hpn
    | entered v vs i m => simp [pend] at hpn
    | marked v vs i m => simp [pend] at hpn
    | assigned v vs i m => simp [pend] at hpn
    | placed v vs i m => simp [pend] at hpn

theorem calm_run (k : Nat) (us : List Nat) (c : MapRun) (d : Setters) (h : Calm k c d) : ∃ ts, Calm k (c.run ts) (d.run us) := by
  induction us generalizing c d with
  | nil => exact ⟨[], h⟩
  | cons t us ih =>
    obtain ⟨ts, h1⟩ := calm_step k c d t h
    obtain ⟨vs, h2⟩ := ih _ _ h1
    exact ⟨ts ++ vs, by rw [run_append]; exact h2⟩

theorem step_length (c : MapRun) (t : Nat) : (c.step t).pcs.length = c.pcs.length := by
  unfold step
  repeat' split
  all_goals simp [goto, put]

theorem run_length (c : MapRun) (ts : List Nat) : (c.run ts).pcs.length = c.pcs.length :=
  run_induct (P := fun d => d.pcs.length = c.pcs.length) (fun d t h => (step_length d t).trans h) c rfl ts

/-- What is not finished in this model is not finished in `WordSetters`. -/
theorem coarse_done {cur : Nat} {p : MapPc} (h : coarse cur p = .done) : p = .done ∨ isReader p := by
  cases p <;> simp [coarse, isReader] at h ⊢ <;> split at h <;> simp at h

/-- No call becomes a lookup. -/
theorem setters_stay (S : WordState) (n : Nat) (args readers : List (List Bytes)) (ts : List Nat) (t : Nat) (ht : t < args.length) :
    ∀ p, ((MapRun.begin S n args readers).run ts).pcs[t]? = some p → ¬ isReader p := by
  refine run_induct (P := fun c => ∀ p, c.pcs[t]? = some p → ¬ isReader p) (fun c u h p hp => ?_) _ ?_ ts
  · by_cases hut : t = u
    swap
    · rw [step_other c u t hut] at hp; exact h p hp
    subst hut
    cases he : c.pcs[t]? with
    | none => rw [step, he] at hp; simp [he] at hp
    | some q =>
      have hq := h q he
      have hl := (List.getElem?_eq_some_iff.1 he).1
      unfold step at hp
      rw [he] at hp
      cases q with
      | reads ws got => exact absurd trivial hq
      | reading w ws got m => exact absurd trivial hq
      | loop rest i => cases rest <;> (split at hp <;> simp [he, goto, hl, -getElem?_pos] at hp <;> rw [← hp] <;> exact id)
      | _ =>
        simp only at hp
        repeat' split at hp
        all_goals simp [he, goto, put, hl, -getElem?_pos] at hp
        all_goals rw [← hp]
        all_goals exact id
  · intro p hp
    rw [begin_setter S n args readers t args[t] (List.getElem?_eq_getElem ht)] at hp
    rw [← Option.some.inj hp]
    exact id

end MapRun

open MapRun

/-- **C101**, what is left behind: when concurrent calls of `SetWordList` have returned and the program has not ended, whatever lookups
ran beside them, the list and the map are what some execution in the sense of C83 leaves; and all of those can occur. -/
theorem C101_outcomes (S : WordState) (n : Nat) (args readers : List (List Bytes)) (W : WordState) :
    (∃ schedule, ((MapRun.begin S n args readers).run schedule).fatal = false ∧
      (∀ t < args.length, ((MapRun.begin S n args readers).run schedule).pcs[t]? = some .done) ∧
      ((MapRun.begin S n args readers).run schedule).list = W.list ∧
      (((MapRun.begin S n args readers).run schedule).maps ((MapRun.begin S n args readers).run schedule).cur).content = W.map) ↔
    ∃ schedule, ((Setters.begin S args).run schedule).finished ∧ ((Setters.begin S args).run schedule).state = W := by
  constructor
  · rintro ⟨schedule, hf, hd, hl, hm⟩
    obtain ⟨us, h⟩ := sim_run args.length schedule _ _ (sim_begin S n args readers) hf
    generalize hc : (MapRun.begin S n args readers).run schedule = c at *
    have hlen : c.pcs.length = args.length + readers.length := by rw [← hc, run_length]; simp [MapRun.begin]
    refine ⟨us, fun p hp => ?_, ?_⟩
    · rw [h.pcs] at hp
      obtain ⟨q, hq, rfl⟩ := List.mem_map.1 hp
      obtain ⟨t, ht⟩ := List.getElem?_of_mem hq
      have htk : t < args.length := by
        have := (List.getElem?_eq_some_iff.1 ht).1
        rw [List.length_take] at this
        omega
      rw [List.getElem?_take_of_lt htk, hd t htk] at ht
      rw [← Option.some.inj ht]
      rfl
    · have hmap : ((Setters.begin S args).run us).state.map = W.map := by
        funext w
        rw [← hm]
        rcases h.map w with h1 | ⟨-, -, p, hp, hw⟩
        · exact h1
        · exfalso
          obtain ⟨t, ht⟩ := List.getElem?_of_mem hp
          by_cases htk : t < args.length
          · rw [hd t htk] at ht
            rw [← Option.some.inj ht] at hw
            exact hw
          · have := h.readers t (by omega) p ht
            cases p <;> first | exact hw | exact this
      have hlist := h.list.trans hl
      cases hx : ((Setters.begin S args).run us).state with
      | mk a b =>
        rw [hx] at hmap hlist
        cases W
        simp only at hmap hlist
        rw [hmap, hlist]
  · rintro ⟨us, hfin, hst⟩
    have h0 : Calm args.length (MapRun.begin S n args readers) (Setters.begin S args) := by
      have hb := sim_begin S n args readers
      refine ⟨rfl, fun m => ?_, fun p hp => ?_, hb.pcs, rfl⟩
      · simp only [MapRun.begin]
        split <;> rfl
      · simp only [MapRun.begin, List.mem_append, List.mem_map] at hp
        rcases hp with ⟨l, -, rfl⟩ | ⟨ws, -, rfl⟩ <;> rfl
    obtain ⟨ts, h⟩ := calm_run args.length us _ _ h0
    refine ⟨ts, h.fatal, fun t ht => ?_, ?_, ?_⟩
    · have hlen : ((MapRun.begin S n args readers).run ts).pcs.length = args.length + readers.length := by
        rw [run_length]; simp [MapRun.begin]
      have hlt : t < ((MapRun.begin S n args readers).run ts).pcs.length := by omega
      have hg := List.getElem?_eq_getElem hlt
      have hns := setters_stay S n args readers ts t ht _ hg
      have : coarse ((MapRun.begin S n args readers).run ts).cur ((MapRun.begin S n args readers).run ts).pcs[t] = .done := by
        apply hfin
        rw [h.pcs]
        refine List.mem_map_of_mem ?_
        exact List.mem_of_getElem? (i := t) (by rw [List.getElem?_take_of_lt ht]; exact hg)
      rcases coarse_done this with h1 | h1
      · rw [hg, h1]
      · exact absurd h1 hns
    · rw [← hst, h.state]
    · rw [← hst, h.state]

end Bips
