import Verif.Props.MapSim
import Verif.Props.RaceExact

/-! # C101: a word whose index is not yet stored -/

namespace Bips
open Spec

/-- What a lookup of `w` may give while `SetWordList(l)` runs, `m` being the map before: what it gave before, nothing, the index of the
word in the list, and 0. -/
def Spec.MaySee (m : Bytes → Option Nat) (l : List Bytes) (w : Bytes) (r : Option Nat) : Prop :=
  r = m w ∨ r = none ∨ (w ∈ l ∧ r = some 0) ∨ ∃ i : Nat, l[i]? = some w ∧ r = some i

namespace MapRun

/-- What the map of the running call may give. -/
def New (l : List Bytes) (w : Bytes) (r : Option Nat) : Prop :=
  r = none ∨ (w ∈ l ∧ r = some 0) ∨ ∃ i : Nat, l[i]? = some w ∧ r = some i

/-- Where the call of `SetWordList(l)` is. -/
def SetterAt (l : List Bytes) (c : MapRun) (p : MapPc) : Prop :=
  (p = .start l ∧ c.cur = 0 ∧ c.next = 1) ∨ (p = .listed ∧ c.list = l ∧ c.cur = 0 ∧ c.next = 1) ∨
  (p = .made ∧ c.list = l ∧ c.cur = 1) ∨ (∃ i, p = .loop (l.drop i) i ∧ c.cur = 1) ∨ (p = .done ∧ c.cur = 1) ∨
  (∃ v vs i, pend p = some (v, vs, i, 1) ∧ v :: vs = l.drop i ∧ c.cur = 1)

/-- Where the call of `GetWordIndex(w)` is. -/
def ReaderAt (m : Bytes → Option Nat) (l : List Bytes) (w : Bytes) (q : MapPc) : Prop :=
  q = .reads [w] [] ∨ (∃ k, q = .reading w [] [] k ∧ (k = 0 ∨ k = 1)) ∨ ∃ r, q = .reads [] [r] ∧ MaySee m l w r

structure Pair (m : Bytes → Option Nat) (l : List Bytes) (w : Bytes) (c : MapRun) : Prop where
  pcs : ∃ p q, c.pcs = [p, q] ∧ SetterAt l c p ∧ ReaderAt m l w q
  zero : (c.maps 0).content = m
  one : ∀ w, New l w ((c.maps 1).content w)

theorem cur_of_setterAt {l : List Bytes} {c : MapRun} {p : MapPc} (h : SetterAt l c p) : c.cur = 0 ∨ c.cur = 1 := by
  rcases h with h | h | h | ⟨i, h⟩ | h | ⟨v, vs, i, h⟩
  · exact .inl h.2.1
  · exact .inl h.2.2.1
  · exact .inr h.2.2
  · exact .inr h.2
  · exact .inr h.2
  · exact .inr h.2.2

theorem drop_cons {l : List Bytes} {v : Bytes} {vs : List Bytes} {i : Nat} (h : v :: vs = l.drop i) :
    l[i]? = some v ∧ vs = l.drop (i + 1) := by
  constructor
  · have := congrArg (·[0]?) h
    simp only [List.getElem?_cons_zero, List.getElem?_drop, Nat.add_zero] at this
    exact this.symm
  · rw [← List.drop_drop, ← h]; rfl

theorem pair_step (m : Bytes → Option Nat) (l : List Bytes) (w : Bytes) (c : MapRun) (t : Nat) (h : Pair m l w c) :
    Pair m l w (c.step t) := by
  by_cases hf : c.fatal = true
  · rw [step_fatal c t hf]; exact h
  obtain ⟨⟨p, q, hpcs, hp, hq⟩, h0, h1⟩ := h
  have hf' : c.fatal = false := by simpa using hf
  have same : c.step t = c → Pair m l w (c.step t) := fun e => by rw [e]; exact ⟨⟨p, q, hpcs, hp, hq⟩, h0, h1⟩
  have dead : c.step t = { c with fatal := true } → Pair m l w (c.step t) := fun e => by
    rw [e]; exact ⟨⟨p, q, hpcs, hp, hq⟩, h0, h1⟩
  match t with
  | 0 =>
    have hat : c.pcs[0]? = some p := by rw [hpcs]; rfl
    have hset : ∀ x, c.pcs.set 0 x = [x, q] := fun x => by rw [hpcs]; rfl
    rcases hp with ⟨rfl, e1, e2⟩ | ⟨rfl, e1, e2, e3⟩ | ⟨rfl, e1, e2⟩ | ⟨i, rfl, e1⟩ | ⟨rfl, e1⟩ | ⟨v, vs, i, e1, e2, e3⟩
    · have : c.step 0 = { c with list := l }.goto 0 .listed := by simp [step, hf', hat]
      rw [this]
      exact ⟨⟨.listed, q, hset _, .inr (.inl ⟨rfl, rfl, e1, e2⟩), hq⟩, h0, h1⟩
    · have : c.step 0 = ({ c with next := c.next + 1, cur := c.next }.put c.next GoMap.empty).goto 0 .made := by simp [step, hf', hat]
      rw [this]
      refine ⟨⟨.made, q, hset _, .inr (.inr (.inl ⟨rfl, e1, e3⟩)), hq⟩, ?_, fun w => ?_⟩
      · simp only [goto, put, e3]
        exact h0
      · simp only [goto, put, e3]
        exact .inl rfl
    · have : c.step 0 = c.goto 0 (.loop c.list 0) := by simp [step, hf', hat]
      rw [this]
      exact ⟨⟨_, q, hset _, .inr (.inr (.inr (.inl ⟨0, by rw [e1]; rfl, e2⟩))), hq⟩, h0, h1⟩
    · cases hd : l.drop i with
      | nil =>
        have : c.step 0 = c.goto 0 .done := by simp [step, hf', hat, hd]
        rw [this]
        exact ⟨⟨.done, q, hset _, .inr (.inr (.inr (.inr (.inl ⟨rfl, e1⟩)))), hq⟩, h0, h1⟩
      | cons v vs =>
        have : c.step 0 = c.goto 0 (.loaded v vs i c.cur) := by simp [step, hf', hat, hd]
        rw [this]
        exact ⟨⟨.loaded v vs i c.cur, q, hset _, .inr (.inr (.inr (.inr (.inr ⟨v, vs, i, by rw [e1]; rfl, hd.symm, e1⟩)))), hq⟩, h0, h1⟩
    · exact same (by simp [step, hf', hat])
    · obtain ⟨g1, g2⟩ := drop_cons e2
      have hv : v ∈ l := List.mem_of_getElem? g1
      cases p with
      | loaded v' vs' i' m' =>
        simp only [pend, Option.some.injEq, Prod.mk.injEq] at e1
        obtain ⟨rfl, rfl, rfl, rfl⟩ := e1
        by_cases hw : (c.maps 1).writing = true
        · exact dead (by simp [step, hf', hat, hw])
        · have : c.step 0 = c.goto 0 (.entered v' vs' i' 1) := by simp [step, hf', hat, hw]
          rw [this]
          exact ⟨⟨.entered v' vs' i' 1, q, hset _, .inr (.inr (.inr (.inr (.inr ⟨v', vs', i', rfl, e2, e3⟩)))), hq⟩, h0, h1⟩
      | entered v' vs' i' m' =>
        simp only [pend, Option.some.injEq, Prod.mk.injEq] at e1
        obtain ⟨rfl, rfl, rfl, rfl⟩ := e1
        have : c.step 0 = (c.put 1 { c.maps 1 with writing := !(c.maps 1).writing }).goto 0 (.marked v' vs' i' 1) := by
          simp [step, hf', hat]
        rw [this]
        exact ⟨⟨.marked v' vs' i' 1, q, hset _, .inr (.inr (.inr (.inr (.inr ⟨v', vs', i', rfl, e2, e3⟩)))), hq⟩, h0, h1⟩
      | marked v' vs' i' m' =>
        simp only [pend, Option.some.injEq, Prod.mk.injEq] at e1
        obtain ⟨rfl, rfl, rfl, rfl⟩ := e1
        have : c.step 0 = (c.put 1 ((c.maps 1).assign v')).goto 0 (.assigned v' vs' i' 1) := by simp [step, hf', hat]
        rw [this]
        refine ⟨⟨.assigned v' vs' i' 1, q, hset _, .inr (.inr (.inr (.inr (.inr ⟨v', vs', i', rfl, e2, e3⟩)))), hq⟩, h0, fun w => ?_⟩
        simp only [goto, put, if_true]
        rcases assign_content (c.maps 1) v' w with ha | ⟨hw, -, ha⟩
        · rw [ha]; exact h1 w
        · rw [ha, hw]; exact .inr (.inl ⟨hv, rfl⟩)
      | assigned v' vs' i' m' =>
        simp only [pend, Option.some.injEq, Prod.mk.injEq] at e1
        obtain ⟨rfl, rfl, rfl, rfl⟩ := e1
        by_cases hw : (c.maps 1).writing = true
        · have : c.step 0 = (c.put 1 { c.maps 1 with writing := false }).goto 0 (.placed v' vs' i' 1) := by simp [step, hf', hat, hw]
          rw [this]
          exact ⟨⟨.placed v' vs' i' 1, q, hset _, .inr (.inr (.inr (.inr (.inr ⟨v', vs', i', rfl, e2, e3⟩)))), hq⟩, h0, h1⟩
        · exact dead (by simp [step, hf', hat, hw])
      | placed v' vs' i' m' =>
        simp only [pend, Option.some.injEq, Prod.mk.injEq] at e1
        obtain ⟨rfl, rfl, rfl, rfl⟩ := e1
        have : c.step 0 = (c.put 1 ((c.maps 1).store v' i')).goto 0 (.loop vs' (i' + 1)) := by simp [step, hf', hat]
        rw [this]
        refine ⟨⟨_, q, hset _, .inr (.inr (.inr (.inl ⟨i' + 1, by rw [g2], e3⟩))), hq⟩, h0, fun w => ?_⟩
        simp only [goto, put, if_true, GoMap.store]
        split
        · next e => rw [e]; exact .inr (.inr ⟨i', g1, rfl⟩)
        · exact h1 w
      | _ => simp [pend] at e1
  | 1 =>
    have hat : c.pcs[1]? = some q := by rw [hpcs]; rfl
    have hset : ∀ x, c.pcs.set 1 x = [p, x] := fun x => by rw [hpcs]; rfl
    rcases hq with rfl | ⟨k, rfl, hk⟩ | ⟨r, rfl, hr⟩
    · have : c.step 1 = c.goto 1 (.reading w [] [] c.cur) := by simp [step, hf', hat]
      rw [this]
      exact ⟨⟨p, _, hset _, hp, .inr (.inl ⟨_, rfl, cur_of_setterAt hp⟩)⟩, h0, h1⟩
    · by_cases hw : (c.maps k).count ≠ 0 ∧ (c.maps k).writing = true
      · exact dead (by simp only [step, hf', hat, if_pos hw, Bool.false_eq_true, if_false])
      · have : c.step 1 = c.goto 1 (.reads [] [(c.maps k).content w]) := by
          simp only [step, hf', hat, if_neg hw, Bool.false_eq_true, if_false]
          cases (c.maps k).content w <;> rfl
        rw [this]
        refine ⟨⟨p, _, hset _, hp, .inr (.inr ⟨_, rfl, ?_⟩)⟩, h0, h1⟩
        rcases hk with rfl | rfl
        · rw [h0]; exact .inl rfl
        · exact .inr (h1 w)
    · exact same (by simp [step, hf', hat])
  | t + 2 => exact same (by simp [step, hpcs])

/-! ### Executions -/

/-- A lookup without interruption. -/
theorem run_lookup (c : MapRun) (t : Nat) (w : Bytes) (ws : List Bytes) (got : List (Option Nat)) (hf : c.fatal = false)
    (hp : c.pcs[t]? = some (.reads (w :: ws) got)) (hw : (c.maps c.cur).writing = false) :
    c.run [t, t] = c.goto t (match (c.maps c.cur).content w with
      | none => .reads [] (got ++ [none])
      | some x => .reads ws (got ++ [some x])) := by
  have hlt : t < c.pcs.length := (List.getElem?_eq_some_iff.1 hp).1
  have h1 : c.step t = c.goto t (.reading w ws got c.cur) := by simp [step, hf, hp]
  change (c.step t).step t = _
  rw [h1]
  simp only [step, goto, hf, List.getElem?_set_self hlt, hw, Bool.false_eq_true, if_false, and_false, List.set_set]
  cases (c.maps c.cur).content w <;> rfl

/-- Lookups of words that are there. -/
theorem run_lookups (c : MapRun) (t : Nat) (a ws : List Bytes) (got : List (Option Nat)) (hf : c.fatal = false)
    (hp : c.pcs[t]? = some (.reads (a ++ ws) got)) (hw : (c.maps c.cur).writing = false)
    (ha : ∀ w ∈ a, (c.maps c.cur).content w ≠ none) :
    c.run (List.replicate (2 * a.length) t) = c.goto t (.reads ws (got ++ a.map (c.maps c.cur).content)) := by
  have hlt : t < c.pcs.length := (List.getElem?_eq_some_iff.1 hp).1
  induction a generalizing c got with
  | nil =>
    change c = _
    rw [goto, set_same]
    intro _
    simpa using hp
  | cons w a ih =>
    have hl : 2 * (w :: a).length = 2 * a.length + 1 + 1 := by simp; omega
    rw [hl, List.replicate_succ, List.replicate_succ]
    change (c.run [t, t]).run _ = _
    rw [run_lookup c t w (a ++ ws) got hf hp hw]
    obtain ⟨x, hx⟩ := Option.ne_none_iff_exists'.1 (ha w List.mem_cons_self)
    rw [hx]
    rw [ih (c.goto t (.reads (a ++ ws) (got ++ [some x]))) (got ++ [some x]) hf (by simp [goto, hlt]) hw
      (fun v hv => ha v (List.mem_cons_of_mem _ hv)) (by simpa [goto] using hlt)]
    simp [goto, hx]

/-- Words written without interruption. -/
theorem run_writes (c : MapRun) (t : Nat) (vs rest : List Bytes) (i : Nat) (hf : c.fatal = false)
    (hp : c.pcs[t]? = some (.loop (vs ++ rest) i)) (hw : (c.maps c.cur).writing = false) :
    ∃ n, c.run (List.replicate (6 * vs.length) t) =
      (c.put c.cur ⟨fillWordMap vs i (c.maps c.cur).content, n, false⟩).goto t (.loop rest (i + vs.length)) := by
  have hlt : t < c.pcs.length := (List.getElem?_eq_some_iff.1 hp).1
  induction vs generalizing c i with
  | nil =>
    refine ⟨(c.maps c.cur).count, ?_⟩
    change c = _
    simp only [goto, put, fillWordMap]
    rw [set_same _ _ _ fun _ => by simpa using hp]
    have : (fun k => if k = c.cur then GoMap.mk (c.maps c.cur).content (c.maps c.cur).count false else c.maps k) = c.maps := by
      funext k
      split
      · next e => rw [e, ← hw]
      · rfl
    rw [this]
  | cons v vs ih =>
    obtain ⟨n, hn⟩ := run_write c t v (vs ++ rest) i hf hp hw
    have hl : 6 * (v :: vs).length = 6 + 6 * vs.length := by simp; omega
    rw [hl, ← List.replicate_append_replicate, run_append, hn]
    obtain ⟨n', hn'⟩ := ih ((c.put c.cur ⟨fun w => if w = v then some i else (c.maps c.cur).content w, n, false⟩).goto t
      (.loop (vs ++ rest) (i + 1))) (i + 1) hf (by simp [goto, put, hlt]) (by simp [goto, put]) (by simpa [goto, put] using hlt)
    refine ⟨n', ?_⟩
    rw [hn']
    simp only [goto, put, List.set_set, if_true, fillWordMap, List.length_cons]
    have h2 : i + 1 + vs.length = i + (vs.length + 1) := by omega
    rw [h2]
    congr 1
    funext k
    split <;> rfl

/-- A new word put into the map, its index not yet stored. -/
theorem run_place (c : MapRun) (t : Nat) (v : Bytes) (vs : List Bytes) (i : Nat) (hf : c.fatal = false)
    (hp : c.pcs[t]? = some (.loop (v :: vs) i)) (hw : (c.maps c.cur).writing = false) (hn : (c.maps c.cur).content v = none) :
    c.run (List.replicate 5 t) = (c.put c.cur ⟨fun w => if w = v then some 0 else (c.maps c.cur).content w,
      (c.maps c.cur).count + 1, false⟩).goto t (.placed v vs i c.cur) := by
  have hlt : t < c.pcs.length := (List.getElem?_eq_some_iff.1 hp).1
  have h1 : c.step t = c.goto t (.loaded v vs i c.cur) := by simp [step, hf, hp]
  have h2 : (c.goto t (.loaded v vs i c.cur)).step t = c.goto t (.entered v vs i c.cur) := by
    simp [step, goto, hf, hlt, hw]
  have h3 : (c.goto t (.entered v vs i c.cur)).step t =
      (c.put c.cur { c.maps c.cur with writing := true }).goto t (.marked v vs i c.cur) := by
    simp [step, goto, put, hf, hlt, hw]
  have ha : GoMap.assign { c.maps c.cur with writing := true } v =
      ⟨fun w => if w = v then some 0 else (c.maps c.cur).content w, (c.maps c.cur).count + 1, true⟩ := by
    simp [GoMap.assign, hn]
  have h4 : ((c.put c.cur { c.maps c.cur with writing := true }).goto t (.marked v vs i c.cur)).step t =
      (c.put c.cur ⟨fun w => if w = v then some 0 else (c.maps c.cur).content w, (c.maps c.cur).count + 1, true⟩).goto t
        (.assigned v vs i c.cur) := by
    rw [← ha]
    simp only [step, goto, put, hf, List.getElem?_set_self hlt, if_true, Bool.false_eq_true, if_false, List.set_set]
    congr 1
    funext k
    split <;> rfl
  have h5 : ((c.put c.cur ⟨fun w => if w = v then some 0 else (c.maps c.cur).content w, (c.maps c.cur).count + 1, true⟩).goto t
      (.assigned v vs i c.cur)).step t = (c.put c.cur ⟨fun w => if w = v then some 0 else (c.maps c.cur).content w,
      (c.maps c.cur).count + 1, false⟩).goto t (.placed v vs i c.cur) := by
    simp only [step, goto, put, hf, List.getElem?_set_self hlt, if_true, Bool.false_eq_true, if_false, List.set_set]
    congr 1
    funext k
    split <;> rfl
  change ((((c.step t).step t).step t).step t).step t = _
  rw [h1, h2, h3, h4, h5]

/-- The first three steps of `SetWordList`. -/
theorem run_start (c : MapRun) (t : Nat) (l : List Bytes) (hf : c.fatal = false) (hp : c.pcs[t]? = some (.start l)) :
    c.run [t, t, t] = ({ c with list := l, next := c.next + 1, cur := c.next }.put c.next GoMap.empty).goto t (.loop l 0) := by
  have hlt : t < c.pcs.length := (List.getElem?_eq_some_iff.1 hp).1
  have h1 : c.step t = { c with list := l }.goto t .listed := by simp [step, hf, hp]
  change ((c.step t).step t).step t = _
  rw [h1]
  simp [step, goto, put, hf, hlt]

/-- `SetWordList` running alone, until part of the words are in the map. -/
theorem run_fill (c : MapRun) (t : Nat) (pre rest : List Bytes) (hf : c.fatal = false) (hp : c.pcs[t]? = some (.start (pre ++ rest))) :
    ∃ sch, (c.run sch).fatal = false ∧ (c.run sch).pcs = c.pcs.set t (.loop rest pre.length) ∧
      ((c.run sch).maps (c.run sch).cur).writing = false ∧
      ((c.run sch).maps (c.run sch).cur).content = fillWordMap pre 0 fun _ => none := by
  have hlt : t < c.pcs.length := (List.getElem?_eq_some_iff.1 hp).1
  have h1 := run_start c t (pre ++ rest) hf hp
  obtain ⟨n, h2⟩ := run_writes (({ c with list := pre ++ rest, next := c.next + 1, cur := c.next }.put c.next GoMap.empty).goto t
    (.loop (pre ++ rest) 0)) t pre rest 0 hf (by simp [goto, put, hlt]) (by simp [goto, put, GoMap.empty])
  refine ⟨[t, t, t] ++ List.replicate (6 * pre.length) t, ?_⟩
  rw [run_append, h1, h2]
  refine ⟨hf, ?_, ?_, ?_⟩ <;> simp [goto, put, GoMap.empty]

/-- The word after them put into the map, its index not yet stored. -/
theorem run_fill_place (c : MapRun) (t : Nat) (pre post : List Bytes) (w : Bytes) (hw : w ∉ pre) (hf : c.fatal = false)
    (hp : c.pcs[t]? = some (.start (pre ++ w :: post))) :
    ∃ sch, (c.run sch).fatal = false ∧ (c.run sch).pcs = c.pcs.set t (.placed w post pre.length (c.run sch).cur) ∧
      ((c.run sch).maps (c.run sch).cur).writing = false ∧
      ((c.run sch).maps (c.run sch).cur).content = (fun v => if v = w then some 0 else fillWordMap pre 0 (fun _ => none) v) := by
  have hlt : t < c.pcs.length := (List.getElem?_eq_some_iff.1 hp).1
  obtain ⟨sch, h1, h2, h3, h4⟩ := run_fill c t pre (w :: post) hf hp
  have hn : ((c.run sch).maps (c.run sch).cur).content w = none := by
    rw [h4]
    cases hx : fillWordMap pre 0 (fun _ => none) w with
    | none => rfl
    | some j =>
      rw [fillWordMap_some] at hx
      rcases hx with ⟨p, hp, -⟩ | ⟨-, h⟩
      · exact absurd (List.mem_of_getElem? hp) hw
      · simp at h
  have h5 := run_place (c.run sch) t w post pre.length h1 (by rw [h2]; simp [hlt]) h3 hn
  refine ⟨sch ++ List.replicate 5 t, ?_⟩
  rw [run_append, h5]
  refine ⟨h1, ?_, ?_, ?_⟩
  · simp [goto, put, h2]
  · simp [goto, put]
  · simp [goto, put, h4]

end MapRun

open MapRun

theorem fillWordMap_append (a b : List Bytes) (i : Nat) (m : Bytes → Option Nat) :
    fillWordMap (a ++ b) i m = fillWordMap b (i + a.length) (fillWordMap a i m) := by
  induction a generalizing i m with
  | nil => rfl
  | cons v a ih =>
    rw [List.cons_append, fillWordMap, ih, fillWordMap, List.length_cons]
    congr 1
    omega

/-- **C101**, one lookup: `GetWordIndex(w)` running at the same time as `SetWordList(l)` can give the index it had before, "not found",
the index of the word in the new list, and — between the entry of a word into the map and the storing of its index — 0 for any word of
the new list; nothing else. -/
theorem C101_getWordIndex_iff (S : WordState) (n : Nat) (l : List Bytes) (w : Bytes) (r : Option Nat) :
    (∃ schedule, ((MapRun.begin S n [l] [[w]]).run schedule).fatal = false ∧
      ((MapRun.begin S n [l] [[w]]).run schedule).pcs[1]? = some (.reads [] [r])) ↔ MaySee S.map l w r := by
  constructor
  · rintro ⟨schedule, -, hp⟩
    have h : Pair S.map l w ((MapRun.begin S n [l] [[w]]).run schedule) := by
      refine run_induct (P := Pair S.map l w) (pair_step S.map l w) _ ?_ schedule
      refine ⟨⟨_, _, rfl, .inl ⟨rfl, rfl, rfl⟩, .inl rfl⟩, rfl, fun w => .inl rfl⟩
    obtain ⟨⟨p, q, hpcs, -, hq⟩, -, -⟩ := h
    rw [hpcs] at hp
    have hq' : q = .reads [] [r] := by simpa using hp
    subst hq'
    rcases hq with hq | ⟨k, hq, -⟩ | ⟨r', hq, h⟩
    · simp at hq
    · simp at hq
    · simp only [MapPc.reads.injEq, List.cons.injEq, and_true, true_and] at hq
      rw [hq]; exact h
  · have key : ∀ (c : MapRun) (sch : List Nat), (MapRun.begin S n [l] [[w]]).run sch = c → c.fatal = false →
        c.pcs[1]? = some (.reads [w] []) → (c.maps c.cur).writing = false → (c.maps c.cur).content w = r →
        ∃ schedule, ((MapRun.begin S n [l] [[w]]).run schedule).fatal = false ∧
          ((MapRun.begin S n [l] [[w]]).run schedule).pcs[1]? = some (.reads [] [r]) := by
      intro c sch hs hf hp hw hr
      refine ⟨sch ++ [1, 1], ?_⟩
      have hlt : 1 < c.pcs.length := (List.getElem?_eq_some_iff.1 hp).1
      rw [run_append, hs, run_lookup c 1 w [] [] hf hp hw, hr]
      refine ⟨hf, ?_⟩
      cases r <;> simp [goto, hlt]
    rintro (rfl | rfl | ⟨hl, rfl⟩ | ⟨i, hi, rfl⟩)
    · exact key _ [] rfl rfl rfl rfl rfl
    · obtain ⟨sch, h1, h2, h3, h4⟩ := run_fill (MapRun.begin S n [l] [[w]]) 0 [] l rfl rfl
      exact key _ sch rfl h1 (by rw [h2]; rfl) h3 (by rw [h4]; rfl)
    · obtain ⟨pre, post, rfl, hpre⟩ := List.eq_append_cons_of_mem hl
      obtain ⟨sch, h1, h2, h3, h4⟩ := run_fill_place (MapRun.begin S n [pre ++ w :: post] [[w]]) 0 pre post w hpre rfl rfl
      exact key _ sch rfl h1 (by rw [h2]; rfl) h3 (by rw [h4]; simp)
    · have hlt : i < l.length := (List.getElem?_eq_some_iff.1 hi).1
      have hsplit : l = (l.take i ++ [w]) ++ l.drop (i + 1) := by
        rw [List.append_assoc]
        conv => lhs; rw [← List.take_append_drop i l]
        rw [List.drop_eq_getElem_cons hlt, (List.getElem?_eq_some_iff.1 hi).2]
        rfl
      obtain ⟨sch, h1, h2, h3, h4⟩ := run_fill (MapRun.begin S n [l] [[w]]) 0 (l.take i ++ [w]) (l.drop (i + 1)) rfl
        (by rw [← hsplit]; rfl)
      refine key _ sch rfl h1 (by rw [h2]; rfl) h3 ?_
      have hti : (l.take i).length = i := by rw [List.length_take]; omega
      rw [h4, fillWordMap_some]
      refine .inl ⟨i, ?_, by omega, fun q hq => ?_⟩
      · rw [List.getElem?_append_right (by omega), hti]; simp
      · rw [List.getElem?_eq_none (by rw [List.length_append, hti]; simpa using hq)]; simp

/-- **C101**, a sentence: let the good list `l` be in force and be set once more while `EntropyFromMnemonic` reads a sentence of its words.
For every word of the sentence there is an execution that does not end the program and in which the result is that for the sentence
with this word replaced by the first of the list: another entropy, without an error, if the checksum happens to fit. -/
theorem C101_zero (H : Hashes) (l : List Bytes) (hg : GoodList l) (n : Nat) (s : Bytes) (a b : List Bytes) (w z : Bytes)
    (hs : Layout s (a ++ w :: b)) (hlen : (a ++ w :: b).length ∈ sentenceLengths) (hl : ∀ x ∈ a ++ w :: b, x ∈ l) (hz : l[0]? = some z) :
    ∃ schedule got, ((MapRun.begin (setWordList l) n [l] [lookedUp s]).run schedule).fatal = false ∧
      ((MapRun.begin (setWordList l) n [l] [lookedUp s]).run schedule).pcs = [.done, .reads [] got] ∧
      entropyLookups H got s = entropyFromMnemonic H (setWordList l) ([32].intercalate (a ++ z :: b)) := by
  have hfs := fields_layout hs
  have hlook : lookedUp s = a ++ w :: b := by rw [lookedUp, splitMnemonicWords_eq, hfs, if_pos hlen]
  rw [hlook]
  have hM : ∀ x ∈ a ++ w :: b, ∃ j, (setWordList l).map x = some j := fun x hx => by
    obtain ⟨j, hj⟩ := List.getElem?_of_mem (hl x hx)
    exact ⟨j, (setWordList_map_nodup hg.nodup x j).2 hj⟩
  have hMne : ∀ x ∈ a ++ w :: b, (setWordList l).map x ≠ none := fun x hx => by
    obtain ⟨j, hj⟩ := hM x hx
    simp [hj]
  generalize hc0 : MapRun.begin (setWordList l) n [l] [a ++ w :: b] = c0
  -- the words before
  have e1 : c0.run (List.replicate (2 * a.length) 1) = c0.goto 1 (.reads (w :: b) ([] ++ a.map (setWordList l).map)) := by
    rw [← hc0]
    exact run_lookups _ 1 a (w :: b) [] rfl rfl rfl fun x hx => hMne x (List.mem_append_left _ hx)
  generalize hc1 : c0.goto 1 (.reads (w :: b) ([] ++ a.map (setWordList l).map)) = c1 at e1
  have p1 : c1.pcs = [.start l, .reads (w :: b) ([] ++ a.map (setWordList l).map)] := by rw [← hc1, ← hc0]; rfl
  have f1 : c1.fatal = false := by rw [← hc1, ← hc0]; rfl
  -- the word that is in the map without its index
  obtain ⟨pre, post, hsplit, hpre⟩ := List.eq_append_cons_of_mem (hl w (by simp))
  obtain ⟨sch, f2, p2, w2, m2⟩ := run_fill_place c1 0 pre post w hpre f1 (by rw [p1, hsplit]; rfl)
  generalize hc2 : c1.run sch = c2 at *
  have p2' : c2.pcs = [.placed w post pre.length c2.cur, .reads (w :: b) ([] ++ a.map (setWordList l).map)] := by rw [p2, p1]; rfl
  have e3 := run_lookup c2 1 w b ([] ++ a.map (setWordList l).map) f2 (by rw [p2']; rfl) w2
  have hw0 : (c2.maps c2.cur).content w = some 0 := by rw [m2]; simp
  rw [hw0] at e3
  simp only at e3
  generalize hc3 : c2.goto 1 (.reads b ([] ++ a.map (setWordList l).map ++ [some 0])) = c3 at e3
  have p3 : c3.pcs = [.placed w post pre.length c2.cur, .reads b ([] ++ a.map (setWordList l).map ++ [some 0])] := by
    rw [← hc3, goto, p2']; rfl
  have f3 : c3.fatal = false := by rw [← hc3]; exact f2
  have k3 : c3.cur = c2.cur := by rw [← hc3]; rfl
  have m3 : c3.maps = c2.maps := by rw [← hc3]; rfl
  -- the rest of `SetWordList`
  have e4 : c3.step 0 = (c3.put c3.cur ((c3.maps c3.cur).store w pre.length)).goto 0 (.loop post (pre.length + 1)) := by
    have : c3.pcs[0]? = some (.placed w post pre.length c2.cur) := by rw [p3]; rfl
    simp [step, f3, this, k3]
  generalize hc4 : (c3.put c3.cur ((c3.maps c3.cur).store w pre.length)).goto 0 (.loop post (pre.length + 1)) = c4 at e4
  have p4 : c4.pcs = [.loop (post ++ []) (pre.length + 1), .reads b ([] ++ a.map (setWordList l).map ++ [some 0])] := by
    rw [← hc4, List.append_nil]; simp only [goto, put, p3]; rfl
  have f4 : c4.fatal = false := by rw [← hc4]; exact f3
  have m4 : (c4.maps c4.cur).content = fun v => if v = w then some pre.length else fillWordMap pre 0 (fun _ => none) v := by
    funext v
    rw [← hc4]
    simp only [goto, put, if_true, GoMap.store, m3, k3, m2]
    split <;> simp_all
  have w4 : (c4.maps c4.cur).writing = false := by
    rw [← hc4]
    simp only [goto, put, if_true, GoMap.store, m3, k3, w2]
  obtain ⟨N, e5⟩ := run_writes c4 0 post [] (pre.length + 1) f4 (by rw [p4]; rfl) w4
  have hfull : fillWordMap post (pre.length + 1) (c4.maps c4.cur).content = (setWordList l).map := by
    change _ = fillWordMap l 0 fun _ => none
    rw [m4, hsplit, fillWordMap_append, Nat.zero_add]
    rfl
  rw [hfull] at e5
  generalize hc5 : (c4.put c4.cur ⟨(setWordList l).map, N, false⟩).goto 0 (.loop [] (pre.length + 1 + post.length)) = c5 at e5
  have p5 : c5.pcs = [.loop [] (pre.length + 1 + post.length), .reads b ([] ++ a.map (setWordList l).map ++ [some 0])] := by
    rw [← hc5]; simp only [goto, put, p4]; rfl
  have f5 : c5.fatal = false := by rw [← hc5]; exact f4
  have g5 : c5.maps c5.cur = ⟨(setWordList l).map, N, false⟩ := by rw [← hc5]; simp [goto, put]
  have e6 : c5.step 0 = c5.goto 0 .done := by
    have : c5.pcs[0]? = some (.loop [] (pre.length + 1 + post.length)) := by rw [p5]; rfl
    simp [step, f5, this]
  -- the words after
  have e7 := run_lookups (c5.goto 0 .done) 1 b [] ([] ++ a.map (setWordList l).map ++ [some 0]) f5 (by simp only [goto, p5]; simp)
    (by change (c5.maps c5.cur).writing = _; rw [g5]) (by
      intro x hx
      change (c5.maps c5.cur).content x ≠ _
      rw [g5]
      exact hMne x (by simp [hx]))
  have g7 : ((c5.goto 0 .done).maps (c5.goto 0 .done).cur).content = (setWordList l).map := by
    change (c5.maps c5.cur).content = _
    rw [g5]
  rw [g7] at e7
  refine ⟨List.replicate (2 * a.length) 1 ++ (sch ++ ([1, 1] ++ ([0] ++ (List.replicate (6 * post.length) 0 ++ ([0] ++
    List.replicate (2 * b.length) 1))))), a.map (setWordList l).map ++ some 0 :: b.map (setWordList l).map, ?_⟩
  have hrun : c0.run (List.replicate (2 * a.length) 1 ++ (sch ++ ([1, 1] ++ ([0] ++ (List.replicate (6 * post.length) 0 ++ ([0] ++
      List.replicate (2 * b.length) 1)))))) =
      (c5.goto 0 .done).goto 1 (.reads [] ([] ++ a.map (setWordList l).map ++ [some 0] ++ b.map (setWordList l).map)) := by
    rw [run_append, e1, run_append, hc2, run_append, e3, run_append]
    change ((c3.step 0).run _) = _
    rw [e4, run_append, e5, run_append]
    change ((c5.step 0).run _) = _
    rw [e6, e7]
  rw [hrun]
  refine ⟨f5, ?_, ?_⟩
  · simp only [goto, p5]; simp
  · have hmz : (setWordList l).map z = some 0 := (setWordList_map_nodup hg.nodup z 0).2 hz
    have hus : ∀ x ∈ a ++ z :: b, IsWord x := by
      intro x hx
      refine hg.word x ?_
      rcases List.mem_append.1 hx with h | h
      · exact hl x (by simp [h])
      · rcases List.mem_cons.1 h with rfl | h
        · exact List.mem_of_getElem? hz
        · exact hl x (by simp [h])
    have hfu := fields_join (a ++ z :: b) hus
    refine entropyRacing_eq H _ (setWordList l) s _ (by rw [hfs, hfu]; simp) ?_
    rw [hfs, hfu]
    refine decodeWordsRacing_same _ _ (a ++ w :: b) (a ++ z :: b) 0 (by simp) (by simp) ?_
    intro k m' x u h1 h2 h3
    rw [List.getElem?_map] at h1
    obtain ⟨g, hgk, rfl⟩ := Option.map_eq_some_iff.1 h1
    rcases Nat.lt_trichotomy k a.length with hk | hk | hk
    · rw [List.getElem?_append_left (by simpa using hk)] at hgk h2 h3
      rw [h2] at h3
      obtain rfl := Option.some.inj h3
      rw [List.getElem?_map, h2] at hgk
      obtain ⟨j, hj⟩ := hM x (List.mem_append_left _ (List.mem_of_getElem? h2))
      exact ⟨j, by rw [← Option.some.inj hgk, hj], hj⟩
    · rw [hk, List.getElem?_append_right (by simp)] at hgk h3
      simp only [List.length_map, Nat.sub_self, List.getElem?_cons_zero, Option.some.injEq] at hgk h3
      exact ⟨0, hgk.symm, by rw [← h3, hmz]⟩
    · obtain ⟨d, rfl⟩ : ∃ d, k = a.length + (d + 1) := ⟨k - a.length - 1, by omega⟩
      rw [List.getElem?_append_right (by simp)] at hgk h2 h3
      simp only [List.length_map, Nat.add_sub_cancel_left, List.getElem?_cons_succ] at hgk h2 h3
      rw [h2] at h3
      obtain rfl := Option.some.inj h3
      rw [List.getElem?_map, h2] at hgk
      obtain ⟨j, hj⟩ := hM x (List.mem_append_right _ (List.mem_cons_of_mem _ (List.mem_of_getElem? h2)))
      exact ⟨j, by rw [← Option.some.inj hgk, hj], hj⟩

end Bips
