import Verif.Src.Alone
import Verif.Props.MapFatal
import Verif.Props.MapZero
import Verif.Props.WordRace

/-!
# C120: the text of package bip39, running concurrently

The models of concurrent calls (`WordRace`, `WordSetters`, `MapFatal`) were written by hand, from the text of the functions. Here the text itself
is run: a call is the tree of the accesses its translation makes to the two package variables.
-/

namespace Bips

open Src Spec

/-! ### Calls of `SetWordList` -/

/-- What a call of `SetWordList` has still to do. -/
def setterTree : SetterPc → Access (List Val)
  | .start l => .writeList l (.newMap (.readList fun l => inserts l 0 (.leaf (.ok []))))
  | .listed => .newMap (.readList fun l => inserts l 0 (.leaf (.ok [])))
  | .made => .readList fun l => inserts l 0 (.leaf (.ok []))
  | .loop rest i => inserts rest i (.leaf (.ok []))
  | .done => .leaf (.ok [])

theorem map_set_same {α β : Type} (f : α → β) (l : List α) (t : Nat) (x y : α) (hx : l[t]? = some x) (hf : f y = f x) :
    (l.set t y).map f = l.map f := by
  apply List.ext_getElem?
  intro j
  rw [List.map_set, List.getElem?_set, List.getElem?_map]
  split
  · rename_i h
    subst h
    have hlt := (List.getElem?_eq_some_iff.1 hx).1
    have hxt : l[t] = x := (List.getElem?_eq_some_iff.1 hx).2
    simp [hf, hlt, hxt]
  · rfl

theorem setterTree_step (c : Setters) (t : Nat) :
    Calls.step ⟨c.state, c.pcs.map setterTree⟩ t = ⟨(c.step t).state, (c.step t).pcs.map setterTree⟩ := by
  unfold Calls.step Setters.step
  rw [List.getElem?_map]
  rcases h : c.pcs[t]? with _ | p
  · rfl
  · rcases p with l | _ | _ | ⟨rest, i⟩ | _
    · simp [setterTree, List.map_set]
    · simp [setterTree, List.map_set]
    · simp [setterTree, List.map_set]
    · rcases rest with _ | ⟨v, vs⟩
      · simp only [Option.map_some, setterTree, inserts]
        rw [map_set_same setterTree c.pcs t _ .done h rfl]
      · simp [setterTree, inserts, List.map_set]
    · rfl

theorem setterTree_run (schedule : List Nat) : ∀ c : Setters,
    Calls.run ⟨c.state, c.pcs.map setterTree⟩ schedule = ⟨(c.run schedule).state, (c.run schedule).pcs.map setterTree⟩ := by
  induction schedule with
  | nil => intro c; rfl
  | cons t schedule ih =>
    intro c
    have : Calls.run ⟨c.state, c.pcs.map setterTree⟩ (t :: schedule) = Calls.run (Calls.step ⟨c.state, c.pcs.map setterTree⟩ t) schedule := rfl
    rw [this, setterTree_step, ih (c.step t)]
    rfl

theorem setterTree_leaf (p : SetterPc) (r : Res (List Val)) : setterTree p = .leaf r ↔ r = .ok [] ∧ (p = .done ∨ ∃ i, p = .loop [] i) := by
  rcases p with l | _ | _ | ⟨_ | ⟨v, vs⟩, i⟩ | _ <;> simp [setterTree, inserts, eq_comm]

/-- **C120**, writers: any number of calls of the text of `SetWordList` at the same time pass through the states of `WordSetters`, schedule by
schedule; a call has returned when the model says so, or is about to leave its loop. -/
theorem C120_setters (W : World) (L n : Nat) (S : WordState) (args : List (List Bytes)) (schedule : List Nat) :
    ((Calls.begin W L (n + 1) S (args.map setCall)).run schedule).state = ((Setters.begin S args).run schedule).state ∧
    ∀ t : Nat, (∃ r, ((Calls.begin W L (n + 1) S (args.map setCall)).run schedule).calls[t]? = some (.leaf r)) ↔
      ((Setters.begin S args).run schedule).pcs[t]? = some .done ∨ ∃ i, ((Setters.begin S args).run schedule).pcs[t]? = some (.loop [] i) := by
  have hb : Calls.begin W L (n + 1) S (args.map setCall) = ⟨(Setters.begin S args).state, (Setters.begin S args).pcs.map setterTree⟩ := by
    simp only [Calls.begin, Setters.begin, List.map_map, Calls.mk.injEq, true_and]
    apply List.map_congr_left
    intro l _
    exact acc_SetWordList W L n .nil .nil l
  rw [hb, setterTree_run]
  refine ⟨rfl, fun t => ?_⟩
  simp only [List.getElem?_map]
  rcases ((Setters.begin S args).run schedule).pcs[t]? with _ | p
  · simp
  · simp [setterTree_leaf]

/-! ### A reader beside `SetWordList` -/

/-- The computation only reads. -/
def Src.Access.reads {α : Type} : Access α → Prop
  | .leaf _ => True
  | .readList k => ∀ l, (k l).reads
  | .readMap _ k => ∀ r, (k r).reads
  | _ => False

/-- What a computation gives when its reads find these states, one after the other. -/
def Src.Access.play {α : Type} : Access α → List WordState → Option (Res α)
  | .leaf r, _ => some r
  | .readList k, S :: Ss => (k S.list).play Ss
  | .readMap w k, S :: Ss => (k (S.map w)).play Ss
  | _, _ => none

/-- What `SetWordList(list)` has still to do after `u` accesses. -/
def writerTree (list : List Bytes) : Nat → Access (List Val)
  | 0 => .writeList list (.newMap (.readList fun l => inserts l 0 (.leaf (.ok []))))
  | 1 => .newMap (.readList fun l => inserts l 0 (.leaf (.ok [])))
  | 2 => .readList fun l => inserts l 0 (.leaf (.ok []))
  | u + 3 => inserts (list.drop u) u (.leaf (.ok []))

/-- How many of its first `u` accesses change something: the third only reads. -/
def writes (u : Nat) : Nat := if u ≤ 2 then u else u - 1

/-- `SetWordList(list)` after `u` accesses, and a reader. -/
def beside (S : WordState) (list : List Bytes) (u : Nat) (R : Access (List Val)) : Calls := ⟨writerState S list (writes u), [writerTree list u, R]⟩

theorem writerState_insert (S : WordState) (list : List Bytes) (u : Nat) (v : Bytes) (vs : List Bytes) (h : list.drop u = v :: vs) :
    (⟨list, fun x => if x = v then some u else (writerState S list (u + 2)).map x⟩ : WordState) = writerState S list (u + 3) := by
  have hlt : u < list.length := by
    by_contra hc
    rw [List.drop_eq_nil_of_le (by omega)] at h
    cases h
  have hv : list[u]? = some v := by
    have := congrArg List.head? h
    simpa [List.head?_drop] using this
  simp only [writerState, WordState.mk.injEq, true_and]
  rw [List.take_add_one, hv, Option.toList_some, fillWordMap_append]
  simp [fillWordMap, Nat.min_eq_left (le_of_lt hlt)]

theorem beside_writer (S : WordState) (list : List Bytes) (u : Nat) (R : Access (List Val)) :
    (beside S list u R).step 0 = if u < list.length + 3 then beside S list (u + 1) R else beside S list u R := by
  rcases u with _ | _ | _ | u
  · rfl
  · rfl
  · rfl
  · have hw : writes (u + 3) = u + 2 := rfl
    have hw' : writes (u + 3 + 1) = u + 3 := rfl
    by_cases hu : u < list.length
    · rw [if_pos (by omega)]
      obtain ⟨v, vs, hd⟩ : ∃ v vs, list.drop u = v :: vs := by
        cases hd : list.drop u with
        | nil => rw [List.drop_eq_nil_iff] at hd; omega
        | cons v vs => exact ⟨v, vs, rfl⟩
      have hd' : list.drop (u + 1) = vs := by rw [← List.drop_drop, hd]; rfl
      simp only [beside, hw, hw', Calls.step, writerTree, hd, hd', inserts, List.getElem?_cons_zero, List.set_cons_zero]
      rw [← writerState_insert S list u v vs hd]
      rfl
    · rw [if_neg (by omega)]
      simp only [beside, Calls.step, writerTree, List.drop_eq_nil_of_le (not_lt.1 hu), inserts, List.getElem?_cons_zero]

theorem beside_list (S : WordState) (list : List Bytes) (u : Nat) (k : List Bytes → Access (List Val)) :
    (beside S list u (.readList k)).step 1 = beside S list u (k (writerState S list (writes u)).list) := rfl

theorem beside_map (S : WordState) (list : List Bytes) (u : Nat) (w : Bytes) (k : Option Nat → Access (List Val)) :
    (beside S list u (.readMap w k)).step 1 = beside S list u (k ((writerState S list (writes u)).map w)) := rfl

theorem beside_forward (S : WordState) (list : List Bytes) (r : Res (List Val)) (schedule : List Nat) :
    ∀ (u : Nat) (R : Access (List Val)), R.reads → u ≤ list.length + 3 → ((beside S list u R).run schedule).calls[1]? = some (.leaf r) →
      ∃ times : List Nat, times.Pairwise (· ≤ ·) ∧ (∀ t ∈ times, writes u ≤ t ∧ t ≤ writerSteps list) ∧
        R.play (times.map (writerState S list)) = some r := by
  induction schedule with
  | nil =>
    intro u R _ _ h
    have : R = .leaf r := by simpa [beside, Calls.run] using h
    subst this
    exact ⟨[], by simp, by simp, rfl⟩
  | cons t schedule ih =>
    intro u R hR hu h
    have h' : (((beside S list u R).step t).run schedule).calls[1]? = some (.leaf r) := h
    have hbound : writes u ≤ writerSteps list := by unfold writes writerSteps; split <;> omega
    have cons_ok : ∀ times : List Nat, times.Pairwise (· ≤ ·) → (∀ t ∈ times, writes u ≤ t ∧ t ≤ writerSteps list) →
        (writes u :: times).Pairwise (· ≤ ·) ∧ ∀ t ∈ writes u :: times, writes u ≤ t ∧ t ≤ writerSteps list := by
      intro times h1 h2
      refine ⟨List.pairwise_cons.2 ⟨fun t ht => (h2 t ht).1, h1⟩, ?_⟩
      intro t ht
      rcases List.mem_cons.1 ht with rfl | ht
      · exact ⟨le_refl _, hbound⟩
      · exact h2 t ht
    rcases t with _ | _ | t
    · rw [beside_writer] at h'
      split at h'
      · rename_i hlt
        obtain ⟨times, h1, h2, h3⟩ := ih (u + 1) R hR (by omega) h'
        refine ⟨times, h1, fun t ht => ⟨le_trans ?_ (h2 t ht).1, (h2 t ht).2⟩, h3⟩
        unfold writes
        split <;> split <;> omega
      · exact ih u R hR hu h'
    · rcases R with r' | k | ⟨w, k⟩ | _ | _ | _
      · exact ih u _ hR hu h'
      · rw [beside_list] at h'
        obtain ⟨times, h1, h2, h3⟩ := ih u _ (hR _) hu h'
        obtain ⟨h4, h5⟩ := cons_ok times h1 h2
        exact ⟨_, h4, h5, h3⟩
      · rw [beside_map] at h'
        obtain ⟨times, h1, h2, h3⟩ := ih u _ (hR _) hu h'
        obtain ⟨h4, h5⟩ := cons_ok times h1 h2
        exact ⟨_, h4, h5, h3⟩
      · exact absurd hR id
      · exact absurd hR id
      · exact absurd hR id
    · exact ih u R hR hu h'

theorem run_cons (c : Calls) (t : Nat) (schedule : List Nat) : c.run (t :: schedule) = (c.step t).run schedule := rfl

/-- The writer goes on until it has changed something `t` times. -/
theorem beside_reach (S : WordState) (list : List Bytes) (R : Access (List Val)) (t : Nat) (ht : t ≤ writerSteps list) :
    ∀ (k u : Nat), writes u ≤ t → u ≤ list.length + 3 → list.length + 3 - u = k →
      ∃ u' schedule, writes u' = t ∧ u' ≤ list.length + 3 ∧ (beside S list u R).run schedule = beside S list u' R := by
  intro k
  induction k with
  | zero =>
    intro u h1 h2 h3
    refine ⟨u, [], ?_, h2, rfl⟩
    unfold writes at h1 ⊢
    unfold writerSteps at ht
    split at h1 <;> split <;> omega
  | succ k ih =>
    intro u h1 h2 h3
    by_cases he : writes u = t
    · exact ⟨u, [], he, h2, rfl⟩
    · obtain ⟨u', schedule, h4, h5, h6⟩ := ih (u + 1) (by
        unfold writes at h1 he ⊢
        split at h1 <;> split at he <;> split <;> omega) (by omega) (by omega)
      refine ⟨u', 0 :: schedule, h4, h5, ?_⟩
      rw [run_cons, beside_writer, if_pos (by omega)]
      exact h6

theorem run_append' (c : Calls) (a b : List Nat) : c.run (a ++ b) = (c.run a).run b := List.foldl_append

theorem beside_backward (S : WordState) (list : List Bytes) (r : Res (List Val)) (R : Access (List Val)) :
    ∀ (times : List Nat) (u : Nat), R.reads → u ≤ list.length + 3 → times.Pairwise (· ≤ ·) →
      (∀ t ∈ times, writes u ≤ t ∧ t ≤ writerSteps list) → R.play (times.map (writerState S list)) = some r →
      ∃ schedule, ((beside S list u R).run schedule).calls[1]? = some (.leaf r) := by
  induction R with
  | leaf r' =>
    intro times u _ _ _ _ h
    have : r' = r := by cases times <;> simpa [Access.play] using h
    subst this
    exact ⟨[], rfl⟩
  | readList k ih =>
    intro times u hR hu hs hb h
    rcases times with _ | ⟨t, times⟩
    · cases h
    · obtain ⟨u', sch, h1, h2, h3⟩ := beside_reach S list (.readList k) t (hb t (by simp)).2 _ u (hb t (by simp)).1 hu rfl
      obtain ⟨sch', h4⟩ := ih (writerState S list t).list times u' (hR _) h2 (List.pairwise_cons.1 hs).2
        (fun x hx => ⟨h1 ▸ (List.pairwise_cons.1 hs).1 x hx, (hb x (by simp [hx])).2⟩) h
      refine ⟨sch ++ 1 :: sch', ?_⟩
      rw [run_append', h3, run_cons, beside_list, h1]
      exact h4
  | readMap w k ih =>
    intro times u hR hu hs hb h
    rcases times with _ | ⟨t, times⟩
    · cases h
    · obtain ⟨u', sch, h1, h2, h3⟩ := beside_reach S list (.readMap w k) t (hb t (by simp)).2 _ u (hb t (by simp)).1 hu rfl
      obtain ⟨sch', h4⟩ := ih ((writerState S list t).map w) times u' (hR _) h2 (List.pairwise_cons.1 hs).2
        (fun x hx => ⟨h1 ▸ (List.pairwise_cons.1 hs).1 x hx, (hb x (by simp [hx])).2⟩) h
      refine ⟨sch ++ 1 :: sch', ?_⟩
      rw [run_append', h3, run_cons, beside_map, h1]
      exact h4
  | writeList l t _ => intro times u hR; exact absurd hR id
  | newMap t _ => intro times u hR; exact absurd hR id
  | insert w i t _ => intro times u hR; exact absurd hR id

/-- What a reader beside `SetWordList` can give: what its reads give at times one not before the other. -/
theorem beside_iff (W : World) (L n : Nat) (S : WordState) (list : List Bytes) (c : Fn × List Val) (hR : (accRun W L (n + 1) c.1 c.2).reads)
    (r : Res (List Val)) :
    (∃ schedule, ((Calls.begin W L (n + 1) S [setCall list, c]).run schedule).calls[1]? = some (.leaf r)) ↔
      ∃ times : List Nat, times.Pairwise (· ≤ ·) ∧ (∀ t ∈ times, t ≤ writerSteps list) ∧
        (accRun W L (n + 1) c.1 c.2).play (times.map (writerState S list)) = some r := by
  have hb : Calls.begin W L (n + 1) S [setCall list, c] = beside S list 0 (accRun W L (n + 1) c.1 c.2) := by
    have := acc_SetWordList W L n .nil .nil list
    simp only [Calls.begin, List.map_cons, List.map_nil, beside, writerTree, setCall, this]
    rfl
  rw [hb]
  constructor
  · rintro ⟨sch, h⟩
    obtain ⟨times, h1, h2, h3⟩ := beside_forward S list r sch 0 _ hR (by omega) h
    exact ⟨times, h1, fun t ht => (h2 t ht).2, h3⟩
  · rintro ⟨times, h1, h2, h3⟩
    exact beside_backward S list r _ times 0 hR (by omega) h1 (fun t ht => ⟨Nat.zero_le _, h2 t ht⟩) h3

/-- The results of lookups in these maps, up to the first word that is not there. -/
def seenWords : List (Bytes → Option Nat) → List Bytes → List (Option Nat)
  | m :: ms, w :: ws => match m w with
    | none => [none]
    | some x => some x :: seenWords ms ws
  | _, _ => []

theorem lookups_reads (g : List (Option Nat) → Res (List Val)) (ws : List Bytes) : ∀ got, (lookups ws got fun got => .leaf (g got)).reads := by
  induction ws with
  | nil => intro got; trivial
  | cons w ws ih =>
    intro got r
    cases r
    · trivial
    · exact ih _

theorem lookups_play (g : List (Option Nat) → Res (List Val)) (ws : List Bytes) : ∀ (Ss : List WordState) (got : List (Option Nat)),
    Ss.length = ws.length → (lookups ws got fun got => .leaf (g got)).play Ss = some (g (got ++ seenWords (Ss.map (·.map)) ws)) := by
  induction ws with
  | nil =>
    intro Ss got h
    rw [List.length_eq_zero_iff.1 h]
    simp [lookups, Access.play, seenWords]
  | cons w ws ih =>
    intro Ss got h
    rcases Ss with _ | ⟨S, Ss⟩
    · cases h
    · rcases hS : S.map w with _ | x
      · simp [lookups, Access.play, hS, seenWords]
      · simp only [lookups, Access.play, hS, List.map_cons, seenWords]
        rw [ih Ss _ (by simpa using h)]
        simp

theorem lookups_fit (g : List (Option Nat) → Res (List Val)) (r : Res (List Val)) (T : List WordState) (ws : List Bytes) :
    ∀ (Ss : List WordState) (got : List (Option Nat)), (lookups ws got fun got => .leaf (g got)).play Ss = some r →
      (lookups ws got fun got => .leaf (g got)).play ((Ss ++ T).take ws.length) = some r := by
  induction ws with
  | nil => intro Ss got h; cases Ss <;> exact h
  | cons w ws ih =>
    intro Ss got h
    rcases Ss with _ | ⟨S, Ss⟩
    · cases h
    · rcases hS : S.map w with _ | x
      · simpa [lookups, Access.play, hS] using h
      · simp only [lookups, Access.play, hS, List.length_cons, List.cons_append, List.take_succ_cons] at h ⊢
        exact ih Ss _ h

theorem decode_seen (ws : List Bytes) : ∀ (ms : List (Bytes → Option Nat)) (b : Nat), ms.length = ws.length →
    decodeWordsRacing ((seenWords ms ws).map fun x _ => x) ws b = decodeWordsRacing ms ws b := by
  induction ws with
  | nil => intro ms b h; cases ms <;> rfl
  | cons w ws ih =>
    intro ms b h
    rcases ms with _ | ⟨m, ms⟩
    · cases h
    · rcases hm : m w with _ | x
      · simp [seenWords, hm, decodeWordsRacing]
      · simp only [seenWords, hm, List.map_cons, decodeWordsRacing]
        exact ih ms _ (by simpa using h)

theorem entropy_seen (H : Hashes) (ms : List (Bytes → Option Nat)) (s : Bytes) (h : ms.length = (lookedUp s).length) :
    entropyLookups H (seenWords ms (lookedUp s)) s = entropyRacing H ms s := by
  unfold entropyLookups entropyRacing
  unfold lookedUp at h ⊢
  rcases hsp : splitMnemonicWords s with ⟨ws, _ | _⟩
  · rfl
  · rw [hsp] at h
    simp only
    rw [decode_seen ws ms 0 h]

theorem sorted_fit (list : List Bytes) (times : List Nat) (n : Nat) (h1 : times.Pairwise (· ≤ ·)) (h2 : ∀ t ∈ times, t ≤ writerSteps list) :
    Schedule list n ((times ++ List.replicate n (writerSteps list)).take n) := by
  refine ⟨by simp, ?_, ?_⟩
  · refine List.Pairwise.sublist (List.take_sublist _ _) ?_
    rw [List.pairwise_append]
    refine ⟨h1, List.pairwise_replicate.2 (.inr (le_refl _)), ?_⟩
    intro a ha b hb
    rw [List.eq_of_mem_replicate hb]
    exact h2 a ha
  · intro t ht
    rcases List.mem_append.1 (List.mem_of_mem_take ht) with h | h
    · exact h2 t h
    · rw [List.eq_of_mem_replicate h]

/-- What a call that looks words up gives beside `SetWordList(list)`: what it gives at times one not before the other, one for each word. -/
theorem beside_lookup (W : World) (L n : Nat) (S : WordState) (list : List Bytes) (q : Lookup) (r : Res (List Val)) :
    (∃ schedule, ((Calls.begin W L (n + 3) S [setCall list, q.call]).run schedule).calls[1]? = some (.leaf r)) ↔
      ∃ times, Schedule list q.words.length times ∧ r = q.result W.H (seenWords (times.map fun t => (writerState S list t).map) q.words) := by
  have hq := acc_lookup W L n q
  rw [beside_iff W L (n + 2) S list q.call (by rw [hq]; exact lookups_reads _ _ _), hq]
  constructor
  · rintro ⟨times, h1, h2, h3⟩
    have hs := sorted_fit list times q.words.length h1 h2
    refine ⟨_, hs, ?_⟩
    have := lookups_fit _ r ((List.replicate q.words.length (writerSteps list)).map (writerState S list)) q.words _ _ h3
    rw [← List.map_append, ← List.map_take] at this
    rw [lookups_play _ _ _ _ (by rw [List.length_map]; exact hs.1)] at this
    simpa [List.map_map, Function.comp_def] using this.symm
  · rintro ⟨times, hs, rfl⟩
    refine ⟨times, hs.2.1, hs.2.2, ?_⟩
    rw [lookups_play _ _ _ _ (by rw [List.length_map]; exact hs.1)]
    simp [List.map_map, Function.comp_def]

/-- **C120**, `EntropyFromMnemonic`: beside the text of `SetWordList(list)`, its text gives exactly the results of the model under the schedules. -/
theorem C120_entropy (W : World) (L n : Nat) (S : WordState) (list : List Bytes) (s : Bytes) (r : Res (List Val)) :
    (∃ schedule, ((Calls.begin W L (n + 3) S [setCall list, (.bip39_EntropyFromMnemonic, [.str s])]).run schedule).calls[1]? = some (.leaf r)) ↔
      ∃ times, Schedule list (lookedUp s).length times ∧ r = outcome (both .bytes) (entropyScheduled W.H S list times s) := by
  refine (beside_lookup W L n S list (.entropy s) r).trans ?_
  constructor
  · rintro ⟨times, hs, h⟩
    refine ⟨times, hs, h.trans ?_⟩
    simp only [Lookup.result, Lookup.words, entropyScheduled]
    rw [entropy_seen _ _ _ (by rw [List.length_map]; exact hs.1)]
  · rintro ⟨times, hs, h⟩
    refine ⟨times, hs, h.trans ?_⟩
    simp only [Lookup.result, Lookup.words, entropyScheduled]
    rw [entropy_seen _ _ _ (by rw [List.length_map]; exact hs.1)]

/-- The lists taken, up to the first that is too short. -/
def seenLists : List (List Bytes) → Nat → Nat → List (List Bytes)
  | l :: ls, n + 1, d => match l[setBytes (padByteSlice (bigBytes (d &&& 2047)) 2)]? with
    | none => [l]
    | some _ => l :: seenLists ls n (d / 2048)
  | _, _, _ => []

theorem picks_reads (g : List (List Bytes) → Res (List Val)) (n : Nat) : ∀ d got, (picks n d got fun got => .leaf (g got)).reads := by
  induction n with
  | zero => intro d got; trivial
  | succ n ih =>
    intro d got l
    dsimp only
    split
    · trivial
    · exact ih _ _

theorem picks_play (g : List (List Bytes) → Res (List Val)) (n : Nat) : ∀ (d : Nat) (Ss : List WordState) (got : List (List Bytes)),
    Ss.length = n → (picks n d got fun got => .leaf (g got)).play Ss = some (g (got ++ seenLists (Ss.map (·.list)) n d)) := by
  induction n with
  | zero =>
    intro d Ss got h
    rw [List.length_eq_zero_iff.1 h]
    simp [picks, Access.play, seenLists]
  | succ n ih =>
    intro d Ss got h
    rcases Ss with _ | ⟨S, Ss⟩
    · cases h
    · rcases hS : S.list[setBytes (padByteSlice (bigBytes (d &&& 2047)) 2)]? with _ | x
      · simp [picks, Access.play, hS, seenLists]
      · simp only [picks, Access.play, hS, List.map_cons, seenLists]
        rw [ih _ Ss _ (by simpa using h)]
        simp

theorem picks_fit (g : List (List Bytes) → Res (List Val)) (r : Res (List Val)) (T : List WordState) (n : Nat) :
    ∀ (d : Nat) (Ss : List WordState) (got : List (List Bytes)), (picks n d got fun got => .leaf (g got)).play Ss = some r →
      (picks n d got fun got => .leaf (g got)).play ((Ss ++ T).take n) = some r := by
  induction n with
  | zero => intro d Ss got h; cases Ss <;> exact h
  | succ n ih =>
    intro d Ss got h
    rcases Ss with _ | ⟨S, Ss⟩
    · cases h
    · rcases hS : S.list[setBytes (padByteSlice (bigBytes (d &&& 2047)) 2)]? with _ | x
      · simpa [picks, Access.play, hS] using h
      · simp only [picks, Access.play, hS, List.cons_append, List.take_succ_cons] at h ⊢
        exact ih _ Ss _ h

theorem encode_seen (n : Nat) : ∀ (ls : List (List Bytes)) (d : Nat) (acc : List Bytes), ls.length = n →
    encodeWordsRacing (seenLists ls n d) n d acc = encodeWordsRacing ls n d acc := by
  induction n with
  | zero => intro ls d acc h; rw [List.length_eq_zero_iff.1 h]; rfl
  | succ n ih =>
    intro ls d acc h
    rcases ls with _ | ⟨l, ls⟩
    · cases h
    · rcases hl : l[setBytes (padByteSlice (bigBytes (d &&& 2047)) 2)]? with _ | x
      · simp [seenLists, hl, encodeWordsRacing]
      · simp only [seenLists, hl, encodeWordsRacing]
        exact ih ls _ _ (by simpa using h)

theorem mnemonic_seen (H : Hashes) (ls : List (List Bytes)) (e : Bytes) (h : ls.length = sentenceOf e) :
    newMnemonicRacing H (seenLists ls (sentenceOf e) (setBytes (addChecksum H e))) e = newMnemonicRacing H ls e := by
  unfold newMnemonicRacing
  unfold sentenceOf at h ⊢
  dsimp only
  rcases hv : validateEntropyBitSize ((e.length * 8 : Nat) : Int) with _ | x
  · rw [hv] at h
    simp only
    rw [encode_seen _ _ _ _ h]
  · rfl

/-- **C120**, `NewMnemonic`: beside the text of `SetWordList(list)`, its text gives exactly the results of the model under the schedules. -/
theorem C120_mnemonic (W : World) (L n : Nat) (hL : 32 < L) (S : WordState) (list : List Bytes) (e : Bytes) (he : e.length < 2 ^ 59)
    (r : Res (List Val)) :
    (∃ schedule, ((Calls.begin W L (n + 3) S [setCall list, (.bip39_NewMnemonic, [.bytes e])]).run schedule).calls[1]? = some (.leaf r)) ↔
      ∃ times, Schedule list (sentenceOf e) times ∧ r = outcome (both .str) (newMnemonicScheduled W.H S list times e) := by
  have hq := acc_NewMnemonic W L hL n e he
  rw [beside_iff W L (n + 2) S list (.bip39_NewMnemonic, [.bytes e]) (by rw [hq]; exact picks_reads _ _ _ _), hq]
  constructor
  · rintro ⟨times, h1, h2, h3⟩
    have hs := sorted_fit list times (sentenceOf e) h1 h2
    refine ⟨_, hs, ?_⟩
    have := picks_fit _ r ((List.replicate (sentenceOf e) (writerSteps list)).map (writerState S list)) (sentenceOf e) _ _ _ h3
    rw [← List.map_append, ← List.map_take, picks_play _ _ _ _ _ (by rw [List.length_map]; exact hs.1), List.nil_append,
      mnemonic_seen _ _ _ (by rw [List.length_map, List.length_map]; exact hs.1)] at this
    simpa [List.map_map, Function.comp_def, newMnemonicScheduled] using this.symm
  · rintro ⟨times, hs, rfl⟩
    refine ⟨times, hs.2.1, hs.2.2, ?_⟩
    rw [picks_play _ _ _ _ _ (by rw [List.length_map]; exact hs.1), List.nil_append,
      mnemonic_seen _ _ _ (by rw [List.length_map, List.length_map]; exact hs.1)]
    simp [List.map_map, Function.comp_def, newMnemonicScheduled]

/-- **C120**, one access: beside the text of `SetWordList(list)`, the texts of `GetWordList` and `GetWordIndex` give what the variables hold after
some of its steps, and any of that. -/
theorem C120_once (W : World) (L n : Nat) (S : WordState) (list : List Bytes) (r : Res (List Val)) :
    ((∃ schedule, ((Calls.begin W L (n + 1) S [setCall list, (.bip39_GetWordList, [])]).run schedule).calls[1]? = some (.leaf r)) ↔
      ∃ t ≤ writerSteps list, r = .ok [.list ((getWordList (writerState S list t)).map .str)]) ∧
    ∀ w, ((∃ schedule, ((Calls.begin W L (n + 1) S [setCall list, (.bip39_GetWordIndex, [.str w])]).run schedule).calls[1]? = some (.leaf r)) ↔
      ∃ t ≤ writerSteps list, r = .ok [.int (getWordIndex (writerState S list t) w).1, .bool (getWordIndex (writerState S list t) w).2]) := by
  refine ⟨?_, fun w => ?_⟩
  · have hq := acc_GetWordList W L n
    rw [beside_iff W L n S list (.bip39_GetWordList, []) (by rw [hq]; intro l; trivial), hq]
    constructor
    · rintro ⟨times, -, h2, h3⟩
      rcases times with _ | ⟨t, times⟩
      · cases h3
      · exact ⟨t, h2 t (by simp), by simpa [Access.play, getWordList] using h3.symm⟩
    · rintro ⟨t, ht, rfl⟩
      exact ⟨[t], by simp, by simpa using ht, by simp [Access.play, getWordList]⟩
  · have hq := acc_GetWordIndex W L n w
    have hi : ∀ t, (Res.ok [Val.int ((((writerState S list t).map w).getD 0 : Nat) : Int), .bool ((writerState S list t).map w).isSome] : Res (List Val)) =
        .ok [.int (getWordIndex (writerState S list t) w).1, .bool (getWordIndex (writerState S list t) w).2] := by
      intro t
      unfold getWordIndex
      cases (writerState S list t).map w <;> rfl
    rw [beside_iff W L n S list (.bip39_GetWordIndex, [.str w]) (by rw [hq]; intro l; trivial), hq]
    constructor
    · rintro ⟨times, -, h2, h3⟩
      rcases times with _ | ⟨t, times⟩
      · cases h3
      · exact ⟨t, h2 t (by simp), by rw [← hi]; simpa [Access.play] using h3.symm⟩
    · rintro ⟨t, ht, rfl⟩
      exact ⟨[t], by simp, by simpa using ht, by rw [← hi]; simp [Access.play]⟩

/-! ### The map in the runtime -/

/-- What a call has still to do, within an access or between two: the first part are calls of `SetWordList`, the second readers with the continuation
`K`. -/
def microTree (K : List (Option Nat) → Access (List Val)) : MapPc → Micro
  | .start l => .at (.writeList l (.newMap (.readList fun l => inserts l 0 (.leaf (.ok [])))))
  | .listed => .at (.newMap (.readList fun l => inserts l 0 (.leaf (.ok []))))
  | .made => .at (.readList fun l => inserts l 0 (.leaf (.ok [])))
  | .loop rest i => .at (inserts rest i (.leaf (.ok [])))
  | .loaded v vs i m => .loaded v i m (inserts vs (i + 1) (.leaf (.ok [])))
  | .entered v vs i m => .entered v i m (inserts vs (i + 1) (.leaf (.ok [])))
  | .marked v vs i m => .marked v i m (inserts vs (i + 1) (.leaf (.ok [])))
  | .assigned v vs i m => .assigned v i m (inserts vs (i + 1) (.leaf (.ok [])))
  | .placed v vs i m => .placed v i m (inserts vs (i + 1) (.leaf (.ok [])))
  | .done => .at (.leaf (.ok []))
  | .reads ws got => .at (lookups ws got K)
  | .reading w ws got m => .reading w m fun r => match r with
    | none => K (got ++ [none])
    | some x => lookups ws (got ++ [some x]) K

/-- The run of the text that belongs to a run of the model; `g t` gives the result of call number `t` after its lookups. -/
def microRun (g : Nat → List (Option Nat) → Res (List Val)) (c : MapRun) : MapCalls :=
  ⟨c.list, c.maps, c.next, c.cur, c.pcs.mapIdx fun t p => microTree (fun got => .leaf (g t got)) p, c.fatal⟩

theorem microRun_goto (g : Nat → List (Option Nat) → Res (List Val)) (c : MapRun) (t : Nat) (p : MapPc) :
    microRun g (c.goto t p) = (microRun g c).goto t (microTree (fun got => .leaf (g t got)) p) := by
  simp [microRun, MapRun.goto, MapCalls.goto, List.mapIdx_set]

theorem microRun_put (g : Nat → List (Option Nat) → Res (List Val)) (c : MapRun) (m : Nat) (x : GoMap) :
    microRun g (c.put m x) = (microRun g c).put m x := rfl

theorem goto_same (c : MapCalls) (t : Nat) (x : Micro) (h : c.calls[t]? = some x) : c.goto t x = c := by
  have : c.calls.set t x = c.calls := by
    apply List.ext_getElem?
    intro j
    rw [List.getElem?_set]
    split
    · rename_i e
      subst e
      rw [if_pos (List.getElem?_eq_some_iff.1 h).1, h]
    · rfl
  simp [MapCalls.goto, this]

theorem microRun_step (g : Nat → List (Option Nat) → Res (List Val)) (c : MapRun) (t : Nat) :
    (microRun g c).step t = microRun g (c.step t) := by
  have hat : (microRun g c).calls[t]? = (c.pcs[t]?).map (microTree fun got => .leaf (g t got)) := by simp [microRun]
  unfold MapCalls.step MapRun.step
  have hf : (microRun g c).fatal = c.fatal := rfl
  rw [hf]
  split
  · rfl
  rw [hat]
  rcases h : c.pcs[t]? with _ | p
  · rfl
  · rw [h] at hat
    rcases p with l | _ | _ | ⟨_ | ⟨v, vs⟩, i⟩ | ⟨v, vs, i, m⟩ | ⟨v, vs, i, m⟩ | ⟨v, vs, i, m⟩ | ⟨v, vs, i, m⟩ | ⟨v, vs, i, m⟩ | _ | ⟨_ | ⟨w, ws⟩, got⟩ |
      ⟨w, ws, got, m⟩
    · simp only [Option.map_some, microTree, microRun_goto]; rfl
    · simp only [Option.map_some, microTree, microRun_goto]; rfl
    · simp only [Option.map_some, microTree, microRun_goto]; rfl
    · simp only [Option.map_some, microTree, microRun_goto, inserts]
      exact (goto_same _ _ _ hat).symm
    · simp only [Option.map_some, microTree, microRun_goto, inserts]; rfl
    · simp only [Option.map_some, microTree]
      split
      · rw [if_pos (by assumption)]; rfl
      · rw [if_neg (by assumption), microRun_goto]; rfl
    · simp only [Option.map_some, microTree, microRun_goto]; rfl
    · simp only [Option.map_some, microTree, microRun_goto]; rfl
    · simp only [Option.map_some, microTree]
      split
      · rw [if_pos (by assumption), microRun_goto]; rfl
      · rw [if_neg (by assumption)]; rfl
    · simp only [Option.map_some, microTree, microRun_goto]; rfl
    · rfl
    · rfl
    · simp only [Option.map_some, microTree, microRun_goto, lookups]; rfl
    · simp only [Option.map_some, microTree]
      split
      · rw [if_pos (by assumption)]; rfl
      · rw [if_neg (by assumption)]
        have hc : ((microRun g c).maps m).content w = (c.maps m).content w := rfl
        rw [hc]
        rcases (c.maps m).content w with _ | x
        · simp only [microRun_goto, microTree, lookups]
        · simp only [microRun_goto, microTree]

theorem microRun_run (g : Nat → List (Option Nat) → Res (List Val)) (schedule : List Nat) : ∀ c : MapRun,
    (microRun g c).run schedule = microRun g (c.run schedule) := by
  induction schedule with
  | nil => intro c; rfl
  | cons t schedule ih =>
    intro c
    have : (microRun g c).run (t :: schedule) = ((microRun g c).step t).run schedule := rfl
    rw [this, microRun_step, ih]
    rfl

/-- Calls of the text of `SetWordList`, followed by calls that look words up. -/
def textRun (W : World) (L n : Nat) (S : WordState) (m : Nat) (args : List (List Bytes)) (readers : List Lookup) : MapCalls :=
  MapCalls.begin W L n S m (args.map setCall ++ readers.map Lookup.call)

/-- **C120**, in the runtime: any number of calls of the texts of `SetWordList`, `GetWordIndex`, `EntropyFromMnemonic` and `IsMnemonicValid` at the same
time go through the states of `MapFatal`, schedule by schedule: the list, the maps, which one is `wordMap`, and whether the program has ended; a reader
has returned when it has in the model, with what its text makes of the lookups. -/
theorem C120_runtime (W : World) (L n : Nat) (S : WordState) (m : Nat) (args : List (List Bytes)) (readers : List Lookup) (schedule : List Nat) :
    ((textRun W L (n + 3) S m args readers).run schedule).list = ((MapRun.begin S m args (readers.map Lookup.words)).run schedule).list ∧
    ((textRun W L (n + 3) S m args readers).run schedule).maps = ((MapRun.begin S m args (readers.map Lookup.words)).run schedule).maps ∧
    ((textRun W L (n + 3) S m args readers).run schedule).cur = ((MapRun.begin S m args (readers.map Lookup.words)).run schedule).cur ∧
    ((textRun W L (n + 3) S m args readers).run schedule).fatal = ((MapRun.begin S m args (readers.map Lookup.words)).run schedule).fatal ∧
    ∀ (j : Nat) (q : Lookup) (got : List (Option Nat)), readers[j]? = some q →
      ((MapRun.begin S m args (readers.map Lookup.words)).run schedule).pcs[args.length + j]? = some (.reads [] got) →
      ((textRun W L (n + 3) S m args readers).run schedule).calls[args.length + j]? = some (.at (.leaf (q.result W.H got))) := by
  let g : Nat → List (Option Nat) → Res (List Val) := fun t got => match readers[t - args.length]? with
    | some q => q.result W.H got
    | none => .stuck
  have hb : textRun W L (n + 3) S m args readers = microRun g (MapRun.begin S m args (readers.map Lookup.words)) := by
    simp only [textRun, MapCalls.begin, microRun, MapRun.begin, MapCalls.mk.injEq, true_and, and_true]
    apply List.ext_getElem?
    intro t
    rw [List.getElem?_map, List.getElem?_mapIdx]
    by_cases ht : t < args.length
    · rw [List.getElem?_append_left (by simpa using ht), List.getElem?_append_left (by simpa using ht), List.getElem?_map, List.getElem?_map,
        List.getElem?_eq_getElem ht]
      simp only [Option.map_some, setCall, microTree, acc_SetWordList]
    · rw [List.getElem?_append_right (by simpa using ht), List.getElem?_append_right (by simpa using ht), List.getElem?_map, List.length_map,
        List.length_map, List.map_map, List.getElem?_map]
      rcases hq : readers[t - args.length]? with _ | q
      · rfl
      · simp only [Option.map_some, Function.comp_apply, microTree, acc_lookup, g, hq]
  rw [hb, microRun_run]
  refine ⟨rfl, rfl, rfl, rfl, ?_⟩
  intro j q got hj hp
  simp only [microRun, List.getElem?_mapIdx, hp, Option.map_some, microTree, lookups, g, Nat.add_sub_cancel_left, hj]

/-- **C120**, the fatal error: the text can end the program exactly if some call of `SetWordList` has words to insert, and another such call or a
reader that looks something up runs at the same time. -/
theorem C120_fatal_iff (W : World) (L n : Nat) (S : WordState) (m : Nat) (args : List (List Bytes)) (readers : List Lookup) :
    (∃ schedule, ((textRun W L (n + 3) S m args readers).run schedule).fatal = true) ↔
      (∃ l ∈ args, l ≠ []) ∧ (2 ≤ args.length ∨ ∃ q ∈ readers, q.words ≠ []) := by
  have := C101_fatal_iff S m args (readers.map Lookup.words)
  simp only [List.mem_map, exists_exists_and_eq_and] at this
  rw [← this]
  constructor
  · rintro ⟨schedule, h⟩
    exact ⟨schedule, (C120_runtime W L n S m args readers schedule).2.2.2.1 ▸ h⟩
  · rintro ⟨schedule, h⟩
    exact ⟨schedule, (C120_runtime W L n S m args readers schedule).2.2.2.1 ▸ h⟩

/-! ### One call -/

/-- **C120**, alone: a call of any translated function other than `SetWordList` and `init` of package bip39, whose accesses find the variables as they are,
gives what `run` gives, and leaves them as they are. -/
theorem C120_alone (W : World) (L n : Nat) (f : Fn) (vs : List Val) (hf : f ≠ .bip39_SetWordList) (hi : f ≠ .bip39_init) :
    (accRun W L n f vs).alone W.S = (run W L n f vs, W.S) := by
  apply accRun_alone
  unfold reader
  split <;> simp_all

theorem inserts_alone (ws : List Bytes) : ∀ (i : Nat) (S : WordState),
    (inserts ws i (.leaf (.ok [])) : Access (List Val)).alone S = (.ok [], ⟨S.list, fillWordMap ws i S.map⟩) := by
  induction ws with
  | nil => intro i S; rfl
  | cons w ws ih => intro i S; exact ih (i + 1) _

/-- **C120**, alone: a call of the text of `SetWordList` leaves what the model says. -/
theorem C120_alone_set (W : World) (L n : Nat) (S : WordState) (list : List Bytes) :
    (accRun W L (n + 1) (setCall list).1 (setCall list).2).alone S = (.ok [], setWordListFrom S list) := by
  have h := acc_SetWordList W L n .nil .nil list
  simp only [setCall, h, Access.alone, inserts_alone]
  rfl

/-- **C120**, torn reads in the text: while the list in force is set once more, the text of `EntropyFromMnemonic` can reject every sentence it accepts before
and after, for a word of the list. -/
theorem C120_torn (W : World) (L n : Nat) (l : List Bytes) (hg : GoodList l) (s e : Bytes) (h : entropyFromMnemonic W.H (setWordList l) s = .ok (e, none)) :
    ∃ schedule, ∃ w ∈ l, ((Calls.begin W L (n + 3) (setWordList l) [setCall l, (.bip39_EntropyFromMnemonic, [.str s])]).run schedule).calls[1]? =
      some (.leaf (.ok [.bytes [], .err (some (.unknownWord w))])) := by
  have hlook : lookedUp s = fields s := by
    unfold entropyFromMnemonic at h
    rcases hsp : splitMnemonicWords s with ⟨ws, _ | _⟩
    · simp [hsp] at h
    · have hl : lookedUp s = ws := by simp [lookedUp, hsp]
      rw [hl]
      unfold splitMnemonicWords at hsp
      dsimp only at hsp
      split at hsp
      · simp at hsp
      · exact (Prod.mk.inj hsp).1.symm
  obtain ⟨times, w, hs, hw, hr⟩ := C13_torn W.H l hg s e h
  obtain ⟨schedule, hx⟩ := (C120_entropy W L n (setWordList l) l s _).2 ⟨times, by rw [hlook]; exact hs, rfl⟩
  refine ⟨schedule, w, hw, ?_⟩
  rw [hx, hr]
  rfl

/-! ### Cases -/

/-- Two calls of the text of `SetWordList`, the second beginning before the first has inserted its word: the list is that of the second, and two words
have the index 0. -/
example (W : World) (L n : Nat) (S : WordState) :
    let c := (Calls.begin W L (n + 1) S ([[str "a"], [str "b"]].map setCall)).run [0, 0, 0, 1, 1, 0, 1, 1]
    c.state.list = [str "b"] ∧ c.state.map (str "a") = some 0 ∧ c.state.map (str "b") = some 0 ∧
      (∃ r, c.calls[0]? = some (.leaf r)) ∧ ∃ r, c.calls[1]? = some (.leaf r) := by
  intro c
  obtain ⟨h1, h2⟩ := C120_setters W L n S [[str "a"], [str "b"]] [0, 0, 0, 1, 1, 0, 1, 1]
  have hs : c.state = ((Setters.begin S [[str "a"], [str "b"]]).run [0, 0, 0, 1, 1, 0, 1, 1]).state := h1
  rw [hs]
  have hp : ∀ t < 2, ((Setters.begin S [[str "a"], [str "b"]]).run [0, 0, 0, 1, 1, 0, 1, 1]).pcs[t]? = some (.loop [] 1) := by
    intro t ht
    interval_cases t <;> simp [Setters.begin, Setters.run, Setters.step]
  have h3 := (h2 0).2 (.inr ⟨1, hp 0 (by norm_num)⟩)
  have h4 := (h2 1).2 (.inr ⟨1, hp 1 (by norm_num)⟩)
  exact ⟨rfl, rfl, by simp [Setters.begin, Setters.run, Setters.step], h3, h4⟩

/-- The text of `GetWordIndex` beside that of `SetWordList`: a word of both lists is not found, between the second and the third step. -/
example (W : World) (L : Nat) :
    ∃ schedule, ((Calls.begin W L 1 (setWordList [str "a", str "b"]) [setCall [str "b"], (.bip39_GetWordIndex, [.str (str "b")])]).run schedule).calls[1]? =
      some (.leaf (.ok [.int 0, .bool false])) :=
  ((C120_once W L 0 _ _ _).2 (str "b")).2 ⟨2, by decide, rfl⟩

/-- The same calls can end the program. -/
example (W : World) (L : Nat) (S : WordState) :
    ∃ schedule, ((textRun W L 3 S 2 [[str "b"]] [.index (str "b")]).run schedule).fatal = true :=
  (C120_fatal_iff W L 0 S 2 _ _).2 ⟨⟨_, List.mem_singleton.2 rfl, by simp⟩, .inr ⟨_, List.mem_singleton.2 rfl, by simp [Lookup.words]⟩⟩

/-- `NewMnemonic` of 16 bytes reads the list twelve times. -/
example : sentenceOf (List.replicate 16 0) = 12 := by decide

end Bips
