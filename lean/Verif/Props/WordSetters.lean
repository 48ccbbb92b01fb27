import Verif.Model.WordSetters
import Verif.Props.CustomList

/-!
# C83: calls of `SetWordList` running concurrently
-/

namespace Bips
open Spec

/-! ### Decoding with any map -/

theorem entropy_congr (H : Hashes) (S S' : WordState) (s s' : Bytes) (hl : (fields s).length = (fields s').length)
    (hd : decodeWords S.map (fields s) 0 = decodeWords S'.map (fields s') 0) :
    entropyFromMnemonic H S s = entropyFromMnemonic H S' s' := by
  rw [entropyFromMnemonic, entropyFromMnemonic, splitMnemonicWords_eq, splitMnemonicWords_eq, hl]
  by_cases h : (fields s').length ∈ sentenceLengths
  · rw [if_pos h, if_pos h]
    dsimp only
    rw [hd, hl]
  · rw [if_neg h, if_neg h]

theorem decodeWords_congr {m m' : Bytes → Option Nat} (ws us : List Bytes) (idx : List Nat) (b : Nat)
    (h : ws.map m = idx.map some) (h' : us.map m' = idx.map some) : decodeWords m ws b = decodeWords m' us b := by
  induction idx generalizing ws us b with
  | nil =>
    have h1 : ws = [] := by simpa using h
    have h2 : us = [] := by simpa using h'
    rw [h1, h2]; rfl
  | cons i idx ih =>
    cases ws with
    | nil => simp at h
    | cons w ws => cases us with
      | nil => simp at h'
      | cons u us =>
        simp only [List.map_cons, List.cons.injEq] at h h'
        rw [decodeWords, decodeWords, h.1, h'.1]
        exact ih ws us _ h.2 h'.2

theorem map_of_idx {l : List Bytes} (hg : GoodList l) (us : List Bytes) (idx : List Nat)
    (h : us.map some = idx.map (l[·]?)) : us.map (setWordList l).map = idx.map some := by
  induction idx generalizing us with
  | nil =>
    have : us = [] := by simpa using h
    rw [this]; rfl
  | cons i idx ih =>
    cases us with
    | nil => simp at h
    | cons u us =>
      simp only [List.map_cons, List.cons.injEq] at h ⊢
      exact ⟨(setWordList_map_nodup hg.nodup u i).2 h.1.symm, ih us h.2⟩

/-- If every word has an index below 2048, a text is accepted exactly for the entropy with these indices. -/
theorem entropy_decoded (H : Hashes) {l : List Bytes} (hg : GoodList l) (S : WordState) (s e : Bytes) (idx : List Nat)
    (h1 : ∀ i ∈ idx, i < 2048) (h2 : (fields s).map S.map = idx.map some) (he : e.length ∈ entropySizes) :
    entropyFromMnemonic H S s = .ok (e, none) ↔ idx.flatMap (bitsN 11) = mnemonicBits H.sha256 e := by
  set us := idx.map fun i => (l[i]?).getD [] with hus
  have hget : us.map some = idx.map (l[·]?) := by
    rw [hus, List.map_map]
    refine List.map_congr_left fun i hi => ?_
    have := h1 i hi
    rw [Function.comp, List.getElem?_eq_getElem (by rw [hg.length]; exact this)]
    rfl
  have hmem := words_of_idx hget
  have hw : ∀ u ∈ us, IsWord u := fun u hu => hg.word u (hmem u hu)
  have hf := fields_join us hw
  have hmap := map_of_idx hg us idx hget
  have hlen : (fields s).length = (fields ([32].intercalate us)).length := by
    rw [hf, hus, List.length_map]
    simpa using congrArg List.length h2
  rw [entropy_congr H S (setWordList l) s ([32].intercalate us) hlen
    (decodeWords_congr _ _ idx 0 h2 (by rw [hf]; exact hmap)), entropy_iff H hg]
  constructor
  · rintro ⟨us', l1, -, idx', i1, i2, i3⟩
    have : us' = us := by rw [← fields_layout l1, hf]
    subst this
    have : idx' = idx := by
      have := (map_of_idx hg us idx' i2).symm.trans hmap
      exact List.map_injective_iff.2 (Option.some_injective _) this
    rw [← this]; exact i3
  · intro h
    exact ⟨us, layout_intercalate (c := 0x20) (by decide) _ hw, he, idx, h1, hget, h⟩

/-! ### Executions -/

namespace Setters

theorem run_cons (c : Setters) (t : Nat) (ts : List Nat) : c.run (t :: ts) = (c.step t).run ts := rfl

theorem run_append (c : Setters) (ts us : List Nat) : c.run (ts ++ us) = (c.run ts).run us := List.foldl_append

/-- What a property of configurations needs to hold at the end. -/
theorem run_induct {P : Setters → Prop} (hs : ∀ c t, P c → P (c.step t)) (c : Setters) (h : P c) (ts : List Nat) :
    P (c.run ts) := by
  induction ts generalizing c with
  | nil => exact h
  | cons t ts ih => exact ih _ (hs c t h)

theorem step_length (c : Setters) (t : Nat) : (c.step t).pcs.length = c.pcs.length := by
  unfold step
  split <;> simp

theorem run_length (c : Setters) (ts : List Nat) : (c.run ts).pcs.length = c.pcs.length :=
  run_induct (P := fun d => d.pcs.length = c.pcs.length) (fun d t h => (step_length d t).trans h) c rfl ts

/-- Some call will still fill the map, or the map has every word of the list, or a call is about to insert those it
does not have. -/
def Covered (c : Setters) : Prop :=
  (∃ l, .start l ∈ c.pcs) ∨ .listed ∈ c.pcs ∨ .made ∈ c.pcs ∨ (∀ w ∈ c.state.list, c.state.map w ≠ none) ∨
  ∃ vs i, .loop vs i ∈ c.pcs ∧ ∀ w ∈ c.state.list, w ∈ vs ∨ c.state.map w ≠ none

theorem mem_set_of_ne {α : Type} {l : List α} {t : Nat} {a b x : α} (ht : l[t]? = some a) (hx : x ∈ l) (h : x ≠ a) :
    x ∈ l.set t b := by
  obtain ⟨i, hi⟩ := List.getElem?_of_mem hx
  have hne : t ≠ i := by rintro rfl; rw [ht] at hi; exact h (Option.some.inj hi).symm
  exact List.mem_of_getElem? (by rw [List.getElem?_set_ne hne]; exact hi)

theorem mem_set_self {α : Type} {l : List α} {t : Nat} {a b : α} (ht : l[t]? = some a) : b ∈ l.set t b := by
  have := (List.getElem?_eq_some_iff.1 ht).1
  exact List.mem_of_getElem? (i := t) (by rw [List.getElem?_set_self this])

theorem covered_step (c : Setters) (t : Nat) (h : c.Covered) : (c.step t).Covered := by
  unfold step
  split
  · exact h
  · rename_i l ht
    exact Or.inr (Or.inl (mem_set_self ht))
  · rename_i ht
    exact Or.inr (Or.inr (Or.inl (mem_set_self ht)))
  · rename_i ht
    exact Or.inr (Or.inr (Or.inr (Or.inr ⟨_, _, mem_set_self ht, fun w hw => Or.inl hw⟩)))
  · rename_i i ht
    rcases h with ⟨l, h⟩ | h | h | h | ⟨vs, j, h, hw⟩
    · exact Or.inl ⟨l, mem_set_of_ne ht h (by simp)⟩
    · exact Or.inr (Or.inl (mem_set_of_ne ht h (by simp)))
    · exact Or.inr (Or.inr (Or.inl (mem_set_of_ne ht h (by simp))))
    · exact Or.inr (Or.inr (Or.inr (Or.inl h)))
    · by_cases he : SetterPc.loop vs j = .loop [] i
      · refine Or.inr (Or.inr (Or.inr (Or.inl fun w hm => ?_)))
        have h0 : vs = [] := by injection he
        rcases hw w hm with h' | h'
        · rw [h0] at h'; simp at h'
        · exact h'
      · exact Or.inr (Or.inr (Or.inr (Or.inr ⟨vs, j, mem_set_of_ne ht h he, hw⟩)))
  · rename_i v vs i ht
    have grow : ∀ w, c.state.map w ≠ none → (if w = v then some i else c.state.map w) ≠ none := by
      intro w h
      split
      · simp
      · exact h
    rcases h with ⟨l, h⟩ | h | h | h | ⟨us, j, h, hw⟩
    · exact Or.inl ⟨l, mem_set_of_ne ht h (by simp)⟩
    · exact Or.inr (Or.inl (mem_set_of_ne ht h (by simp)))
    · exact Or.inr (Or.inr (Or.inl (mem_set_of_ne ht h (by simp))))
    · exact Or.inr (Or.inr (Or.inr (Or.inl fun w hm => grow w (h w hm))))
    · by_cases he : SetterPc.loop us j = .loop (v :: vs) i
      · have h0 : us = v :: vs := by injection he
        refine Or.inr (Or.inr (Or.inr (Or.inr ⟨vs, i + 1, mem_set_self ht, fun w hm => ?_⟩)))
        dsimp only at hm ⊢
        rcases hw w hm with h' | h'
        · rw [h0] at h'
          rcases List.mem_cons.1 h' with rfl | h'
          · right; rw [if_pos rfl]; simp
          · exact Or.inl h'
        · exact Or.inr (grow w h')
      · refine Or.inr (Or.inr (Or.inr (Or.inr ⟨us, j, mem_set_of_ne ht h he, fun w hm => ?_⟩)))
        rcases hw w hm with h' | h'
        · exact Or.inl h'
        · exact Or.inr (grow w h')
  · exact h

/-- Where lists and indices come from. -/
def From (args : List (List Bytes)) (c : Setters) : Prop :=
  (∀ l, .start l ∈ c.pcs → l ∈ args) ∧
  ((∀ p ∈ c.pcs, ∃ l, p = .start l) ∨ c.state.list ∈ args) ∧
  ((∀ p ∈ c.pcs, p = .listed ∨ ∃ l, p = .start l) ∨
    ∀ w i, c.state.map w = some i → ∃ l ∈ args, l[i]? = some w) ∧
  ∀ vs i, .loop vs i ∈ c.pcs → ∃ l ∈ args, l.drop i = vs

theorem from_step (args : List (List Bytes)) (c : Setters) (t : Nat) (h : c.From args) : (c.step t).From args := by
  obtain ⟨h1, h2, h3, h4⟩ := h
  unfold step
  split
  · exact ⟨h1, h2, h3, h4⟩
  · rename_i l ht
    have hm := List.mem_of_getElem? ht
    refine ⟨fun l' hl' => ?_, Or.inr (h1 l hm), ?_, fun vs i hv => ?_⟩
    · rcases List.mem_or_eq_of_mem_set hl' with h | h
      · exact h1 l' h
      · cases h
    · rcases h3 with h3 | h3
      · left
        intro p hp
        rcases List.mem_or_eq_of_mem_set hp with h | h
        · exact h3 p h
        · exact Or.inl h
      · exact Or.inr h3
    · rcases List.mem_or_eq_of_mem_set hv with h | h
      · exact h4 vs i h
      · cases h
  · rename_i ht
    have hm := List.mem_of_getElem? ht
    refine ⟨fun l' hl' => ?_, ?_, Or.inr (by simp), fun vs i hv => ?_⟩
    · rcases List.mem_or_eq_of_mem_set hl' with h | h
      · exact h1 l' h
      · cases h
    · rcases h2 with h2 | h2
      · obtain ⟨l, h⟩ := h2 _ hm; cases h
      · exact Or.inr h2
    · rcases List.mem_or_eq_of_mem_set hv with h | h
      · exact h4 vs i h
      · cases h
  · rename_i ht
    have hm := List.mem_of_getElem? ht
    have h2 : c.state.list ∈ args := by
      rcases h2 with h2 | h2
      · obtain ⟨l, h⟩ := h2 _ hm; cases h
      · exact h2
    have h3 : ∀ w i, c.state.map w = some i → ∃ l ∈ args, l[i]? = some w := by
      rcases h3 with h3 | h3
      · rcases h3 _ hm with h | ⟨l, h⟩ <;> cases h
      · exact h3
    refine ⟨fun l' hl' => ?_, Or.inr h2, Or.inr h3, fun vs i hv => ?_⟩
    · rcases List.mem_or_eq_of_mem_set hl' with h | h
      · exact h1 l' h
      · cases h
    · rcases List.mem_or_eq_of_mem_set hv with h | h
      · exact h4 vs i h
      · injection h with e1 e2
        exact ⟨_, h2, by rw [e1, e2]; rfl⟩
  · rename_i j ht
    have hm := List.mem_of_getElem? ht
    refine ⟨fun l' hl' => ?_, ?_, ?_, fun vs i hv => ?_⟩
    · rcases List.mem_or_eq_of_mem_set hl' with h | h
      · exact h1 l' h
      · cases h
    · rcases h2 with h2 | h2
      · obtain ⟨l, h⟩ := h2 _ hm; cases h
      · exact Or.inr h2
    · rcases h3 with h3 | h3
      · rcases h3 _ hm with h | ⟨l, h⟩ <;> cases h
      · exact Or.inr h3
    · rcases List.mem_or_eq_of_mem_set hv with h | h
      · exact h4 vs i h
      · cases h
  · rename_i v vs j ht
    have hm := List.mem_of_getElem? ht
    obtain ⟨l, hl, hd⟩ := h4 _ _ hm
    have hv : l[j]? = some v := by
      have := congrArg List.head? hd
      simpa [List.head?_drop] using this
    refine ⟨fun l' hl' => ?_, ?_, ?_, fun us i hu => ?_⟩
    · rcases List.mem_or_eq_of_mem_set hl' with h | h
      · exact h1 l' h
      · cases h
    · rcases h2 with h2 | h2
      · obtain ⟨l, h⟩ := h2 _ hm; cases h
      · exact Or.inr h2
    · rcases h3 with h3 | h3
      · rcases h3 _ hm with h | ⟨l, h⟩ <;> cases h
      · right
        intro w i hw
        dsimp only at hw
        split at hw
        · rename_i hwv
          exact ⟨l, hl, by rw [← Option.some.inj hw, hwv]; exact hv⟩
        · exact h3 w i hw
    · rcases List.mem_or_eq_of_mem_set hu with h | h
      · exact h4 us i h
      · injection h with e1 e2
        refine ⟨l, hl, ?_⟩
        rw [e1, e2, ← List.drop_drop, hd]; rfl
  · exact ⟨h1, h2, h3, h4⟩

end Setters

/-- **C83.** When any number of concurrent calls of `SetWordList` have returned, the list is the argument of one of them, every
word of it has an index, and every index is that of the word in the argument of one of them. -/
theorem C83_outcome (S : WordState) (args : List (List Bytes)) (hne : args ≠ []) (schedule : List Nat)
    (hf : ((Setters.begin S args).run schedule).finished) :
    let end_ := ((Setters.begin S args).run schedule).state
    end_.list ∈ args ∧ (∀ w ∈ end_.list, end_.map w ≠ none) ∧
    ∀ w i, end_.map w = some i → ∃ l ∈ args, l[i]? = some w := by
  intro end_
  obtain ⟨a, args', rfl⟩ := List.exists_cons_of_ne_nil hne
  have hlen : ((Setters.begin S (a :: args')).run schedule).pcs.length = (a :: args').length := by
    rw [Setters.run_length]; simp [Setters.begin]
  have hcov : ((Setters.begin S (a :: args')).run schedule).Covered :=
    Setters.run_induct (fun c t h => Setters.covered_step c t h) _ (Or.inl ⟨a, by simp [Setters.begin]⟩) schedule
  have hfrom : ((Setters.begin S (a :: args')).run schedule).From (a :: args') := by
    refine Setters.run_induct (fun c t h => Setters.from_step _ c t h) _ ?_ schedule
    have hall : ∀ p ∈ (Setters.begin S (a :: args')).pcs, ∃ l ∈ a :: args', p = .start l := by
      intro p hp
      obtain ⟨l, hl, rfl⟩ := List.mem_map.1 hp
      exact ⟨l, hl, rfl⟩
    refine ⟨fun l hl => ?_, Or.inl fun p hp => ?_, Or.inl fun p hp => ?_, fun vs i h => ?_⟩
    · obtain ⟨l', h1, h2⟩ := hall _ hl
      injection h2 with h2; rw [h2]; exact h1
    · obtain ⟨l, -, h⟩ := hall p hp; exact ⟨l, h⟩
    · obtain ⟨l, -, h⟩ := hall p hp; exact Or.inr ⟨l, h⟩
    · obtain ⟨l, -, h⟩ := hall _ h; cases h
  obtain ⟨p, hp⟩ : ∃ p, p ∈ ((Setters.begin S (a :: args')).run schedule).pcs :=
    List.exists_mem_of_length_pos (by rw [hlen]; simp)
  have hd := hf p hp
  subst hd
  obtain ⟨-, h2, h3, -⟩ := hfrom
  refine ⟨?_, ?_, ?_⟩
  · rcases h2 with h2 | h2
    · obtain ⟨l, h⟩ := h2 _ hp; cases h
    · exact h2
  · rcases hcov with ⟨l, h⟩ | h | h | h | ⟨vs, i, h, -⟩
    · cases hf _ h
    · cases hf _ h
    · cases hf _ h
    · exact h
    · cases hf _ h
  · rcases h3 with h3 | h3
    · rcases h3 _ hp with h | ⟨l, h⟩ <;> cases h
    · exact h3

namespace Setters

/-! ### One call at a time -/

theorem run_loop (c : Setters) (t : Nat) (vs : List Bytes) (i : Nat) (h : c.pcs[t]? = some (.loop vs i)) :
    c.run (List.replicate (vs.length + 1) t) = ⟨⟨c.state.list, fillWordMap vs i c.state.map⟩, c.pcs.set t .done⟩ := by
  induction vs generalizing c i with
  | nil =>
    change c.step t = _
    rw [step, h]
    rfl
  | cons v vs ih =>
    rw [List.length_cons, List.replicate_succ, run_cons]
    have hs : c.step t = ⟨⟨c.state.list, fun w => if w = v then some i else c.state.map w⟩, c.pcs.set t (.loop vs (i + 1))⟩ := by
      rw [step, h]
    have ht := (List.getElem?_eq_some_iff.1 h).1
    rw [hs, ih _ (i + 1) (by simp [ht]), List.set_set]
    rfl

/-- A call that has made its map, run to the end. -/
theorem run_made (c : Setters) (t : Nat) (h : c.pcs[t]? = some .made) :
    c.run (List.replicate (c.state.list.length + 2) t) =
      ⟨⟨c.state.list, fillWordMap c.state.list 0 c.state.map⟩, c.pcs.set t .done⟩ := by
  rw [List.replicate_succ, run_cons]
  have hs : c.step t = ⟨c.state, c.pcs.set t (.loop c.state.list 0)⟩ := by rw [step, h]
  have ht := (List.getElem?_eq_some_iff.1 h).1
  rw [hs, run_loop _ t c.state.list 0 (by simp [ht]), List.set_set]

/-- A call run from the beginning to the end. -/
theorem run_whole (c : Setters) (t : Nat) (l : List Bytes) (h : c.pcs[t]? = some (.start l)) :
    c.run (List.replicate (l.length + 4) t) = ⟨setWordListFrom c.state l, c.pcs.set t .done⟩ := by
  rw [List.replicate_succ, run_cons, List.replicate_succ, run_cons]
  have ht := (List.getElem?_eq_some_iff.1 h).1
  have hs : (c.step t).step t = ⟨⟨l, fun _ => none⟩, c.pcs.set t .made⟩ := by
    have h1 : c.step t = ⟨⟨l, c.state.map⟩, c.pcs.set t .listed⟩ := by rw [step, h]
    rw [h1, step]
    simp [ht]
  rw [hs]
  exact (run_made _ t (by simp [ht])).trans (by rw [List.set_set]; rfl)

/-- Calls that have not begun can be run one after the other. -/
theorem run_others (c : Setters) (ts : List Nat) (h : ∀ t ∈ ts, ∃ l, c.pcs[t]? = some (.start l)) (hn : ts.Nodup) :
    ∃ schedule, (∀ t ∈ ts, (c.run schedule).pcs[t]? = some .done) ∧
      ∀ t, t ∉ ts → (c.run schedule).pcs[t]? = c.pcs[t]? := by
  induction ts generalizing c with
  | nil => exact ⟨[], by simp, fun _ _ => rfl⟩
  | cons t ts ih =>
    obtain ⟨l, hl⟩ := h t (by simp)
    have hlt := (List.getElem?_eq_some_iff.1 hl).1
    rw [List.nodup_cons] at hn
    have hrun := run_whole c t l hl
    obtain ⟨sch, s1, s2⟩ := ih ⟨setWordListFrom c.state l, c.pcs.set t .done⟩ (by
      intro u hu
      obtain ⟨l', hl'⟩ := h u (by simp [hu])
      have : t ≠ u := by rintro rfl; exact hn.1 hu
      exact ⟨l', by rw [List.getElem?_set_ne this]; exact hl'⟩) hn.2
    refine ⟨List.replicate (l.length + 4) t ++ sch, fun u hu => ?_, fun u hu => ?_⟩
    · rw [run_append, hrun]
      rcases List.mem_cons.1 hu with rfl | hu
      · rw [s2 u hn.1]; simp [hlt]
      · exact s1 u hu
    · rw [run_append, hrun, s2 u (fun h => hu (by simp [h]))]
      have : t ≠ u := by rintro rfl; exact hu (by simp)
      simp [List.getElem?_set_ne this]

/-- Call `b` replaces the map and reads the list, then call `a` runs to its end, then call `b` fills the map. -/
theorem run_clash (c : Setters) (a b : Nat) (hab : a ≠ b) (l l' : List Bytes) (ha : c.pcs[a]? = some (.start l))
    (hb : c.pcs[b]? = some (.start l')) :
    ∃ schedule, c.run schedule =
      ⟨⟨l, fillWordMap l' 0 (fillWordMap l 0 fun _ => none)⟩, (c.pcs.set a .done).set b .done⟩ := by
  have ha' := (List.getElem?_eq_some_iff.1 ha).1
  have hb' := (List.getElem?_eq_some_iff.1 hb).1
  have h3 : c.run [b, b, b] = ⟨⟨l', fun _ => none⟩, c.pcs.set b (.loop l' 0)⟩ := by
    have h1 : c.step b = ⟨⟨l', c.state.map⟩, c.pcs.set b .listed⟩ := by rw [step, hb]
    have h2 : (c.step b).step b = ⟨⟨l', fun _ => none⟩, c.pcs.set b .made⟩ := by
      rw [h1, step]; simp [hb']
    change ((c.step b).step b).step b = _
    rw [h2, step]; simp [hb']
  refine ⟨[b, b, b] ++ (List.replicate (l.length + 4) a ++ List.replicate (l'.length + 1) b), ?_⟩
  rw [run_append, run_append, h3, run_whole _ a l (by rw [List.getElem?_set_ne hab.symm]; exact ha),
    run_loop _ b l' 0 (by rw [List.getElem?_set_ne hab]; simp [hb'])]
  rw [List.set_comm _ _ hab.symm, List.set_set]
  rfl

end Setters

/-- **C83.** A call that runs alone does what `setWordListFrom` says, however its steps are counted. -/
theorem C83_alone (S : WordState) (l : List Bytes) (schedule : List Nat)
    (hf : ((Setters.begin S [l]).run schedule).finished) :
    ((Setters.begin S [l]).run schedule).state = setWordListFrom S l := by
  let P : Setters → Prop := fun c => ∃ p, c.pcs = [p] ∧ match p with
    | .start l' => l' = l
    | .listed => c.state.list = l
    | .made => c.state.list = l ∧ c.state.map = fun _ => none
    | .loop vs i => c.state.list = l ∧ fillWordMap vs i c.state.map = fillWordMap l 0 fun _ => none
    | .done => c.state = setWordListFrom S l
  have hP : P ((Setters.begin S [l]).run schedule) := by
    refine Setters.run_induct (fun c t h => ?_) _ ⟨_, rfl, rfl⟩ schedule
    obtain ⟨p, hp, h⟩ := h
    unfold Setters.step
    cases t with
    | succ t => rw [hp]; exact ⟨p, hp, h⟩
    | zero =>
      cases p with
      | start l' => rw [hp]; exact ⟨_, rfl, h⟩
      | listed => rw [hp]; exact ⟨_, rfl, h, rfl⟩
      | made =>
        rw [hp]
        refine ⟨_, rfl, h.1, ?_⟩
        change fillWordMap c.state.list 0 c.state.map = _
        rw [h.2, h.1]
      | loop vs i =>
        cases vs with
        | nil =>
          rw [hp]
          refine ⟨_, rfl, ?_⟩
          dsimp only
          obtain ⟨h1, h2⟩ := h
          rw [setWordListFrom, ← h2, ← h1]
          rfl
        | cons v vs => rw [hp]; exact ⟨_, rfl, h.1, h.2⟩
      | done => rw [hp]; exact ⟨_, hp, h⟩
  obtain ⟨p, hp, h⟩ := hP
  have : p = .done := hf p (by rw [hp]; simp)
  subst this
  exact h

/-- **C83**, exactly: let good lists be set concurrently. Whatever the interleaving, every entropy survives the way to the mnemonic and
back afterwards, if and only if no word has different positions in two of the lists. -/
theorem C83_safe_iff (H : Hashes) (S : WordState) (args : List (List Bytes)) (hne : args ≠ [])
    (hg : ∀ l ∈ args, GoodList l) :
    (∀ schedule, ((Setters.begin S args).run schedule).finished → ∀ e, e.length ∈ entropySizes →
      ∃ m, newMnemonic H ((Setters.begin S args).run schedule).state e = .ok (m, none) ∧
        entropyFromMnemonic H ((Setters.begin S args).run schedule).state m = .ok (e, none)) ↔
    ∀ l ∈ args, ∀ l' ∈ args, ∀ (i j : Nat) (w : Bytes), l[i]? = some w → l'[j]? = some w → i = j := by
  constructor
  · intro hall l hl l' hl' i j w hi hj
    by_contra hij
    obtain ⟨a, ha⟩ := List.getElem?_of_mem hl
    obtain ⟨b, hb⟩ := List.getElem?_of_mem hl'
    have hgl := hg l hl
    have hgl' := hg l' hl'
    have hab : a ≠ b := by
      rintro rfl
      rw [ha] at hb
      obtain rfl := Option.some.inj hb
      have := (setWordList_map_nodup hgl.nodup w i).2 hi
      rw [(setWordList_map_nodup hgl.nodup w j).2 hj] at this
      exact hij (Option.some.inj this).symm
    have hpcs : ∀ t : Nat, (Setters.begin S args).pcs[t]? = (args[t]?).map SetterPc.start := fun t => by simp [Setters.begin]
    -- the other calls run first
    let ts := (List.range args.length).filter fun t => t ≠ a ∧ t ≠ b
    obtain ⟨s1, o1, o2⟩ := Setters.run_others (Setters.begin S args) ts (by
      intro t ht
      have : t < args.length := by have := (List.mem_filter.1 ht).1; simpa using this
      exact ⟨args[t], by rw [hpcs, List.getElem?_eq_getElem this]; rfl⟩) (List.nodup_range.filter _)
    set c := (Setters.begin S args).run s1 with hc
    have hca : c.pcs[a]? = some (.start l) := by rw [o2 a (by simp [ts]), hpcs, ha]; rfl
    have hcb : c.pcs[b]? = some (.start l') := by rw [o2 b (by simp [ts]), hpcs, hb]; rfl
    obtain ⟨s2, hs2⟩ := Setters.run_clash c a b hab l l' hca hcb
    have hrun : (Setters.begin S args).run (s1 ++ s2) = c.run s2 := by rw [Setters.run_append]
    have hlen : c.pcs.length = args.length := by rw [hc, Setters.run_length]; simp [Setters.begin]
    have hfin : ((Setters.begin S args).run (s1 ++ s2)).finished := by
      rw [hrun, hs2]
      intro p hp
      obtain ⟨t, ht⟩ := List.getElem?_of_mem hp
      dsimp only at ht
      by_cases htb : b = t
      · subst htb
        rw [List.getElem?_set_self (by simp; exact (List.getElem?_eq_some_iff.1 hcb).1)] at ht
        exact (Option.some.inj ht).symm
      · rw [List.getElem?_set_ne htb] at ht
        by_cases hta : a = t
        · subst hta
          rw [List.getElem?_set_self (List.getElem?_eq_some_iff.1 hca).1] at ht
          exact (Option.some.inj ht).symm
        · rw [List.getElem?_set_ne hta] at ht
          have hlt : t < args.length := by rw [← hlen]; exact (List.getElem?_eq_some_iff.1 ht).1
          rw [o1 t (by simp [ts, hlt, Ne.symm hta, Ne.symm htb])] at ht
          exact (Option.some.inj ht).symm
    have hi2 : i < 2048 := by rw [← hgl.length]; exact (List.getElem?_eq_some_iff.1 hi).1
    have hj2 : j < 2048 := by rw [← hgl'.length]; exact (List.getElem?_eq_some_iff.1 hj).1
    have h16 : (repeated i).length ∈ entropySizes := by rw [repeated_length]; decide
    obtain ⟨m, m1, m2⟩ := hall (s1 ++ s2) hfin (repeated i) h16
    rw [hrun, hs2] at m1 m2
    dsimp only at m1 m2
    obtain ⟨idx, h1, h2, h3, -⟩ := newMnemonic_total H
      ⟨l, fillWordMap l' 0 (fillWordMap l 0 fun _ => none)⟩ (repeated i) h16
    obtain ⟨k, hk, rfl⟩ := repeated_idx H hi2 h1 h2
    obtain ⟨ws, w1, w2⟩ := h3 fun x hx => by
      show x < l.length
      rw [hgl.length]; exact h1 x hx
    rw [m1] at w2
    obtain rfl := (Prod.mk.inj (Outcome.ok.inj w2)).1
    have hkl : k < l.length := by rw [hgl.length]; exact hk
    have hws : ws = List.replicate 11 w ++ [l[k]] := by
      apply List.map_injective_iff.2 (Option.some_injective _)
      rw [w1]
      simp [hi, List.getElem?_eq_getElem hkl]
    have hmem : ∀ x ∈ ws, x ∈ l := words_of_idx w1
    have hfields := fields_join ws fun x hx => hgl.word x (hmem x hx)
    -- the map after both calls
    have hmw : fillWordMap l' 0 (fillWordMap l 0 fun _ => none) w = some j := by
      refine (fillWordMap_some _ _ _ _ _).2 (Or.inl ⟨j, hj, by simp, fun q hq hq' => ?_⟩)
      have := (setWordList_map_nodup hgl'.nodup w q).2 hq'
      rw [(setWordList_map_nodup hgl'.nodup w j).2 hj] at this
      have := Option.some.inj this
      omega
    obtain ⟨k', hk', hmk⟩ : ∃ k', k' < 2048 ∧ fillWordMap l' 0 (fillWordMap l 0 fun _ => none) l[k] = some k' := by
      by_cases hin : l[k] ∈ l'
      · obtain ⟨q, hq⟩ := List.getElem?_of_mem hin
        refine ⟨q, by rw [← hgl'.length]; exact (List.getElem?_eq_some_iff.1 hq).1, ?_⟩
        refine (fillWordMap_some _ _ _ _ _).2 (Or.inl ⟨q, hq, by simp, fun r hr hr' => ?_⟩)
        have := (setWordList_map_nodup hgl'.nodup l[k] r).2 hr'
        rw [(setWordList_map_nodup hgl'.nodup l[k] q).2 hq] at this
        have := Option.some.inj this
        omega
      · exact ⟨k, hk, (fillWordMap_some _ _ _ _ _).2 (Or.inr ⟨hin,
          (setWordList_map_nodup hgl.nodup l[k] k).2 (List.getElem?_eq_getElem hkl)⟩)⟩
    have hidx' : ∀ x ∈ List.replicate 11 j ++ [k'], x < 2048 := by
      intro x hx
      rcases List.mem_append.1 hx with h | h
      · rw [List.eq_of_mem_replicate h]; exact hj2
      · rw [List.mem_singleton.1 h]; exact hk'
    have hdec := (entropy_decoded H hgl ⟨l, fillWordMap l' 0 (fillWordMap l 0 fun _ => none)⟩ _ (repeated i)
      (List.replicate 11 j ++ [k']) hidx' (by rw [hfields, hws]; simp [hmw, hmk]) h16).1 m2
    have := idx_unique h1 hidx' (h2.trans hdec.symm) H (repeated i) h16 h2
    have := congrArg List.head? this
    simp [List.replicate_succ] at this
    exact hij this
  · intro hcomp schedule hf e he
    obtain ⟨h1, h2, h3⟩ := C83_outcome S args hne schedule hf
    generalize ((Setters.begin S args).run schedule).state = T at h1 h2 h3 ⊢
    have hgT := hg _ h1
    obtain ⟨idx, i1, i2, i3, -⟩ := newMnemonic_total H T e he
    obtain ⟨ws, w1, w2⟩ := i3 fun x hx => by rw [hgT.length]; exact i1 x hx
    refine ⟨_, w2, ?_⟩
    have hmem := words_of_idx w1
    have hfields := fields_join ws fun x hx => hgT.word x (hmem x hx)
    refine (entropy_decoded H hgT T _ e idx i1 ?_ he).2 i2
    rw [hfields]
    clear i1 i2 i3 w2 hfields
    induction idx generalizing ws with
    | nil =>
      have : ws = [] := by simpa using w1
      rw [this]; rfl
    | cons i idx ih =>
      cases ws with
      | nil => simp at w1
      | cons w ws =>
        simp only [List.map_cons, List.cons.injEq] at w1 ⊢
        refine ⟨?_, ih ws w1.2 fun x hx => hmem x (by simp [hx])⟩
        cases hw : T.map w with
        | none => exact absurd hw (h2 w (hmem w (by simp)))
        | some j =>
          obtain ⟨l, hl, hj⟩ := h3 w j hw
          rw [hcomp _ h1 l hl i j w w1.1.symm hj]

end Bips
