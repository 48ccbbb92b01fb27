import Verif.Model.MapFatal
import Verif.Props.WordSetters

namespace Bips
namespace MapRun

theorem run_cons (c : MapRun) (t : Nat) (ts : List Nat) : c.run (t :: ts) = (c.step t).run ts := rfl

theorem run_append (c : MapRun) (ts us : List Nat) : c.run (ts ++ us) = (c.run ts).run us := List.foldl_append

theorem run_nil (c : MapRun) : c.run [] = c := rfl

theorem run_induct {P : MapRun → Prop} (hs : ∀ c t, P c → P (c.step t)) (c : MapRun) (h : P c) (ts : List Nat) :
    P (c.run ts) := by
  induction ts generalizing c with
  | nil => exact h
  | cons t ts ih => exact ih _ (hs c t h)

/-- A call of `SetWordList` with a list that is not empty, and a lookup: the program can end. -/
theorem fatal_reader (c : MapRun) (a b : Nat) (v w : Bytes) (vs ws : List Bytes) (got : List (Option Nat)) (hf : c.fatal = false)
    (ha : c.pcs[a]? = some (.start (v :: vs))) (hb : c.pcs[b]? = some (.reads (w :: ws) got)) :
    (c.run [a, a, a, a, a, a, a, b, b]).fatal = true := by
  have hab : a ≠ b := by
    intro h; rw [h, hb] at ha; simp at ha
  have hla : a < c.pcs.length := (List.getElem?_eq_some_iff.mp ha).1
  have hlb : b < c.pcs.length := (List.getElem?_eq_some_iff.mp hb).1
  simp [run, step, goto, put, GoMap.empty, GoMap.assign, hf, ha, hb, hab, hla, hlb, -getElem?_pos]

/-- Two calls of `SetWordList`, one with a list that is not empty: the program can end. -/
theorem fatal_setters (c : MapRun) (a b : Nat) (v : Bytes) (vs l : List Bytes) (hab : a ≠ b) (hf : c.fatal = false)
    (ha : c.pcs[a]? = some (.start (v :: vs))) (hb : c.pcs[b]? = some (.start l)) :
    (c.run [b, a, a, b, a, b, a, a, a, b, b]).fatal = true := by
  have hla : a < c.pcs.length := (List.getElem?_eq_some_iff.mp ha).1
  have hlb : b < c.pcs.length := (List.getElem?_eq_some_iff.mp hb).1
  simp [run, step, goto, put, GoMap.empty, hf, ha, hb, hab, hab.symm, hla, hlb, -getElem?_pos]

/-- The map a call has marked. -/
def marks : MapPc → Nat → Bool
  | .marked _ _ _ m, k => decide (k = m)
  | .assigned _ _ _ m, k => decide (k = m)
  | _, _ => false

theorem marks_over (p : MapPc) (h : p.over) (k : Nat) : marks p k = false := by
  cases p <;> first | rfl | exact absurd h id

/-- The maps marked are those call `t` has marked. -/
def Solo (t : Nat) (c : MapRun) : Prop :=
  c.fatal = false ∧ ∃ p, c.pcs[t]? = some p ∧ ∀ k, (c.maps k).writing = marks p k

theorem assign_writing (g : GoMap) (v : Bytes) : (g.assign v).writing = g.writing := by
  unfold GoMap.assign; split <;> rfl

theorem solo_step (t : Nat) (c : MapRun) (h : Solo t c) : Solo t (c.step t) := by
  obtain ⟨hf, p, hp, hw⟩ := h
  have hl : t < c.pcs.length := (List.getElem?_eq_some_iff.mp hp).1
  have key : ∀ p' (c' : MapRun), c'.fatal = false → c'.pcs = c.pcs → (∀ k, (c'.maps k).writing = marks p' k) → Solo t (c'.goto t p') := by
    intro p' c' h1 h2 h3
    exact ⟨h1, p', by simp [goto, h2, hl], h3⟩
  unfold step
  rw [if_neg (by simp [hf]), hp]
  cases p with
  | start l => exact key _ _ hf rfl hw
  | listed =>
    refine key _ _ hf rfl fun k => ?_
    simp only [put]
    split
    · simp [GoMap.empty, marks]
    · simpa [marks] using hw k
  | made => exact key _ _ hf rfl hw
  | loop rest i =>
    cases rest with
    | nil => exact key _ _ hf rfl hw
    | cons v vs => exact key _ _ hf rfl hw
  | loaded v vs i m =>
    simp only
    rw [if_neg (by simp [hw m, marks])]
    exact key _ _ hf rfl hw
  | entered v vs i m =>
    refine key _ _ hf rfl fun k => ?_
    simp only [put]
    split
    · next h => simp [marks, hw, h]
    · next h => simpa [marks, h] using hw k
  | marked v vs i m =>
    refine key _ _ hf rfl fun k => ?_
    simp only [put]
    split
    · next h => rw [assign_writing, hw, h]; rfl
    · next h => rw [hw k]; rfl
  | assigned v vs i m =>
    simp only
    rw [if_pos (by simp [hw m, marks])]
    refine key _ _ hf rfl fun k => ?_
    simp only [put]
    split
    · simp [marks]
    · next h => rw [hw k]; simp [marks, h]
  | placed v vs i m =>
    refine key _ _ hf rfl fun k => ?_
    simp only [put]
    split
    · next h => simp [GoMap.store, hw, marks]
    · next h => rw [hw k]; rfl
  | done => exact ⟨hf, _, hp, hw⟩
  | reads ws got =>
    cases ws with
    | nil => exact ⟨hf, _, hp, hw⟩
    | cons w ws => exact key _ _ hf rfl hw
  | reading w ws got m =>
    simp only
    rw [if_neg (by simp [hw m, marks])]
    split
    · exact key _ _ hf rfl hw
    · exact key _ _ hf rfl hw

theorem solo_run (t k : Nat) (c : MapRun) (h : Solo t c) : Solo t (c.run (List.replicate k t)) := by
  induction k generalizing c with
  | zero => exact h
  | succ k ih => exact ih _ (solo_step t c h)

theorem step_other (c : MapRun) (t u : Nat) (h : u ≠ t) : (c.step t).pcs[u]? = c.pcs[u]? := by
  unfold step
  repeat' split
  all_goals simp [goto, put, h.symm]

/-- All arguments are empty: no call ever writes a word. -/
def Idle (c : MapRun) : Prop :=
  c.fatal = false ∧ (∀ k, (c.maps k).writing = false) ∧
    ∀ p ∈ c.pcs, p = .start [] ∨ (p = .listed ∧ c.list = []) ∨ (p = .made ∧ c.list = []) ∨ (∃ i, p = .loop [] i) ∨ p = .done ∨
      (∃ ws got, p = .reads ws got) ∨ (∃ w ws got m, p = .reading w ws got m)

theorem idle_step (c : MapRun) (t : Nat) (h : Idle c) : Idle (c.step t) := by
  obtain ⟨hf, hw, hp⟩ := h
  have key : ∀ p' (c' : MapRun), c'.fatal = false → c'.pcs = c.pcs → (∀ k, (c'.maps k).writing = false) → (c'.list = c.list ∨ c'.list = []) →
      (p' = .start [] ∨ (p' = .listed ∧ c'.list = []) ∨ (p' = .made ∧ c'.list = []) ∨ (∃ i, p' = .loop [] i) ∨ p' = .done ∨
      (∃ ws got, p' = .reads ws got) ∨ (∃ w ws got m, p' = .reading w ws got m)) → Idle (c'.goto t p') := by
    intro p' c' h1 h2 h3 h4 h5
    refine ⟨h1, h3, fun p hm => ?_⟩
    simp only [goto] at hm
    rcases List.mem_or_eq_of_mem_set hm with hm | hm
    · rw [h2] at hm
      have h6 : c.list = [] → c'.list = [] := fun h => by rcases h4 with h4 | h4 <;> simp [h4, h]
      rcases hp p hm with h | h | h | h | h | h | h
      · exact .inl h
      · exact .inr (.inl ⟨h.1, h6 h.2⟩)
      · exact .inr (.inr (.inl ⟨h.1, h6 h.2⟩))
      · exact .inr (.inr (.inr (.inl h)))
      · exact .inr (.inr (.inr (.inr (.inl h))))
      · exact .inr (.inr (.inr (.inr (.inr (.inl h)))))
      · exact .inr (.inr (.inr (.inr (.inr (.inr h)))))
    · rw [hm]; exact h5
  unfold step
  rw [if_neg (by simp [hf])]
  cases hg : c.pcs[t]? with
  | none => exact ⟨hf, hw, hp⟩
  | some p =>
    rcases hp p (List.mem_of_getElem? hg) with h | h | h | ⟨i, h⟩ | h | ⟨ws, got, h⟩ | ⟨w, ws, got, m, h⟩
    · subst h; exact key _ _ hf rfl hw (.inr rfl) (.inr (.inl ⟨rfl, rfl⟩))
    · obtain ⟨h, he⟩ := h
      subst h
      refine key _ _ hf rfl (fun k => ?_) (.inl rfl) (.inr (.inr (.inl ⟨rfl, he⟩)))
      simp only [put]; split
      · rfl
      · exact hw k
    · obtain ⟨h, he⟩ := h
      subst h
      exact key _ _ hf rfl hw (.inl rfl) (.inr (.inr (.inr (.inl ⟨0, by rw [he]⟩))))
    · subst h; exact key _ _ hf rfl hw (.inl rfl) (.inr (.inr (.inr (.inr (.inl rfl)))))
    · subst h; exact ⟨hf, hw, hp⟩
    · subst h
      cases ws with
      | nil => exact ⟨hf, hw, hp⟩
      | cons w ws => exact key _ _ hf rfl hw (.inl rfl) (.inr (.inr (.inr (.inr (.inr (.inr ⟨_, _, _, _, rfl⟩))))))
    · subst h
      simp only
      rw [if_neg (by simp [hw m])]
      split
      · exact key _ _ hf rfl hw (.inl rfl) (.inr (.inr (.inr (.inr (.inr (.inl ⟨_, _, rfl⟩))))))
      · exact key _ _ hf rfl hw (.inl rfl) (.inr (.inr (.inr (.inr (.inr (.inl ⟨_, _, rfl⟩))))))

theorem begin_setter (S : WordState) (n : Nat) (args readers : List (List Bytes)) (t : Nat) (l : List Bytes) (h : args[t]? = some l) :
    (MapRun.begin S n args readers).pcs[t]? = some (.start l) := by
  have : t < args.length := (List.getElem?_eq_some_iff.mp h).1
  rw [MapRun.begin, List.getElem?_append_left (by simpa using this), List.getElem?_map, h]
  rfl

theorem begin_reader (S : WordState) (n : Nat) (args readers : List (List Bytes)) (t : Nat) (ws : List Bytes) (h : readers[t]? = some ws) :
    (MapRun.begin S n args readers).pcs[args.length + t]? = some (.reads ws []) := by
  simp [MapRun.begin, List.getElem?_append, h]

end MapRun

open MapRun Spec

/-- **C101**, when the program can end: calls of `SetWordList` and lookups (of `GetWordIndex`, `EntropyFromMnemonic` and what is built
on it) running at the same time, whatever they were given, can end the program with a fatal error if and only if some call of
`SetWordList` has a list that is not empty and there is another call of `SetWordList`, or a lookup. -/
theorem C101_fatal_iff (S : WordState) (n : Nat) (args readers : List (List Bytes)) :
    (∃ schedule, ((MapRun.begin S n args readers).run schedule).fatal = true) ↔
      (∃ l ∈ args, l ≠ []) ∧ (2 ≤ args.length ∨ ∃ ws ∈ readers, ws ≠ []) := by
  constructor
  · rintro ⟨schedule, h⟩
    by_contra hc
    have hF : ((MapRun.begin S n args readers).run schedule).fatal = false := by
      by_cases h1 : ∃ l ∈ args, l ≠ []
      · have h2 : ¬ (2 ≤ args.length ∨ ∃ ws ∈ readers, ws ≠ []) := fun h => hc ⟨h1, h⟩
        push Not at h2
        obtain ⟨l, hl, -⟩ := h1
        have hlen : args = [l] := by
          match args, hl, h2.1 with
          | [x], hl, _ => simpa using (List.mem_singleton.mp hl).symm
        subst hlen
        let P : MapRun → Prop := fun c => Solo 0 c ∧ ∀ u, u ≠ 0 → ∀ p, c.pcs[u]? = some p → p = .reads [] []
        have hP : P ((MapRun.begin S n [l] readers).run schedule) := by
          apply run_induct (P := P)
          · rintro c t ⟨hs, ho⟩
            by_cases ht : t = 0
            · subst ht
              refine ⟨solo_step 0 c hs, fun u hu p hp => ?_⟩
              rw [step_other c 0 u hu] at hp
              exact ho u hu p hp
            · have : c.step t = c := by
                cases hg : c.pcs[t]? with
                | none => simp [step, hg]
                | some p =>
                  rw [ho t ht p hg] at hg
                  simp [step, hg]
              rw [this]
              exact ⟨hs, ho⟩
          · refine ⟨⟨rfl, .start l, begin_setter S n [l] readers 0 l rfl, fun k => ?_⟩, fun u hu p hp => ?_⟩
            · simp only [MapRun.begin, marks]
              split <;> rfl
            · obtain ⟨u', rfl⟩ := Nat.exists_eq_succ_of_ne_zero hu
              have hp' : (readers.map (MapPc.reads · []))[u']? = some p := by simpa [MapRun.begin] using hp
              rw [List.getElem?_map] at hp'
              cases hr : readers[u']? with
              | none => simp [hr] at hp'
              | some ws =>
                rw [hr] at hp'
                rw [h2.2 ws (List.mem_of_getElem? hr)] at hp'
                simpa using hp'.symm
        exact hP.1.1
      · push Not at h1
        have hI : Idle ((MapRun.begin S n args readers).run schedule) := by
          apply run_induct (P := Idle) idle_step
          refine ⟨rfl, fun k => ?_, fun p hp => ?_⟩
          · simp only [MapRun.begin]
            split <;> rfl
          · simp only [MapRun.begin, List.mem_append, List.mem_map] at hp
            rcases hp with ⟨l, hl, rfl⟩ | ⟨ws, hws, rfl⟩
            · exact .inl (by rw [h1 l hl])
            · exact .inr (.inr (.inr (.inr (.inr (.inl ⟨_, _, rfl⟩)))))
        exact hI.1
    rw [hF] at h
    simp at h
  · rintro ⟨⟨l, hl, hne⟩, h⟩
    obtain ⟨a, ha⟩ := List.getElem?_of_mem hl
    obtain ⟨v, vs, rfl⟩ := List.exists_cons_of_ne_nil hne
    rcases h with h | ⟨ws, hws, hne'⟩
    · let b := if a = 0 then 1 else 0
      have hab : a ≠ b := by
        by_cases h0 : a = 0
        · simp [b, h0]
        · simp [b, h0]
      have hb : b < args.length := by
        by_cases h0 : a = 0
        · simp [b, h0]; omega
        · simp [b, h0]; omega
      exact ⟨_, fatal_setters _ a b v vs args[b] hab rfl (begin_setter S n args readers a _ ha)
        (begin_setter S n args readers b _ (List.getElem?_eq_getElem hb))⟩
    · obtain ⟨b, hb⟩ := List.getElem?_of_mem hws
      obtain ⟨w, ws', rfl⟩ := List.exists_cons_of_ne_nil hne'
      exact ⟨_, fatal_reader _ a _ v w vs ws' [] rfl (begin_setter S n args readers a _ ha) (begin_reader S n args readers b _ hb)⟩

/-- **C101** for sentences: `SetWordList(l)` and `EntropyFromMnemonic(s)` at the same time can end the program if and only if the list
is not empty and the sentence has a permitted number of words, valid or not. -/
theorem C101_entropy_iff (S : WordState) (n : Nat) (l : List Bytes) (s : Bytes) (ws : List Bytes) (hs : Spec.Layout s ws) :
    (∃ schedule, ((MapRun.begin S n [l] [lookedUp s]).run schedule).fatal = true) ↔ l ≠ [] ∧ ws.length ∈ sentenceLengths := by
  have h : lookedUp s ≠ [] ↔ ws.length ∈ sentenceLengths := by
    rw [lookedUp, splitMnemonicWords_eq, fields_layout hs]
    by_cases hm : ws.length ∈ sentenceLengths
    · rw [if_pos hm]
      refine ⟨fun _ => hm, fun _ he => ?_⟩
      change ws = [] at he
      rw [he] at hm
      exact absurd hm (by decide)
    · rw [if_neg hm]
      exact ⟨fun h => absurd rfl h, fun h => absurd h hm⟩
  rw [C101_fatal_iff, ← h]
  simp

/-- The calls are made one after the other: each, with the number of its steps, until it returns. -/
def Spec.OneByOne (c : MapRun) : List (Nat × Nat) → Prop
  | [] => True
  | (t, k) :: calls => (∀ p, (c.run (List.replicate k t)).pcs[t]? = some p → p.over) ∧ OneByOne (c.run (List.replicate k t)) calls

/-- **C101**, one at a time: the same calls made one after the other, in any order, never end the program. -/
theorem C101_one_by_one (S : WordState) (n : Nat) (args readers : List (List Bytes)) (calls : List (Nat × Nat))
    (h : Spec.OneByOne (MapRun.begin S n args readers) calls) :
    ((MapRun.begin S n args readers).run (calls.flatMap fun x => List.replicate x.2 x.1)).fatal = false := by
  have key : ∀ (c : MapRun), c.fatal = false → (∀ k, (c.maps k).writing = false) → (∀ p ∈ c.pcs, ∀ k, marks p k = false) →
      Spec.OneByOne c calls → (c.run (calls.flatMap fun x => List.replicate x.2 x.1)).fatal = false := by
    clear h
    induction calls with
    | nil => intro c hf _ _ _; exact hf
    | cons x calls ih =>
      obtain ⟨t, k⟩ := x
      rintro c hf hw hp ⟨ho, hr⟩
      rw [List.flatMap_cons, run_append]
      have hothers : ∀ u, u ≠ t → (c.run (List.replicate k t)).pcs[u]? = c.pcs[u]? := by
        intro u hu
        clear ho hr hf hw hp
        induction k generalizing c with
        | zero => rfl
        | succ k ihk =>
          rw [List.replicate_succ, run_cons, ihk, step_other c t u hu]
      cases hg : c.pcs[t]? with
      | none =>
        have hs : ∀ k, c.run (List.replicate k t) = c := by
          intro k
          induction k with
          | zero => rfl
          | succ k ihk =>
            have : c.step t = c := by simp [step, hg]
            rw [List.replicate_succ, run_cons, this, ihk]
        rw [hs] at hr ⊢
        exact ih c hf hw hp hr
      | some p =>
        have hS : Solo t c := ⟨hf, p, hg, fun j => by rw [hw j, hp p (List.mem_of_getElem? hg) j]⟩
        obtain ⟨hf', p', hg', hw'⟩ := solo_run t k c hS
        have hov : ∀ j, marks p' j = false := by
          intro j
          exact marks_over p' (ho p' hg') j
        refine ih _ hf' (fun j => by rw [hw', hov]) (fun q hq => ?_) hr
        obtain ⟨u, hu⟩ := List.getElem?_of_mem hq
        by_cases hut : u = t
        · rw [hut, hg'] at hu
          rw [← Option.some.inj hu]
          exact hov
        · rw [hothers u hut] at hu
          exact hp q (List.mem_of_getElem? hu)
  refine key _ rfl (fun k => ?_) (fun p hp k => ?_) h
  · simp only [MapRun.begin]
    split <;> rfl
  · simp only [MapRun.begin, List.mem_append, List.mem_map] at hp
    rcases hp with ⟨l, -, rfl⟩ | ⟨ws, -, rfl⟩ <;> rfl

/-- Two lists set and a word looked up, one call after the other: ten steps for a list of one word, two for the lookup, four for the
empty list. -/
example (S : WordState) (n : Nat) (x : Bytes) :
    Spec.OneByOne (MapRun.begin S n [[x], []] [[x]]) [(0, 10), (2, 2), (1, 4)] := by
  refine ⟨fun p hp => ?_, fun p hp => ?_, fun p hp => ?_, trivial⟩ <;>
    simp [MapRun.begin, run, step, goto, put, GoMap.empty, GoMap.assign, GoMap.store, List.replicate_succ] at hp <;> subst hp <;> trivial

/-- The same calls at the same time can end the program. -/
example (S : WordState) (n : Nat) (x : Bytes) :
    ∃ schedule, ((MapRun.begin S n [[x], []] [[x]]).run schedule).fatal = true :=
  (C101_fatal_iff S n [[x], []] [[x]]).2 ⟨⟨[x], by simp⟩, .inl (by simp)⟩

end Bips
