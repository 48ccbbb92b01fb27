import Verif.Src.AccessUtil
import Verif.Props.SourceRace
import Verif.Props.WordsExamples

/-!
# C122: seeds while the word list is set, and any number of calls that only read

The texts of `MnemonicToByteArray` and `NewSeedWithErrorChecking` run beside that of `SetWordList`; and beside each other and all other functions
of the packages.
-/

namespace Bips

open Src Spec

/-! ### Functions that only read -/

theorem reads_bind {α β : Type} {f : α → Access β} {t : Access α} (ht : t.reads) (hf : ∀ a, (f a).reads) : (t.bind f).reads := by
  induction t with
  | leaf r =>
    cases r with
    | ok a => exact hf a
    | panic => trivial
    | stuck => trivial
  | readList k ih => exact fun l => ih l (ht l)
  | readMap w k ih => exact fun r => ih r (ht r)
  | writeList l t ih => exact absurd ht id
  | newMap t ih => exact absurd ht id
  | insert w i t ih => exact absurd ht id

section
variable (W : World)

theorem accLib_reads (f : Lib) (l : List Val) : (accLib W f l).reads := by
  unfold accLib
  split
  · exact fun r => trivial
  · trivial

theorem accE_reads (x : Expr) (e : Env) : (accE W x e).reads := by
  induction x with
  | var i => trivial
  | lit v => trivial
  | glob g => cases g <;> first | trivial | exact fun l => trivial
  | not a ih => exact reads_bind ih fun v => trivial
  | bin op a b iha ihb => exact reads_bind iha fun v => reads_bind ihb fun w => trivial
  | and a b iha ihb =>
    refine reads_bind iha fun v => reads_bind (t := .leaf (asBool v)) trivial fun c => ?_
    cases c
    · trivial
    · exact ihb
  | or a b iha ihb =>
    refine reads_bind iha fun v => reads_bind (t := .leaf (asBool v)) trivial fun c => ?_
    cases c
    · exact ihb
    · trivial
  | nilL => trivial
  | cons a b iha ihb => exact reads_bind iha fun v => reads_bind ihb fun w => trivial
  | lib f a ih => exact reads_bind ih fun v => reads_bind (t := .leaf (asList v)) trivial fun l => accLib_reads W f l

theorem accThen_reads (f : Flow) (g : Env → Access Flow) (h : ∀ e, (g e).reads) : (f.accThen g).reads := by
  cases f with
  | next e => exact h e
  | ret vs => trivial
  | brk e => trivial

theorem accAgain_reads (f : Flow) (g : Env → Access Flow) (h : ∀ e, (g e).reads) : (f.accAgain g).reads := by
  cases f with
  | next e => exact h e
  | ret vs => trivial
  | brk e => trivial

theorem accIter_reads (body : Env → Access Flow) (h : ∀ e, (body e).reads) (k v : Option Nat) (l : List Val) :
    ∀ (i : Int) (e : Env), (accIter body k v i l e).reads := by
  induction l with
  | nil => intro i e; trivial
  | cons x l ih => intro i e; exact reads_bind (h _) fun f => accAgain_reads f _ (ih (i + 1))

theorem accLoop_reads (c : Env → Access Bool) (p b : Env → Access Flow) (hc : ∀ e, (c e).reads) (hp : ∀ e, (p e).reads) (hb : ∀ e, (b e).reads) (n : Nat) :
    ∀ e, (accLoop c p b n e).reads := by
  induction n with
  | zero => intro e; trivial
  | succ n ih =>
    intro e
    refine reads_bind (hc e) fun t => ?_
    cases t
    · trivial
    · exact reads_bind (hb e) fun f => accAgain_reads f _ fun e => reads_bind (hp e) fun f => accThen_reads f _ ih

theorem accS_reads (L : Nat) (cA : Fn → List Val → Access (List Val)) (fs : Fn → Bool) (hc : ∀ f vs, fs f = true → (cA f vs).reads) (s : Stmt) :
    s.only fs = true → ∀ e, (accS W L cA s e).reads := by
  induction s with
  | skip => intro h e; trivial
  | seq a b iha ihb =>
    intro h e
    simp only [Stmt.only, Bool.and_eq_true] at h
    exact reads_bind (iha h.1 e) fun f => accThen_reads f _ (ihb h.2)
  | set i x => intro h e; exact reads_bind (accE_reads W x e) fun v => trivial
  | setTuple is x => intro h e; exact reads_bind (accE_reads W x e) fun v => trivial
  | call is f x =>
    intro h e
    exact reads_bind (accE_reads W x e) fun v => reads_bind (t := .leaf (asList v)) trivial fun vs => reads_bind (hc f vs h) fun rs => trivial
  | ite t a b iha ihb =>
    intro h e
    simp only [Stmt.only, Bool.and_eq_true] at h
    refine reads_bind (accE_reads W t e) fun v => reads_bind (t := .leaf (asBool v)) trivial fun c => ?_
    cases c
    · exact ihb h.2 e
    · exact iha h.1 e
  | range k v x b ih =>
    intro h e
    exact reads_bind (accE_reads W x e) fun l => reads_bind (t := .leaf l.items) trivial fun items => accIter_reads _ (ih h) k v items 0 e
  | for_ t p b ihp ihb =>
    intro h e
    simp only [Stmt.only, Bool.and_eq_true] at h
    exact accLoop_reads (fun e => (accE W t e).bind fun v => .leaf (asBool v)) _ _ (fun e => reads_bind (accE_reads W t e) fun v => trivial) (ihp h.1)
      (ihb h.2) L e
  | ret x => intro h e; exact reads_bind (accE_reads W x e) fun v => trivial
  | brk => intro h e; trivial

/-- **C122**, which functions write: none but `SetWordList` and the `init` of package bip39, of all that are translated. -/
theorem C122_reads (L n : Nat) : ∀ (f : Fn) (vs : List Val), f ≠ .bip39_SetWordList → f ≠ .bip39_init → (accRun W L n f vs).reads := by
  have hr : ∀ f : Fn, f ≠ .bip39_SetWordList → f ≠ .bip39_init → reader f = true := by
    intro f h1 h2
    unfold reader
    split <;> simp_all
  suffices h : ∀ (f : Fn) (vs : List Val), reader f = true → (accRun W L n f vs).reads from fun f vs h1 h2 => h f vs (hr f h1 h2)
  induction n with
  | zero => intro f vs _; trivial
  | succ n ih =>
    intro f vs h
    rw [accRun_succ _ _ _ _ _ (by rintro rfl; exact absurd h (by decide))]
    exact reads_bind (accS_reads W L _ reader (fun g ws hg => ih g ws hg) (code f).1 (reader_only f h) _) fun r => trivial

end

/-! ### Calls that only read do not disturb each other -/

/-- A run with many calls, and one with the calls `0` and `j + 1` of it. -/
def Pairs (j : Nat) (c d : Calls) : Prop :=
  c.state = d.state ∧ c.calls[0]? = d.calls[0]? ∧ c.calls[j + 1]? = d.calls[1]? ∧ (∀ t x, c.calls[t + 1]? = some x → x.reads)

/-- The number of a call in the smaller run. -/
def pairOf (j t : Nat) : Option Nat := if t = 0 then some 0 else if t = j + 1 then some 1 else none

theorem step_reads (c : Calls) (t : Nat) (x : Access (List Val)) (hx : c.calls[t]? = some x) (hr : x.reads) :
    (c.step t).state = c.state ∧ (∀ s, s ≠ t → (c.step t).calls[s]? = c.calls[s]?) ∧ ∀ y, (c.step t).calls[t]? = some y → y.reads := by
  have hlt := (List.getElem?_eq_some_iff.1 hx).1
  unfold Calls.step
  rw [hx]
  cases x with
  | leaf r => exact ⟨rfl, fun _ _ => rfl, fun y hy => by rw [hx] at hy; cases hy; trivial⟩
  | readList k =>
    refine ⟨rfl, fun s hs => List.getElem?_set_ne (Ne.symm hs), fun y hy => ?_⟩
    simp only [List.getElem?_set_self hlt] at hy
    cases hy
    exact hr _
  | readMap w k =>
    refine ⟨rfl, fun s hs => List.getElem?_set_ne (Ne.symm hs), fun y hy => ?_⟩
    simp only [List.getElem?_set_self hlt] at hy
    cases hy
    exact hr _
  | writeList l k => exact absurd hr id
  | newMap k => exact absurd hr id
  | insert w i k => exact absurd hr id

/-- The step of a call depends on the variables and on what it has still to do. -/
theorem step_same (c d : Calls) (t s : Nat) (hS : c.state = d.state) (h : c.calls[t]? = d.calls[s]?) :
    (c.step t).state = (d.step s).state ∧ (c.step t).calls[t]? = (d.step s).calls[s]? ∧
      (∀ r, r ≠ t → (c.step t).calls[r]? = c.calls[r]?) ∧ ∀ r, r ≠ s → (d.step s).calls[r]? = d.calls[r]? := by
  unfold Calls.step
  rcases hc : c.calls[t]? with _ | x
  · rw [hc] at h
    rw [← h]
    exact ⟨hS, hc.trans h, fun _ _ => rfl, fun _ _ => rfl⟩
  · rw [hc] at h
    have h1 := (List.getElem?_eq_some_iff.1 hc).1
    have h2 := (List.getElem?_eq_some_iff.1 h.symm).1
    rw [← h, hS]
    cases x with
    | leaf r => exact ⟨hS, hc.trans h, fun _ _ => rfl, fun _ _ => rfl⟩
    | _ => exact ⟨rfl, by simp [List.getElem?_set_self h1, List.getElem?_set_self h2], fun r hr => List.getElem?_set_ne (Ne.symm hr),
        fun r hr => List.getElem?_set_ne (Ne.symm hr)⟩

theorem pairs_step (j : Nat) (c d : Calls) (h : Pairs j c d) (t : Nat) :
    Pairs j (c.step t) (match pairOf j t with | some s => d.step s | none => d) := by
  obtain ⟨h1, h2, h3, h4⟩ := h
  have hreads : ∀ t' x, (c.step t).calls[t' + 1]? = some x → x.reads := by
    intro t' x hx
    by_cases he : t = t' + 1
    · subst he
      rcases hy : c.calls[t' + 1]? with _ | y
      · simp only [Calls.step, hy] at hx
        cases hx
      · exact (step_reads c (t' + 1) y hy (h4 t' y hy)).2.2 x hx
    · rw [(step_same c c t t rfl rfl).2.2.1 (t' + 1) (Ne.symm he)] at hx
      exact h4 t' x hx
  unfold pairOf
  by_cases h0 : t = 0
  · subst h0
    obtain ⟨s1, s2, s3, s4⟩ := step_same c d 0 0 h1 h2
    exact ⟨s1, s2, by rw [if_pos rfl, s3 (j + 1) (by omega), s4 1 (by omega), h3], hreads⟩
  · rw [if_neg h0]
    by_cases hj : t = j + 1
    · subst hj
      obtain ⟨s1, s2, s3, s4⟩ := step_same c d (j + 1) 1 h1 h3
      rw [if_pos rfl]
      exact ⟨s1, by rw [s3 0 (by omega), s4 0 (by omega), h2], s2, hreads⟩
    · rw [if_neg hj]
      obtain ⟨t, rfl⟩ := Nat.exists_eq_succ_of_ne_zero h0
      rcases hy : c.calls[t + 1]? with _ | y
      · have : c.step (t + 1) = c := by simp only [Calls.step, hy]
        rw [this]
        exact ⟨h1, h2, h3, h4⟩
      · obtain ⟨s1, s2, -⟩ := step_reads c (t + 1) y hy (h4 t y hy)
        exact ⟨by rw [← h1]; exact s1, by rw [← h2]; exact s2 0 (by omega), by rw [← h3]; exact s2 (j + 1) (Ne.symm hj), hreads⟩

theorem pairs_run (j : Nat) (schedule : List Nat) : ∀ c d : Calls, Pairs j c d → Pairs j (c.run schedule) (d.run (schedule.filterMap (pairOf j))) := by
  induction schedule with
  | nil => intro c d h; exact h
  | cons t schedule ih =>
    intro c d h
    have hs := pairs_step j c d h t
    rw [List.filterMap_cons]
    rcases hp : pairOf j t with _ | s
    · rw [hp] at hs
      exact ih _ _ hs
    · rw [hp] at hs
      exact ih _ _ hs

/-- **C122**, many readers: a call made beside `SetWordList(list)` and any number of calls of functions that do not write can give exactly what it can
give beside `SetWordList(list)` alone. -/
theorem C122_many (W : World) (L n : Nat) (S : WordState) (list : List Bytes) (cs : List (Fn × List Val))
    (hcs : ∀ c ∈ cs, c.1 ≠ .bip39_SetWordList ∧ c.1 ≠ .bip39_init) (j : Nat) (c : Fn × List Val) (hj : cs[j]? = some c) (r : Res (List Val)) :
    (∃ schedule, ((Calls.begin W L n S (setCall list :: cs)).run schedule).calls[j + 1]? = some (.leaf r)) ↔
      ∃ schedule, ((Calls.begin W L n S [setCall list, c]).run schedule).calls[1]? = some (.leaf r) := by
  have hp : Pairs j (Calls.begin W L n S (setCall list :: cs)) (Calls.begin W L n S [setCall list, c]) := by
    refine ⟨rfl, rfl, ?_, ?_⟩
    · simp [Calls.begin, hj]
    · intro t x hx
      simp only [Calls.begin, List.map_cons, List.getElem?_cons_succ, List.getElem?_map, Option.map_eq_some_iff] at hx
      obtain ⟨a, ha, rfl⟩ := hx
      obtain ⟨h1, h2⟩ := hcs a (List.mem_of_getElem? ha)
      exact C122_reads W L n _ _ h1 h2
  constructor
  · rintro ⟨sch, h⟩
    exact ⟨_, by rw [← (pairs_run j sch _ _ hp).2.2.1]; exact h⟩
  · rintro ⟨sch, h⟩
    have hone : ∀ c : Calls, c.calls.length = 2 → ∀ sch : List Nat,
        c.run ((sch.map fun t => if t = 0 then 0 else if t = 1 then j + 1 else j + 2).filterMap (pairOf j)) = c.run sch ∧ (c.run sch).calls.length = 2 := by
      intro c hc sch
      induction sch generalizing c with
      | nil => exact ⟨rfl, hc⟩
      | cons t sch ih =>
        have hlen : (c.step t).calls.length = 2 := by
          unfold Calls.step
          split <;> simp [hc]
        have hrun : c.run (t :: sch) = (c.step t).run sch := rfl
        rw [List.map_cons, List.filterMap_cons, hrun]
        by_cases h0 : t = 0
        · subst h0
          simp only [if_pos, pairOf]
          exact ih _ hlen
        · by_cases h1 : t = 1
          · subst h1
            have : pairOf j (j + 1) = some 1 := by simp [pairOf]
            simp only [if_pos, if_neg h0, this]
            exact ih _ hlen
          · have : pairOf j (j + 2) = none := by simp [pairOf]
            have hst : c.step t = c := by
              unfold Calls.step
              rw [List.getElem?_eq_none (by omega)]
            simp only [if_neg h0, if_neg h1, this]
            rw [hst]
            exact ih c hc
    refine ⟨sch.map fun t => if t = 0 then 0 else if t = 1 then j + 1 else j + 2, ?_⟩
    rw [(pairs_run j _ _ _ hp).2.2.1, (hone _ (by simp [Calls.begin]) sch).1]
    exact h

/-! ### Seeds -/

/-- What a computation that looks up the words of `s` gives beside `SetWordList(list)`. -/
theorem beside_end (W : World) (L N : Nat) (S : WordState) (list : List Bytes) (f : Fn) (vs : List Val) (s : Bytes)
    (g : Outcome (Bytes × Option Err) → Res (List Val)) (hN : 0 < N)
    (hc : accRun W L N f vs = lookups (lookedUp s) [] fun got => .leaf (g (entropyLookups W.H got s))) (r : Res (List Val)) :
    (∃ schedule, ((Calls.begin W L N S [setCall list, (f, vs)]).run schedule).calls[1]? = some (.leaf r)) ↔
      ∃ times, Schedule list (lookedUp s).length times ∧ r = g (entropyScheduled W.H S list times s) := by
  obtain ⟨n, rfl⟩ := Nat.exists_eq_succ_of_ne_zero (Nat.pos_iff_ne_zero.1 hN)
  rw [beside_iff W L n S list (f, vs) (by dsimp only; rw [hc]; exact lookups_reads (fun got => g (entropyLookups W.H got s)) _ _)]
  dsimp only
  rw [hc]
  constructor
  · rintro ⟨times, h1, h2, h3⟩
    have hs := sorted_fit list times (lookedUp s).length h1 h2
    refine ⟨_, hs, ?_⟩
    have := lookups_fit (fun got => g (entropyLookups W.H got s)) r
      ((List.replicate (lookedUp s).length (writerSteps list)).map (writerState S list)) (lookedUp s) _ _ h3
    rw [← List.map_append, ← List.map_take,
      lookups_play (fun got => g (entropyLookups W.H got s)) _ _ _ (by rw [List.length_map]; exact hs.1), List.nil_append,
      entropy_seen _ _ _ (by rw [List.length_map, List.length_map]; exact hs.1)] at this
    rw [← Option.some.inj this]
    simp only [entropyScheduled, List.map_map, Function.comp_def]
  · rintro ⟨times, hs, rfl⟩
    refine ⟨times, hs.2.1, hs.2.2, ?_⟩
    rw [lookups_play (fun got => g (entropyLookups W.H got s)) _ _ _ (by rw [List.length_map]; exact hs.1), List.nil_append,
      entropy_seen _ _ _ (by rw [List.length_map, List.length_map]; exact hs.1)]
    simp only [entropyScheduled, List.map_map, Function.comp_def]

/-- **C122**, `MnemonicToByteArray`: beside the text of `SetWordList(list)`, its text gives exactly what the model makes of the results of
`EntropyFromMnemonic` under the schedules. -/
theorem C122_bytes (W : World) (L n : Nat) (hL : 32 < L) (S : WordState) (list : List Bytes) (m : Bytes) (raw : List Bool) (hm : m.length < 2 ^ 59)
    (r : Res (List Val)) :
    (∃ schedule, ((Calls.begin W L (n + 3) S [setCall list, (.bip39_MnemonicToByteArray, [.str m, .list (raw.map .bool)])]).run schedule).calls[1]? =
        some (.leaf r)) ↔
      ∃ times, Schedule list (lookedUp m).length times ∧ r = outcome (both .bytes) (bytesAfter W.H m raw (entropyScheduled W.H S list times m)) :=
  beside_end W L (n + 3) S list _ _ m (fun o => outcome (both .bytes) (bytesAfter W.H m raw o)) (by omega) (acc_MnemonicToByteArray W L hL n m raw hm) r

theorem racing_returns (H : Hashes) (ms : List (Bytes → Option Nat)) (m : Bytes) : ∃ x, entropyRacing H ms m = .ok x := by
  unfold entropyRacing
  rcases hsp : splitMnemonicWords m with ⟨ws, _ | _⟩
  · exact ⟨_, rfl⟩
  · have hlen : ws.length = 12 ∨ ws.length = 15 ∨ ws.length = 18 ∨ ws.length = 21 ∨ ws.length = 24 := by
      unfold splitMnemonicWords at hsp
      simp only at hsp
      split at hsp
      · simp at hsp
      · rename_i hc
        have : fields m = ws := by simpa using hsp
        rw [this] at hc
        omega
    dsimp only
    rcases decodeWordsRacing ms ws 0 with b | e
    · rcases hlen with h | h | h | h | h <;> simp only [h, checksumMask, checksumShift] <;> norm_num <;> split <;> exact ⟨_, _, rfl⟩
    · exact ⟨_, rfl⟩

/-- **C122**, the seed: whatever list is in force and whatever list is being set, the text of `NewSeedWithErrorChecking` returns the seed that `NewSeed`
gives for the sentence and the password, or no seed and the error of `EntropyFromMnemonic`; the schedule decides which of the two, and nothing else. -/
theorem C122_seed (W : World) (L n : Nat) (hL : 32 < L) (S : WordState) (list : List Bytes) (m p : Bytes) (hm : m.length < 2 ^ 59) (r : Res (List Val)) :
    (∃ schedule, ((Calls.begin W L (n + 4) S [setCall list, (.bip39_NewSeedWithErrorChecking, [.str m, .str p])]).run schedule).calls[1]? =
        some (.leaf r)) ↔
      ∃ times, Schedule list (lookedUp m).length times ∧
        ((∃ e, entropyScheduled W.H S list times m = .ok (e, none)) ∧ r = .ok [.bytes (newSeed W.H m p), .err none] ∨
          ∃ b e, entropyScheduled W.H S list times m = .ok (b, some e) ∧ r = .ok [.bytes [], .err (some e)]) := by
  refine (beside_end W L (n + 4) S list _ _ m (fun o => outcome (both .bytes) (seedAfter W.H m p o)) (by omega)
    (acc_NewSeedWithErrorChecking W L hL n m p hm) r).trans ?_
  refine exists_congr fun times => and_congr_right fun _ => ?_
  obtain ⟨⟨b, _ | e⟩, hx⟩ := racing_returns W.H (times.map fun t => (writerState S list t).map) m
  · have hx' : entropyScheduled W.H S list times m = .ok (b, none) := hx
    simp [hx', seedAfter, outcome, both]
  · have hx' : entropyScheduled W.H S list times m = .ok (b, some e) := hx
    simp [hx', seedAfter, outcome, both]

/-- **C122**, among many calls: `NewSeedWithErrorChecking`, beside one call of `SetWordList` and any number of calls of functions that do not write, returns
the seed of the sentence, or none and an error. -/
theorem C122_only_seed (W : World) (L n : Nat) (hL : 32 < L) (S : WordState) (list : List Bytes) (cs : List (Fn × List Val))
    (hcs : ∀ c ∈ cs, c.1 ≠ .bip39_SetWordList ∧ c.1 ≠ .bip39_init) (j : Nat) (m p : Bytes) (hm : m.length < 2 ^ 59)
    (hj : cs[j]? = some (.bip39_NewSeedWithErrorChecking, [.str m, .str p])) (schedule : List Nat) (r : Res (List Val))
    (h : ((Calls.begin W L (n + 4) S (setCall list :: cs)).run schedule).calls[j + 1]? = some (.leaf r)) :
    r = .ok [.bytes (newSeed W.H m p), .err none] ∨ ∃ e, r = .ok [.bytes [], .err (some e)] := by
  obtain ⟨times, -, h | ⟨b, e, -, h⟩⟩ := (C122_seed W L n hL S list m p hm r).1 ((C122_many W L (n + 4) S list cs hcs j _ hj r).1 ⟨schedule, h⟩)
  · exact .inl h.2
  · exact .inr ⟨e, h⟩

/-- **C122**, torn: while the list in force is set once more, the text of `NewSeedWithErrorChecking` can refuse the seed of every sentence it accepts before and
after. -/
theorem C122_torn (W : World) (L n : Nat) (hL : 32 < L) (l : List Bytes) (hg : GoodList l) (s p e : Bytes) (hs : s.length < 2 ^ 59)
    (h : entropyFromMnemonic W.H (setWordList l) s = .ok (e, none)) :
    ∃ schedule, ∃ w ∈ l, ((Calls.begin W L (n + 4) (setWordList l) [setCall l, (.bip39_NewSeedWithErrorChecking, [.str s, .str p])]).run schedule).calls[1]? =
      some (.leaf (.ok [.bytes [], .err (some (.unknownWord w))])) := by
  have hlook : lookedUp s = fields s := by
    unfold entropyFromMnemonic at h
    rcases hsp : splitMnemonicWords s with ⟨ws, _ | _⟩
    · simp [hsp] at h
    · have hl : lookedUp s = ws := by simp [lookedUp, hsp]
      rw [hl]
      unfold splitMnemonicWords at hsp
      dsimp only at hsp
      split at hsp
      · simp at hsp
      · exact (Prod.mk.inj hsp).1.symm
  obtain ⟨times, w, ht, hw, hr⟩ := C13_torn W.H l hg s e h
  obtain ⟨schedule, hx⟩ := (C122_seed W L n hL (setWordList l) l s p hs _).2 ⟨times, by rw [hlook]; exact ht, .inr ⟨_, _, hr, rfl⟩⟩
  exact ⟨schedule, w, hw, hx⟩

/-! ### In the runtime -/

/-- The calls that look words up, with those that do it through `EntropyFromMnemonic` (bip39/bip39.go:92-95, 115-165, 217-238, 242-249, 260-263,
util/util.go:47-53). -/
inductive Reader
  | look (q : Lookup)
  | bytes (m : Bytes) (raw : List Bool)
  | seed (m p : Bytes)
  | seedText (m p : Bytes)

/-- The call. -/
def Reader.call : Reader → Fn × List Val
  | .look q => q.call
  | .bytes m raw => (.bip39_MnemonicToByteArray, [.str m, .list (raw.map .bool)])
  | .seed m p => (.bip39_NewSeedWithErrorChecking, [.str m, .str p])
  | .seedText m p => (.util_DeriveSeedFromMnemonic, [.str m, .str p])

/-- The words it looks up as long as it finds them. -/
def Reader.words : Reader → List Bytes
  | .look q => q.words
  | .bytes m _ => lookedUp m
  | .seed m _ => lookedUp m
  | .seedText m _ => lookedUp m

/-- What it returns after these results. -/
def Reader.result (H : Hashes) : Reader → List (Option Nat) → Res (List Val)
  | .look q, got => q.result H got
  | .bytes m raw, got => outcome (both .bytes) (bytesAfter H m raw (entropyLookups H got m))
  | .seed m p, got => outcome (both .bytes) (seedAfter H m p (entropyLookups H got m))
  | .seedText m p, got => outcome (both .str) (seedTextAfter H m p (entropyLookups H got m))

/-- Its sentence is not longer than the lengths of strings go. -/
def Reader.fits : Reader → Prop
  | .look _ => True
  | .bytes m _ => m.length < 2 ^ 59
  | .seed m _ => m.length < 2 ^ 59
  | .seedText _ _ => True

theorem acc_reader (W : World) (L n : Nat) (hL : 32 < L) (q : Reader) (hq : q.fits) :
    accRun W L (n + 4) q.call.1 q.call.2 = lookups q.words [] fun got => .leaf (q.result W.H got) := by
  cases q with
  | look q => exact acc_lookup W L (n + 1) q
  | bytes m raw => exact acc_MnemonicToByteArray W L hL (n + 1) m raw hq
  | seed m p => exact acc_NewSeedWithErrorChecking W L hL n m p hq
  | seedText m p => exact acc_DeriveSeedFromMnemonic W L (n + 1) m p

/-- Calls of the text of `SetWordList`, followed by calls that look words up. -/
def seedRun (W : World) (L n : Nat) (S : WordState) (m : Nat) (args : List (List Bytes)) (readers : List Reader) : MapCalls :=
  MapCalls.begin W L n S m (args.map setCall ++ readers.map Reader.call)

/-- **C122**, in the runtime: any number of calls of the texts of `SetWordList` and of all functions that look words up go, schedule by schedule, through the
states of `MapFatal`; a reader has returned when it has in the model, with what its text makes of the lookups. -/
theorem C122_runtime (W : World) (L n : Nat) (hL : 32 < L) (S : WordState) (m : Nat) (args : List (List Bytes)) (readers : List Reader)
    (hr : ∀ q ∈ readers, q.fits) (schedule : List Nat) :
    ((seedRun W L (n + 4) S m args readers).run schedule).list = ((MapRun.begin S m args (readers.map Reader.words)).run schedule).list ∧
    ((seedRun W L (n + 4) S m args readers).run schedule).maps = ((MapRun.begin S m args (readers.map Reader.words)).run schedule).maps ∧
    ((seedRun W L (n + 4) S m args readers).run schedule).cur = ((MapRun.begin S m args (readers.map Reader.words)).run schedule).cur ∧
    ((seedRun W L (n + 4) S m args readers).run schedule).fatal = ((MapRun.begin S m args (readers.map Reader.words)).run schedule).fatal ∧
    ∀ (j : Nat) (q : Reader) (got : List (Option Nat)), readers[j]? = some q →
      ((MapRun.begin S m args (readers.map Reader.words)).run schedule).pcs[args.length + j]? = some (.reads [] got) →
      ((seedRun W L (n + 4) S m args readers).run schedule).calls[args.length + j]? = some (.at (.leaf (q.result W.H got))) := by
  let g : Nat → List (Option Nat) → Res (List Val) := fun t got => match readers[t - args.length]? with
    | some q => q.result W.H got
    | none => .stuck
  have hb : seedRun W L (n + 4) S m args readers = microRun g (MapRun.begin S m args (readers.map Reader.words)) := by
    simp only [seedRun, MapCalls.begin, microRun, MapRun.begin, MapCalls.mk.injEq, true_and, and_true]
    apply List.ext_getElem?
    intro t
    rw [List.getElem?_map, List.getElem?_mapIdx]
    by_cases ht : t < args.length
    · rw [List.getElem?_append_left (by simpa using ht), List.getElem?_append_left (by simpa using ht), List.getElem?_map, List.getElem?_map,
        List.getElem?_eq_getElem ht]
      simp only [Option.map_some, setCall, microTree, acc_SetWordList]
    · rw [List.getElem?_append_right (by simpa using ht), List.getElem?_append_right (by simpa using ht), List.getElem?_map, List.length_map,
        List.length_map, List.map_map, List.getElem?_map]
      rcases hq : readers[t - args.length]? with _ | q
      · rfl
      · simp only [Option.map_some, Function.comp_apply, microTree, acc_reader W L n hL q (hr q (List.mem_of_getElem? hq)), g, hq]
  rw [hb, microRun_run]
  refine ⟨rfl, rfl, rfl, rfl, ?_⟩
  intro j q got hj hp
  simp only [microRun, List.getElem?_mapIdx, hp, Option.map_some, microTree, lookups, g, Nat.add_sub_cancel_left, hj]

/-- **C122**, the fatal error: the text can end the program exactly if some call of `SetWordList` has words to insert, and another such call, or a call of
one of the six functions that looks something up, runs at the same time. -/
theorem C122_fatal_iff (W : World) (L n : Nat) (hL : 32 < L) (S : WordState) (m : Nat) (args : List (List Bytes)) (readers : List Reader)
    (hr : ∀ q ∈ readers, q.fits) :
    (∃ schedule, ((seedRun W L (n + 4) S m args readers).run schedule).fatal = true) ↔
      (∃ l ∈ args, l ≠ []) ∧ (2 ≤ args.length ∨ ∃ q ∈ readers, q.words ≠ []) := by
  have := C101_fatal_iff S m args (readers.map Reader.words)
  simp only [List.mem_map, exists_exists_and_eq_and] at this
  rw [← this]
  constructor
  · rintro ⟨schedule, h⟩
    exact ⟨schedule, (C122_runtime W L n hL S m args readers hr schedule).2.2.2.1 ▸ h⟩
  · rintro ⟨schedule, h⟩
    exact ⟨schedule, (C122_runtime W L n hL S m args readers hr schedule).2.2.2.1 ▸ h⟩

/-! ### Cases -/

/-- A sentence of English words for which `EntropyFromMnemonic` gives an entropy, whatever the hash function. -/
theorem english_sentence (H : Hashes) : ∃ s e : Bytes, s.length < 100 ∧ entropyFromMnemonic H (setWordList english.list) s = .ok (e, none) := by
  have hz : str "zoo" ∈ english.list := List.mem_of_getElem? english_first_last.2.1
  have h := C11_last_words H english_list_good (List.replicate 11 (str "zoo"))
    (by intro w hw; rw [(List.mem_replicate.1 hw).2]; exact hz) (by decide)
  have hpos : 0 < english.list.countP (fun w => isMnemonicValid H (setWordList english.list)
      ([32].intercalate (List.replicate 11 (str "zoo") ++ [w])) = .ok true) := by rw [h]; decide
  obtain ⟨w, hw, hv⟩ := List.countP_pos_iff.1 hpos
  have hlen : w.length ≤ 8 := by
    rw [english_list] at hw
    obtain ⟨n, hn, rfl⟩ := List.mem_map.1 hw
    have hall : (Data.English.codes.all fun n => decide ((codeWord n).length ≤ 8)) = true := by decide +kernel
    simpa using List.all_eq_true.1 hall n hn
  have hv := of_decide_eq_true hv
  unfold isMnemonicValid at hv
  rcases he : entropyFromMnemonic H (setWordList english.list) ([32].intercalate (List.replicate 11 (str "zoo") ++ [w])) with ⟨e, _ | er⟩ | _
  · refine ⟨_, e, ?_, he⟩
    have h3 : (str "zoo").length = 3 := by decide +kernel
    simp only [List.replicate_succ, List.replicate_zero, List.cons_append, List.nil_append, List.intercalate, List.intersperse, List.flatten_cons, List.flatten_nil,
      List.length_append, h3, List.length_cons, List.length_nil]
    omega
  · rw [he] at hv; simp at hv
  · rw [he] at hv; simp at hv

/-- The English list is set again beside two calls that ask for the seed of a valid sentence, and one that makes a sentence: the second can be told that there
is no such word, and can get the seed. -/
example (W : World) (p : Bytes) : ∃ s : Bytes, ∃ er, ∀ r ∈ [Res.ok [.bytes [], .err (some er)], .ok [.bytes (newSeed W.H s p), .err none]],
    ∃ schedule, ((Calls.begin W 64 4 (setWordList english.list) [setCall english.list, (.bip39_NewSeedWithErrorChecking, [.str s, .str p]),
        (.bip39_NewSeedWithErrorChecking, [.str s, .str p]), (.bip39_NewMnemonic, [.bytes (List.replicate 16 0)])]).run schedule).calls[2]? =
      some (.leaf r) := by
  obtain ⟨s, e, hs, h⟩ := english_sentence W.H
  obtain ⟨sch, w, hw, hx⟩ := C122_torn W 64 0 (by norm_num) english.list english_list_good s p e (by omega) h
  refine ⟨s, .unknownWord w, fun r hr => ?_⟩
  refine (C122_many W 64 4 _ english.list [(.bip39_NewSeedWithErrorChecking, [.str s, .str p]),
    (.bip39_NewSeedWithErrorChecking, [.str s, .str p]), (.bip39_NewMnemonic, [.bytes (List.replicate 16 0)])] (by simp) 1 _ rfl _).2 ?_
  simp only [List.mem_cons, List.not_mem_nil, or_false] at hr
  rcases hr with rfl | rfl
  · exact ⟨sch, hx⟩
  · refine (C122_seed W 64 0 (by norm_num) _ _ s p (by omega) _).2 ⟨List.replicate (lookedUp s).length 0, ⟨by simp, ?_, ?_⟩, .inl ⟨⟨e, ?_⟩, rfl⟩⟩
    · exact List.pairwise_replicate.2 (.inr (le_refl _))
    · intro t ht
      rw [List.eq_of_mem_replicate ht]
      exact Nat.zero_le _
    · have hf : lookedUp s = fields s := by
        unfold entropyFromMnemonic at h
        rcases hsp : splitMnemonicWords s with ⟨ws, _ | _⟩
        · simp [hsp] at h
        · have hl : lookedUp s = ws := by simp [lookedUp, hsp]
          rw [hl]
          unfold splitMnemonicWords at hsp
          dsimp only at hsp
          split at hsp
          · simp at hsp
          · exact (Prod.mk.inj hsp).1.symm
      rw [← h, hf]
      refine (C13_consistent_partial W.H (setWordList english.list) english.list s _ ⟨by simp, List.pairwise_replicate.2 (.inr (le_refl _)), ?_⟩).1 ?_
      · intro t ht
        rw [List.eq_of_mem_replicate ht]
        exact Nat.zero_le _
      · intro t ht
        rw [List.eq_of_mem_replicate ht]
        exact Nat.zero_le _

/-- A call of `SetWordList` beside one of `NewSeedWithErrorChecking` for a sentence of twelve words can end the program. -/
example (W : World) (S : WordState) (p : Bytes) :
    ∃ schedule, ((seedRun W 64 4 S 2048 [[str "b"]] [.seed (str "a a a a a a a a a a a a") p]).run schedule).fatal = true := by
  have h1 : (str "a a a a a a a a a a a a").length = 23 := by decide +kernel
  have h2 : lookedUp (str "a a a a a a a a a a a a") ≠ [] := by decide +kernel
  refine (C122_fatal_iff W 64 0 (by norm_num) S 2048 _ _ ?_).2 ⟨⟨_, List.mem_singleton.2 rfl, by simp⟩, .inr ⟨_, List.mem_singleton.2 rfl, h2⟩⟩
  intro q hq
  rw [List.mem_singleton.1 hq]
  simp only [Reader.fits, h1]
  norm_num

end Bips
