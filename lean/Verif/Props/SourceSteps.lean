import Verif.Src.Steps
import Verif.Props.SourceSafe

/-!
# C126: every call ends after a bounded number of its own steps

No call waits for another: it ends after so many steps of its own, whatever the others do and however often they go on in between.
-/

namespace Bips

open Src Spec

section
variable (W : World) (L n : Nat) (S : WordState) (cs : List (Fn × List Val)) (hcs : Usual cs)
include hcs

theorem usual_safe (c : Fn × List Val) (hc : c ∈ cs) : (accRun W L (n + 1) c.1 c.2).safe (InForce S cs) (fun _ _ => True) fun _ => True := by
  rcases hcs c hc with ⟨l, rfl⟩ | ⟨h1, h2⟩
  · unfold setCall
    dsimp only
    rw [acc_SetWordList]
    exact ⟨.inr hc, fun l' _ => inserts_safe (t := .leaf (.ok [])) (P := fun _ => True) trivial _ _ fun _ _ _ => trivial⟩
  · exact reads_safe (C122_reads W L (n + 1) c.1 c.2 h1 h2)

/-- A call whose accesses are bounded ends. -/
theorem ends_within (i : Nat) (c : Fn × List Val) (hi : cs[i]? = some c) (N : Nat) (hw : (accRun W L (n + 1) c.1 c.2).within (InForce S cs) N) (m : Nat)
    (schedule : List Nat) :
    (N ≤ schedule.count i → ∃ r, ((Calls.begin W L (n + 1) S cs).run schedule).calls[i]? = some (.leaf r)) ∧
      (6 * N ≤ schedule.count i → ((MapCalls.begin W L (n + 1) S m cs).run schedule).fatal = true ∨
        ∃ r, ((MapCalls.begin W L (n + 1) S m cs).run schedule).calls[i]? = some (.at (.leaf r))) := by
  constructor
  · intro hN
    refine within_run (A := InForce S cs) (M := fun _ _ => True) (P := fun _ _ => True) i schedule _ N _ ?_ ?_ hw hN
    · refine ⟨.inl rfl, fun _ _ _ => trivial, fun t x hx => ?_⟩
      simp only [Calls.begin, List.getElem?_map, Option.map_eq_some_iff] at hx
      obtain ⟨y, hy, rfl⟩ := hx
      exact usual_safe W L n S cs hcs y (List.mem_of_getElem? hy)
    · simp [Calls.begin, hi]
  · intro hN
    refine left_run (A := InForce S cs) (M := fun _ _ => True) (P := fun _ _ => True) (fun _ => trivial) i schedule _ (6 * N) _ ?_ ?_
      (left_at hw (le_refl _)) hN
    · refine ⟨.inl rfl, fun _ _ _ _ => trivial, fun t x hx => ?_⟩
      simp only [MapCalls.begin, List.getElem?_map, Option.map_eq_some_iff] at hx
      obtain ⟨y, hy, rfl⟩ := hx
      exact usual_safe W L n S cs hcs y (List.mem_of_getElem? hy)
    · simp [MapCalls.begin, hi]

end

theorem lookedUp_length (s : Bytes) : (lookedUp s).length ≤ 24 := by
  unfold lookedUp
  rw [splitMnemonicWords_eq]
  split
  · rename_i ws h
    split at h
    · rename_i hm
      obtain ⟨rfl, -⟩ := Prod.mk.inj h
      obtain ⟨k, hk, -, hk2⟩ := (sentenceLengths_iff _).1 hm
      omega
    · cases h
  · simp

theorem words_length (q : Reader) : q.words.length ≤ 24 := by
  cases q with
  | look q =>
    cases q with
    | index w => simp [Reader.words, Lookup.words]
    | entropy s => exact lookedUp_length s
    | valid s => exact lookedUp_length s
  | bytes m raw => exact lookedUp_length m
  | seed m p => exact lookedUp_length m
  | seedText m p => exact lookedUp_length m

theorem sentenceOf_le (e : Bytes) : sentenceOf e ≤ 24 := by
  unfold sentenceOf
  split
  · omega
  · rename_i h
    obtain ⟨k, hk, -, hk2⟩ := (entropySizes_iff _).1 ((validate_none_iff e.length).1 h)
    omega

section
variable (W : World) (L n : Nat) (S : WordState) (cs : List (Fn × List Val)) (hcs : Usual cs) (i m : Nat) (schedule : List Nat)
include hcs

/-- **C126**, reading: a call of `GetWordIndex`, `EntropyFromMnemonic`, `IsMnemonicValid`, `MnemonicToByteArray`, `NewSeedWithErrorChecking` or
`DeriveSeedFromMnemonic` has returned after 24 steps of its own; with an access to the map as up to six steps, after 144, or the program has ended with a
fatal error. -/
theorem C126_reader (hL : 32 < L) (q : Reader) (hq : q.fits) (hi : cs[i]? = some q.call) :
    (24 ≤ schedule.count i → ∃ r, ((Calls.begin W L (n + 4) S cs).run schedule).calls[i]? = some (.leaf r)) ∧
      (144 ≤ schedule.count i → ((MapCalls.begin W L (n + 4) S m cs).run schedule).fatal = true ∨
        ∃ r, ((MapCalls.begin W L (n + 4) S m cs).run schedule).calls[i]? = some (.at (.leaf r))) := by
  refine ends_within W L (n + 3) S cs hcs i _ hi 24 ?_ m schedule
  rw [acc_reader W L n hL q hq]
  exact within_mono (words_length q) (lookups_within _ _ _)

/-- **C126**, making sentences: the same of `NewMnemonic`. -/
theorem C126_mnemonic (hL : 32 < L) (e : Bytes) (he : e.length < 2 ^ 59) (hi : cs[i]? = some (.bip39_NewMnemonic, [.bytes e])) :
    (24 ≤ schedule.count i → ∃ r, ((Calls.begin W L (n + 3) S cs).run schedule).calls[i]? = some (.leaf r)) ∧
      (144 ≤ schedule.count i → ((MapCalls.begin W L (n + 3) S m cs).run schedule).fatal = true ∨
        ∃ r, ((MapCalls.begin W L (n + 3) S m cs).run schedule).calls[i]? = some (.at (.leaf r))) := by
  refine ends_within W L (n + 2) S cs hcs i _ hi 24 ?_ m schedule
  rw [acc_NewMnemonic W L hL n e he]
  exact within_mono (sentenceOf_le e) (picks_within _ _ _ _)

/-- **C126**, generating: the same of `GenerateMnemonic`. -/
theorem C126_generate (hL : 32 < L) (hread : ∀ n, (W.read n).length = n) (c : UInt8) (hi : cs[i]? = some (.util_GenerateMnemonic, [.u8 c])) :
    (24 ≤ schedule.count i → ∃ r, ((Calls.begin W L (n + 4) S cs).run schedule).calls[i]? = some (.leaf r)) ∧
      (144 ≤ schedule.count i → ((MapCalls.begin W L (n + 4) S m cs).run schedule).fatal = true ∨
        ∃ r, ((MapCalls.begin W L (n + 4) S m cs).run schedule).calls[i]? = some (.at (.leaf r))) := by
  refine ends_within W L (n + 3) S cs hcs i _ hi 24 ?_ m schedule
  rw [acc_GenerateMnemonic W L hL hread n c]
  split
  · trivial
  · exact within_mono (sentenceOf_le _) (picks_within _ _ _ _)

/-- **C126**, the list in force: `GetWordList` has returned after one step of its own, or after six. -/
theorem C126_list (hi : cs[i]? = some (.bip39_GetWordList, [])) :
    (1 ≤ schedule.count i → ∃ r, ((Calls.begin W L (n + 1) S cs).run schedule).calls[i]? = some (.leaf r)) ∧
      (6 ≤ schedule.count i → ((MapCalls.begin W L (n + 1) S m cs).run schedule).fatal = true ∨
        ∃ r, ((MapCalls.begin W L (n + 1) S m cs).run schedule).calls[i]? = some (.at (.leaf r))) := by
  refine ends_within W L n S cs hcs i _ hi 1 ?_ m schedule
  rw [acc_GetWordList]
  exact ⟨0, rfl, fun _ _ => trivial⟩

/-- **C126**, setting the list: when no list that can come into force is longer than `B`, a call of `SetWordList` has returned after `B + 3` steps of its own. -/
theorem C126_set (B : Nat) (hB : ∀ l, InForce S cs l → l.length ≤ B) (l : List Bytes) (hi : cs[i]? = some (setCall l)) :
    (B + 3 ≤ schedule.count i → ∃ r, ((Calls.begin W L (n + 1) S cs).run schedule).calls[i]? = some (.leaf r)) ∧
      (6 * (B + 3) ≤ schedule.count i → ((MapCalls.begin W L (n + 1) S m cs).run schedule).fatal = true ∨
        ∃ r, ((MapCalls.begin W L (n + 1) S m cs).run schedule).calls[i]? = some (.at (.leaf r))) := by
  refine ends_within W L n S cs hcs i _ hi (B + 3) ?_ m schedule
  unfold setCall
  dsimp only
  rw [acc_SetWordList]
  exact ⟨B + 2, rfl, B + 1, rfl, B, rfl, fun l' hl' => within_mono (hB l' hl') (inserts_within _ _ _)⟩

/-- **C126**, the seed is there in the end: after 24 steps of its own, whatever the others do, `NewSeedWithErrorChecking` has returned the seed of the sentence
and the password, or no seed and an error. -/
theorem C126_seed (hS : ∀ w j, S.map w = some j → S.list[j]? = some w) (hL : 32 < L) (s p : Bytes) (hs : s.length < 2 ^ 59)
    (hi : cs[i]? = some (.bip39_NewSeedWithErrorChecking, [.str s, .str p])) (h : 24 ≤ schedule.count i) :
    ((Calls.begin W L (n + 4) S cs).run schedule).calls[i]? = some (.leaf (.ok [.bytes (newSeed W.H s p), .err none])) ∨
      ∃ e, ((Calls.begin W L (n + 4) S cs).run schedule).calls[i]? = some (.leaf (.ok [.bytes [], .err (some e)])) := by
  obtain ⟨r, hr⟩ := (C126_reader W L n S cs hcs i 0 schedule hL (.seed s p) hs hi).1 h
  rcases C125_seed W L n S hS 0 cs hcs i r hL s p hs hi (.inl ⟨schedule, hr⟩) with rfl | ⟨e, rfl⟩
  · exact .inl hr
  · exact .inr ⟨e, hr⟩

end

theorem lookups_exact (S : WordState) (g : List (Option Nat) → Res (List Val)) (schedule : List Nat) : ∀ (ws : List Bytes) (got : List (Option Nat)),
    (∀ w ∈ ws, S.map w ≠ none) →
      ((∃ r, (Calls.run ⟨S, [lookups ws got fun got => .leaf (g got)]⟩ schedule).calls[0]? = some (.leaf r)) ↔ ws.length ≤ schedule.count 0) := by
  induction schedule with
  | nil =>
    intro ws got _
    cases ws with
    | nil => simp [Calls.run, lookups]
    | cons w ws => simp [Calls.run, lookups]
  | cons t ts ih =>
    intro ws got h
    have hrun : ∀ c : Calls, c.run (t :: ts) = (c.step t).run ts := fun _ => rfl
    rw [hrun]
    by_cases ht : t = 0
    · subst ht
      rw [List.count_cons_self]
      cases ws with
      | nil =>
        have := ih [] got (by simp)
        simp only [lookups, List.length_nil, Nat.zero_le, iff_true] at this ⊢
        exact this
      | cons w ws =>
        obtain ⟨j, hj⟩ := Option.ne_none_iff_exists'.1 (h w List.mem_cons_self)
        have := ih ws (got ++ [some j]) fun w' hw' => h w' (List.mem_cons_of_mem _ hw')
        have hstep : Calls.step ⟨S, [lookups (w :: ws) got fun got => .leaf (g got)]⟩ 0 = ⟨S, [lookups ws (got ++ [some j]) fun got => .leaf (g got)]⟩ := by
          simp [Calls.step, lookups, hj]
        rw [hstep, this, List.length_cons]
        omega
    · rw [List.count_cons_of_ne ht]
      have hstep : Calls.step ⟨S, [lookups ws got fun got => .leaf (g got)]⟩ t = ⟨S, [lookups ws got fun got => .leaf (g got)]⟩ := by
        obtain ⟨t, rfl⟩ := Nat.exists_eq_succ_of_ne_zero ht
        simp [Calls.step]
      rw [hstep]
      exact ih ws got h

/-- **C126**, the bound is reached: alone, a call that looks up words that are all in the map has returned exactly when it has made one access for each word;
of a sentence of 24 words, after 24 and not before. -/
theorem C126_exact (W : World) (L n : Nat) (S : WordState) (hL : 32 < L) (q : Reader) (hq : q.fits) (hw : ∀ w ∈ q.words, S.map w ≠ none) (schedule : List Nat) :
    (∃ r, ((Calls.begin W L (n + 4) S [q.call]).run schedule).calls[0]? = some (.leaf r)) ↔ q.words.length ≤ schedule.count 0 := by
  unfold Calls.begin
  simp only [List.map_cons, List.map_nil]
  rw [acc_reader W L n hL q hq]
  exact lookups_exact S _ schedule q.words [] hw

/-! ### Cases -/

/-- Twenty-four words, under a map that has every word: 24 accesses, not 23. -/
example (W : World) (l : List Bytes) (q : Reader) (hq : q = .look (.entropy (str
      "zoo zoo zoo zoo zoo zoo zoo zoo zoo zoo zoo zoo zoo zoo zoo zoo zoo zoo zoo zoo zoo zoo zoo vote"))) :
    (∃ r, ((Calls.begin W 64 4 ⟨l, fun _ => some 0⟩ [q.call]).run (List.replicate 24 0)).calls[0]? = some (.leaf r)) ∧
      ¬ ∃ r, ((Calls.begin W 64 4 ⟨l, fun _ => some 0⟩ [q.call]).run (List.replicate 23 0)).calls[0]? = some (.leaf r) := by
  have hf : q.fits := by subst hq; trivial
  have h24 : q.words.length = 24 := by subst hq; decide +kernel
  rw [C126_exact W 64 0 _ (by norm_num) _ hf (by simp), C126_exact W 64 0 _ (by norm_num) _ hf (by simp), h24]
  simp

/-- The bound for `SetWordList` is met: alone it has not returned one step before. -/
example (W : World) (a : Bytes) (S : WordState) :
    (∃ r, ((Calls.begin W 64 1 S [setCall [a]]).run [0, 0, 0, 0]).calls[0]? = some (.leaf r)) ∧
      ¬ ∃ r, ((Calls.begin W 64 1 S [setCall [a]]).run [0, 0, 0]).calls[0]? = some (.leaf r) := by
  unfold Calls.begin setCall
  simp only [List.map_cons, List.map_nil]
  rw [show ([Val.str a] : List Val) = [a].map .str from rfl, acc_SetWordList]
  simp [Calls.run, Calls.step, inserts]

/-- Four calls; the seed is asked for by the last. -/
example (W : World) (a b : List Bytes) (p : Bytes) (schedule : List Nat) (h : 24 ≤ schedule.count 3) :=
  C126_seed W 64 0 ⟨[], fun _ => none⟩ [setCall a, setCall b, (.bip39_GetWordList, []),
      (.bip39_NewSeedWithErrorChecking, [.str (str "zoo zoo zoo zoo zoo zoo zoo zoo zoo zoo zoo wrong"), .str p])]
    (by
      intro c hc
      simp only [List.mem_cons, List.not_mem_nil, or_false] at hc
      rcases hc with rfl | rfl | rfl | rfl
      · exact .inl ⟨_, rfl⟩
      · exact .inl ⟨_, rfl⟩
      · exact .inr ⟨by simp, by simp⟩
      · exact .inr ⟨by simp, by simp⟩) 3 schedule (by simp) (by norm_num) (str "zoo zoo zoo zoo zoo zoo zoo zoo zoo zoo zoo wrong") p (by
    have : (str "zoo zoo zoo zoo zoo zoo zoo zoo zoo zoo zoo wrong").length = 49 := by decide +kernel
    omega) rfl h

end Bips
