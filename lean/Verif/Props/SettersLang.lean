import Verif.Props.WordSetters
import Verif.Props.Lang

/-!
# C83 for the shipped lists
-/

namespace Bips
open Spec

/-- **C83** for the lists of the package: setting any of them concurrently is harmless in the end unless both English and French
are among them. -/
theorem C83_shipped (H : Hashes) (S : WordState) (langs : List Lang) (hne : langs ≠ []) :
    (∀ schedule, ((Setters.begin S (langs.map fun a => a.file.list)).run schedule).finished → ∀ e, e.length ∈ entropySizes →
      ∃ m, newMnemonic H ((Setters.begin S (langs.map fun a => a.file.list)).run schedule).state e = .ok (m, none) ∧
        entropyFromMnemonic H ((Setters.begin S (langs.map fun a => a.file.list)).run schedule).state m = .ok (e, none)) ↔
    ¬ (Lang.english ∈ langs ∧ Lang.french ∈ langs) := by
  rw [C83_safe_iff H S (langs.map fun a => a.file.list) (by simpa using hne) (by
    intro l hl
    obtain ⟨a, -, rfl⟩ := List.mem_map.1 hl
    exact a.good)]
  constructor
  · rintro h ⟨he, hf⟩
    have h1 : Lang.english.file.list[70]? = some (str "angle") :=
      (Lang.getElem?_list .english 70 _).2 ⟨setBytes (str "angle"), by decide +kernel, by decide +kernel⟩
    have h2 : Lang.french.file.list[107]? = some (str "angle") :=
      (Lang.getElem?_list .french 107 _).2 ⟨setBytes (str "angle"), by decide +kernel, by decide +kernel⟩
    have := h _ (List.mem_map_of_mem he) _ (List.mem_map_of_mem hf) 70 107 _ h1 h2
    omega
  · intro hno l hl l' hl' i j w hi hj
    obtain ⟨a, ha, rfl⟩ := List.mem_map.1 hl
    obtain ⟨b, hb, rfl⟩ := List.mem_map.1 hl'
    by_cases hab : a = b
    · subst hab
      have := (setWordList_map_nodup a.good.nodup w i).2 hi
      rw [(setWordList_map_nodup a.good.nodup w j).2 hj] at this
      exact (Option.some.inj this).symm
    · by_cases hs : (a, b) ∈ Lang.sharing
      · simp only [Lang.sharing, List.mem_cons, List.not_mem_nil, or_false, Prod.mk.injEq] at hs
        rcases hs with ⟨rfl, rfl⟩ | ⟨rfl, rfl⟩ | ⟨rfl, rfl⟩ | ⟨rfl, rfl⟩
        · exact Lang.chinese_aligned i j w hi hj
        · exact (Lang.chinese_aligned j i w hj hi).symm
        · exact absurd ⟨ha, hb⟩ hno
        · exact absurd ⟨hb, ha⟩ hno
      · exact absurd (List.mem_of_getElem? hj) (Lang.list_disjoint a b hab hs w (List.mem_of_getElem? hi))

/-- English and French set at the same time: some interleaving leaves the package unable to read what it writes. -/
example (H : Hashes) (S : WordState) :
    ∃ schedule e, ((Setters.begin S [Lang.english.file.list, Lang.french.file.list]).run schedule).finished ∧ e.length ∈ entropySizes ∧
      ¬ ∃ m, newMnemonic H ((Setters.begin S [Lang.english.file.list, Lang.french.file.list]).run schedule).state e = .ok (m, none) ∧
        entropyFromMnemonic H ((Setters.begin S [Lang.english.file.list, Lang.french.file.list]).run schedule).state m = .ok (e, none) := by
  have := (not_congr (C83_shipped H S [.english, .french] (by simp))).2 (by simp)
  push Not at this
  obtain ⟨sch, h1, e, h2, h3⟩ := this
  exact ⟨sch, e, h1, h2, by push Not; exact h3⟩

/-- All other lists at the same time: harmless. -/
example (H : Hashes) (S : WordState) := (C83_shipped H S [.chineseSimplified, .chineseTraditional, .czech, .english, .italian,
  .japanese, .korean, .portuguese, .spanish] (by simp)).2 (by simp)

/-- Finished executions exist: the calls one after the other. -/
theorem setters_finish (S : WordState) (args : List (List Bytes)) : ∃ schedule, ((Setters.begin S args).run schedule).finished := by
  have hp : ∀ t : Nat, (Setters.begin S args).pcs[t]? = (args[t]?).map SetterPc.start := fun t => by simp [Setters.begin]
  obtain ⟨sch, h, -⟩ := Setters.run_others (Setters.begin S args) (List.range args.length) (fun t ht => by
    have : t < args.length := by simpa using ht
    exact ⟨args[t], by rw [hp, List.getElem?_eq_getElem this]; rfl⟩) List.nodup_range
  refine ⟨sch, fun p hp => ?_⟩
  obtain ⟨t, ht⟩ := List.getElem?_of_mem hp
  have hlen : ((Setters.begin S args).run sch).pcs.length = args.length := by rw [Setters.run_length]; simp [Setters.begin]
  have hlt : t < args.length := by rw [← hlen]; exact (List.getElem?_eq_some_iff.1 ht).1
  rw [h t (by simpa using hlt)] at ht
  exact (Option.some.inj ht).symm

end Bips
