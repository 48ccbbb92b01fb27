import Verif.Model.Util
import Verif.Props.Path
import Verif.Props.Tree

/-!
# Lemmas on the derivation loops of package util
-/

namespace Bips
open Spec

/-- The text the loops append for a list of values. -/
def compsText (vs : List UInt32) : Bytes := (vs.map printComp).flatMap Comp.text

theorem compsText_append (vs ws : List UInt32) : compsText (vs ++ ws) = compsText vs ++ compsText ws := by
  simp [compsText]

theorem canonicalPath_compsText (vs : List UInt32) : canonicalPath vs = str "m" ++ compsText vs := canonicalPath_eq vs

theorem appendComponent_eq (d : Bytes) (v : UInt32) : appendComponent d v = d ++ compsText [v] := by
  have h : (v % firstHardenedChild).toNat = v.toNat ∨ v ≥ firstHardenedChild := by
    by_cases h : v ≥ firstHardenedChild
    · exact .inr h
    · left
      have h' : ¬ 2 ^ 31 ≤ v.toNat := h
      rw [UInt32.toNat_mod, hard_toNat, Nat.mod_eq_of_lt (by omega)]
  rw [compsText, List.map_singleton, List.flatMap_singleton, comp_text_eq, ← replaceText_eq, appendComponent]
  by_cases hv : v ≥ firstHardenedChild
  · rw [if_pos hv, if_pos hv]; simp
  · rw [if_neg hv, if_neg hv, h.resolve_right hv]; simp

theorem stripSpace_append (a b : Bytes) : stripSpace (a ++ b) = stripSpace a ++ stripSpace b := by
  simp [stripSpace]

theorem stripSpace_compsText (vs : List UInt32) : stripSpace (compsText vs) = compsText vs := by
  induction vs with
  | nil => rfl
  | cons v vs ih =>
    have h1 : PathText (str "m" ++ (printComp v).text) [printComp v] := by
      refine ⟨.inl (by simp), by simpa using printComp_numeral v, ?_⟩
      cases h : (printComp v).hardened
      · exact ⟨0, 1, by simp [h]⟩
      · exact ⟨1, 0, by simp [h]⟩
    have h2 := stripSpace_of_pathText h1
    rw [stripSpace_append, show stripSpace (str "m") = str "m" by decide] at h2
    have h3 := List.append_cancel_left h2
    rw [show compsText (v :: vs) = (printComp v).text ++ compsText vs by simp [compsText], stripSpace_append, ih, h3]

/-- `j` steps of `NewChildKey`, errors ignored. -/
def blindSteps (H : Hashes) (R : Registry) (k : Key) (vs : List UInt32) : Key :=
  vs.foldl (fun k i => (k.newChildKey H R i).1) k

theorem deriveLoop_eq (H : Hashes) (R : Registry) (vs : List UInt32) (d : Bytes) (k : Key) (hd : stripSpace d = d) :
    deriveLoop H R vs d k = (List.range vs.length).map fun j =>
      ⟨d ++ compsText (vs.take (j + 1)), blindSteps H R k (vs.take (j + 1))⟩ := by
  induction vs generalizing d k with
  | nil => rfl
  | cons v vs ih =>
    rw [deriveLoop]
    rw [appendComponent_eq, pathFormatted, pathString_eq, stripSpace_append, hd, stripSpace_compsText,
      ih _ _ (by rw [stripSpace_append, hd, stripSpace_compsText]), List.length_cons, List.range_succ_eq_map,
      List.map_cons, List.map_map]
    congr 1
    apply List.map_congr_left
    intro j _
    have : compsText (v :: vs.take (j + 1)) = compsText [v] ++ compsText (vs.take (j + 1)) :=
      compsText_append [v] _
    simp only [Function.comp, List.take_succ_cons, this, List.append_assoc, KeyPath.mk.injEq, true_and]
    rfl

/-- The indices `i, i+1, …, e-1`. -/
def indices (i e : UInt32) : List UInt32 := (List.range (e.toNat - i.toNat)).map fun j => i + UInt32.ofNat j

theorem rangeLoop_eq (H : Hashes) (R : Registry) (i e : UInt32) (d : Bytes) (k : Key) :
    rangeLoop H R i e d k = deriveLoop H R (indices i e) d k := by
  induction hn : e.toNat - i.toNat generalizing i d k with
  | zero =>
    have : ¬ i < e := by rw [UInt32.lt_iff_toNat_lt]; omega
    rw [rangeLoop, dif_neg this, indices, hn]
    rfl
  | succ n ih =>
    have hlt : i < e := by rw [UInt32.lt_iff_toNat_lt]; omega
    have h1 : (i + 1).toNat = i.toNat + 1 := by
      have := e.toNat_lt
      rw [UInt32.toNat_add, show (1 : UInt32).toNat = 1 from rfl, Nat.mod_eq_of_lt (by omega)]
    have h2 : indices i e = i :: indices (i + 1) e := by
      rw [indices, hn, List.range_succ_eq_map, List.map_cons, List.map_map, indices,
        show e.toNat - (i + 1).toNat = n by omega]
      congr 1
      · simp
      · apply List.map_congr_left
        intro j _
        simp only [Function.comp]
        rw [Nat.succ_eq_add_one, UInt32.ofNat_add, UInt32.add_assoc, UInt32.add_comm (UInt32.ofNat j)]
        rfl
    rw [rangeLoop, dif_pos hlt, h2, deriveLoop]
    dsimp only
    rw [ih (i + 1) _ _ (by omega)]

theorem indices_length (i e : UInt32) : (indices i e).length = e.toNat - i.toNat := by simp [indices]

theorem indices_get (i e : UInt32) (j : Nat) (h : j < e.toNat - i.toNat) :
    ∃ v, (indices i e)[j]? = some v ∧ v.toNat = i.toNat + j := by
  refine ⟨i + UInt32.ofNat j, by simp [indices, h], ?_⟩
  have := e.toNat_lt
  rw [UInt32.toNat_add, UInt32.toNat_ofNat', Nat.mod_eq_of_lt (a := j) (by omega), Nat.mod_eq_of_lt (by omega)]

theorem blindSteps_of_deriveAll {H : Hashes} {R : Registry} {k k' : Key} {vs : List UInt32}
    (h : deriveAll (Key.newChildKey H R) k vs = some k') : blindSteps H R k vs = k' := by
  induction vs generalizing k with
  | nil => simpa [deriveAll, blindSteps] using h
  | cons v vs ih =>
    obtain ⟨c, h1, h2⟩ := deriveAll_cons.1 h
    have := ih h2
    rw [blindSteps, List.foldl_cons, h1]
    exact this

/-- The printed text is a valid path exactly when hardened values come first. -/
theorem pathIsValid_canonical_iff (vs : List UInt32) :
    pathIsValid (canonicalPath vs) = true ↔ HardenedFirst (vs.map fun v => decide (2 ^ 31 ≤ v.toNat)) := by
  constructor
  · intro h
    obtain ⟨cs, hcs, -⟩ := (pathIsValid_iff _).1 h
    rw [canonicalPath_compsText, stripSpace_append, stripSpace_compsText,
      show stripSpace (str "m") = str "m" by decide] at hcs
    have hnum : ∀ c ∈ vs.map printComp, IsNumeral c.digits := by
      intro c hc
      obtain ⟨v, -, rfl⟩ := List.mem_map.1 hc
      exact printComp_numeral v
    obtain ⟨w, -, -, e⟩ := splitByte_pathText hcs
    have e' := splitByte_comps (str "m") (by decide) (vs.map printComp) hnum
    have := compBody_map_inj _ _ hcs.2.1 hnum (List.cons.inj (e.symm.trans e')).2
    subst this
    obtain ⟨j, k, hjk⟩ := hcs.2.2
    refine ⟨j, k, ?_⟩
    rw [← hjk, List.map_map]
    apply List.map_congr_left
    intro v _
    exact (printComp_hardened v).symm
  · intro h
    exact (C41_print_parse vs h).1

theorem hardenedFirst_take {l : List Bool} (h : HardenedFirst l) (j : Nat) : HardenedFirst (l.take j) := by
  obtain ⟨a, b, rfl⟩ := h
  rw [List.take_append, List.take_replicate, List.take_replicate]
  exact ⟨_, _, rfl⟩

end Bips
