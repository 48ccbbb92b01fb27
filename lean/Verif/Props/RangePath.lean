import Verif.Props.Derive

/-!
# C102: a range continues the derivation its base came from

`GenerateRange` from an entry of `DeriveBIP32Result` gives entries whose labels name the keys beside them: deriving from
the root along the label of entry `q` gives the base's own derivation followed by the range's first `q + 1` entries. This
holds exactly when the label has its hardened components first; otherwise the label is rejected.
-/

namespace Bips
open Spec

theorem blindSteps_append (H : Hashes) (R : Registry) (k : Key) (vs ws : List UInt32) :
    blindSteps H R k (vs ++ ws) = blindSteps H R (blindSteps H R k vs) ws := by
  simp [blindSteps]

theorem stripSpace_canonicalPath (vs : List UInt32) : stripSpace (canonicalPath vs) = canonicalPath vs := by
  rw [canonicalPath_compsText, stripSpace_append, stripSpace_compsText, show stripSpace (str "m") = str "m" by decide]

/-- What the specification says of the hardened marks of a path: the base's values `us`, then `n` indices from `s`. -/
def Spec.RangeLabelOk (us : List UInt32) (s n : Nat) : Prop :=
  HardenedFirst (us.map (fun v => decide (2 ^ 31 ≤ v.toNat)) ++ (List.range' s n).map fun i => decide (2 ^ 31 ≤ i))

/-- **C102**, for every accepted root, every path and every entry `j` of its derivation, and every range starting from
that entry: the label of entry `q` of the range, derived from the root, gives the first `j + 1` entries of the derivation
followed by the first `q + 1` of the range if the hardened components come first in it, and is rejected as an invalid
path otherwise. -/
theorem C102_range_exact (H : Hashes) (R : Registry) (root : Key) (hr : GoodRoot root) (p : Bytes) (vs : List UInt32)
    (hp : valuesAtDepth p = (0 :: vs, none)) (j : Nat) (k : KeyPathRange)
    (hb : (deriveBIP32Result H R root p).1[j]? = some k.keyPath) (hlab : pathIsValid k.keyPath.path = true)
    (hz : k.keyPath.key.bytes ≠ List.replicate 78 0) (h1 : k.startIndex ≠ k.endIndex) :
    ∃ l, k.generateRange H R = ({ k with keyPaths := l }, none) ∧ ∀ q kp, l[q]? = some kp →
      (RangeLabelOk (vs.take j) k.startIndex.toNat (q + 1) →
        deriveBIP32Result H R root kp.path = ((deriveBIP32Result H R root p).1.take (j + 1) ++ l.take (q + 1), none)) ∧
      (¬ RangeLabelOk (vs.take j) k.startIndex.toNat (q + 1) →
        deriveBIP32Result H R root kp.path = ([], some .utilUnSupportedOrInvalidPath)) := by
  rw [derive_eq H R hr hp] at hb ⊢
  dsimp only at hb ⊢
  have hj : j ≤ vs.length := by
    have := (List.getElem?_eq_some_iff.1 hb).1
    simp at this
    omega
  rw [List.getElem?_map, List.getElem?_range (by omega), Option.map_some, Option.some.injEq] at hb
  obtain ⟨l, hl, hlen, hent⟩ := (C49_range_exact H R k).2.2.2 h1 hz hlab
  refine ⟨l, hl, fun q kp hq => ?_⟩
  have hql := (List.getElem?_eq_some_iff.1 hq).1
  -- every entry up to `q`, with the values of the last one
  obtain ⟨ws, hws, hwq⟩ := hent q hql
  have hwl : ws.length = q + 1 := by simpa using congrArg List.length hws
  have hpre : ∀ i ≤ q, l[i]? = some ⟨canonicalPath (vs.take j ++ ws.take (i + 1)),
      blindSteps H R root (vs.take j ++ ws.take (i + 1))⟩ := by
    intro i hi
    obtain ⟨us, hus, hui⟩ := hent i (by omega)
    have hu : us = ws.take (i + 1) := by
      have hinj : Function.Injective UInt32.toNat := fun a b h => UInt32.toNat_inj.1 h
      apply hinj.list_map
      rw [hus, List.map_take, hws]
      apply List.ext_getElem?
      intro m
      by_cases hm : m < i + 1
      · rw [List.getElem?_take_of_lt hm, List.getElem?_range' hm, List.getElem?_range' (by omega)]
      · rw [List.getElem?_eq_none (by simp; omega), List.getElem?_eq_none (by simp; omega)]
    rw [hui, hu, ← hb]
    dsimp only
    rw [stripSpace_canonicalPath, canonicalPath_compsText (vs.take j ++ _), compsText_append,
      canonicalPath_compsText (vs.take j), canonicalPath_compsText (ws.take _), blindSteps_append, List.append_assoc]
    rfl
  have hkp : kp = ⟨canonicalPath (vs.take j ++ ws), blindSteps H R root (vs.take j ++ ws)⟩ := by
    have := hpre q (le_refl _)
    rw [hq, List.take_of_length_le (l := ws) (by omega)] at this
    exact Option.some.inj this
  have hiff : RangeLabelOk (vs.take j) k.startIndex.toNat (q + 1) ↔
      HardenedFirst ((vs.take j ++ ws).map fun v => decide (2 ^ 31 ≤ v.toNat)) := by
    rw [RangeLabelOk, ← hws, List.map_append, List.map_map]
    rfl
  rw [hiff]
  constructor
  · intro hh
    rw [hkp]
    dsimp only
    rw [derive_eq H R hr (C41_print_parse _ hh).2]
    congr 1
    apply List.ext_getElem?
    intro i
    have hlj : (vs.take j).length = j := by rw [List.length_take]; omega
    by_cases hi : i < j + 1
    · rw [List.getElem?_append_left (by simp; omega), List.getElem?_take_of_lt hi, List.getElem?_map, List.getElem?_map,
        List.getElem?_range (by simp; omega), List.getElem?_range (by omega), Option.map_some, Option.map_some,
        List.take_append_of_le_length (by omega), List.take_take, Nat.min_eq_left (by omega)]
    · obtain ⟨i, rfl⟩ : ∃ m, i = j + 1 + m := ⟨i - (j + 1), by omega⟩
      rw [List.getElem?_append_right (by simp; omega)]
      have hx : j + 1 + i - (List.take (j + 1) ((List.range (vs.length + 1)).map fun j =>
          (⟨canonicalPath (vs.take j), blindSteps H R root (vs.take j)⟩ : KeyPath))).length = i := by
        simp
        omega
      rw [hx]
      by_cases hiq : i < q + 1
      · rw [List.getElem?_take_of_lt hiq, hpre i (by omega), List.getElem?_map,
          List.getElem?_range (by simp; omega), Option.map_some, List.take_append, hlj,
          List.take_of_length_le (l := vs.take j) (by omega), show j + 1 + i - j = i + 1 by omega]
      · rw [List.getElem?_eq_none (by simp; omega), List.getElem?_eq_none (by simp; omega)]
  · intro hh
    have hbad : pathIsValid (canonicalPath (vs.take j ++ ws)) = false := by
      rw [← Bool.not_eq_true, pathIsValid_canonical_iff]
      exact hh
    rw [hkp]
    dsimp only
    rw [deriveBIP32Result, (goodRoot_iff H root).2 hr, if_neg (by simp), hbad]
    rfl

/-- **C102** for the ranges an application asks for: when no index of the range is hardened, every label of the range is
accepted and names its key. -/
theorem C102_range (H : Hashes) (R : Registry) (root : Key) (hr : GoodRoot root) (p : Bytes) (vs : List UInt32)
    (hp : valuesAtDepth p = (0 :: vs, none)) (j : Nat) (k : KeyPathRange)
    (hb : (deriveBIP32Result H R root p).1[j]? = some k.keyPath) (hlab : pathIsValid k.keyPath.path = true)
    (hz : k.keyPath.key.bytes ≠ List.replicate 78 0) (h1 : k.startIndex ≠ k.endIndex) (h31 : k.endIndex.toNat ≤ 2 ^ 31) :
    ∃ l, k.generateRange H R = ({ k with keyPaths := l }, none) ∧ ∀ q kp, l[q]? = some kp →
      deriveBIP32Result H R root kp.path = ((deriveBIP32Result H R root p).1.take (j + 1) ++ l.take (q + 1), none) := by
  obtain ⟨l, hl, hq⟩ := C102_range_exact H R root hr p vs hp j k hb hlab hz h1
  refine ⟨l, hl, fun q kp h => (hq q kp h).1 ?_⟩
  have hlen : l.length = k.endIndex.toNat - k.startIndex.toNat := by
    obtain ⟨l', hl', hlen, -⟩ := (C49_range_exact H R k).2.2.2 h1 hz hlab
    rw [hl] at hl'
    have : l = l' := by injection hl' with a b; injection a
    rw [this, hlen]
  have hql := (List.getElem?_eq_some_iff.1 h).1
  have hbase : k.keyPath.path = canonicalPath (vs.take j) := by
    rw [derive_eq H R hr hp] at hb
    have hj : j < vs.length + 1 := by
      simpa using (List.getElem?_eq_some_iff.1 hb).1
    rw [List.getElem?_map, List.getElem?_range hj, Option.map_some, Option.some.injEq] at hb
    rw [← hb]
  rw [hbase, pathIsValid_canonical_iff] at hlab
  obtain ⟨a, b, e⟩ := hlab
  refine ⟨a, b + (q + 1), ?_⟩
  rw [e, List.append_assoc, List.replicate_add]
  congr 2
  rw [List.eq_replicate_iff]
  refine ⟨by simp, fun x hx => ?_⟩
  obtain ⟨i, hi, rfl⟩ := List.mem_map.1 hx
  rw [List.mem_range'_1] at hi
  simp
  omega

/-- **C102**, where it fails: a range that crosses into the hardened indices has a last entry with a key, no error, and a
label that the same package rejects, whatever the root. -/
theorem C102_crossing (H : Hashes) (R : Registry) (root : Key) (hr : GoodRoot root) :
    ∃ l kp, (KeyPathRange.mk 2147483647 2147483649 ⟨str "m", root⟩ []).generateRange H R =
        (⟨2147483647, 2147483649, ⟨str "m", root⟩, l⟩, none) ∧ l[1]? = some kp ∧
      kp.path = str "m/2147483647/0'" ∧
      deriveBIP32Result H R root kp.path = ([], some .utilUnSupportedOrInvalidPath) := by
  have hp : valuesAtDepth (str "m") = (0 :: [], none) := by decide +kernel
  have hval : pathIsValid (str "m") = true := by decide +kernel
  have hne : (2147483647 : UInt32) ≠ 2147483649 := by decide
  obtain ⟨l, hl, hq⟩ := C102_range_exact H R root hr (str "m") [] hp 0
    ⟨2147483647, 2147483649, ⟨str "m", root⟩, []⟩ (by rw [derive_eq H R hr hp]; rfl) hval hr.nonzero hne
  obtain ⟨l', hl', hlen, hent⟩ := (C49_range_exact H R ⟨2147483647, 2147483649, ⟨str "m", root⟩, []⟩).2.2.2 hne
    hr.nonzero hval
  have hll : l = l' := congrArg (fun x => x.1.keyPaths) (hl.symm.trans hl')
  subst hll
  have h2 : l.length = 2 := hlen.trans (show (2147483649 : UInt32).toNat - (2147483647 : UInt32).toNat = 2 by decide)
  obtain ⟨ws, hws, h1⟩ := hent 1 (by omega)
  have hw : ws = [2147483647, 2147483648] := by
    have hinj : Function.Injective UInt32.toNat := fun a b h => UInt32.toNat_inj.1 h
    apply hinj.list_map
    exact hws.trans (show List.range' (2147483647 : UInt32).toNat 2 = [2147483647, 2147483648].map UInt32.toNat by decide)
  refine ⟨l, _, hl, h1, ?_, (hq 1 _ h1).2 ?_⟩
  · rw [hw]
    show stripSpace (str "m") ++ List.drop 1 (canonicalPath [2147483647, 2147483648]) = str "m/2147483647/0'"
    decide +kernel
  · rintro ⟨a, b, e⟩
    have e' : [false, true] = List.replicate a true ++ List.replicate b false := by
      rw [← e]
      show [false, true] = List.map _ (List.take 0 []) ++
        (List.range' (2147483647 : UInt32).toNat 2).map fun i => decide (2 ^ 31 ≤ i)
      decide
    rcases a with _ | a
    · rcases b with _ | _ | _ | b <;> simp [List.replicate_succ] at e'
    · simp [List.replicate_succ] at e'

/-- A case the theorem applies to: the external chain of the first BIP-44 account, and its first three addresses. -/
example (H : Hashes) (R : Registry) :
    ∃ p vs, valuesAtDepth p = (0 :: vs, none) ∧ GoodRoot (xprvKey 5) ∧ p = str "m/44'/0'/0'/0" ∧
      ∃ kp, (deriveBIP32Result H R (xprvKey 5) p).1[4]? = some kp ∧ pathIsValid kp.path = true := by
  have hp : valuesAtDepth (str "m/44'/0'/0'/0") = (0 :: [2147483692, 2147483648, 2147483648, 0], none) := by decide +kernel
  refine ⟨_, _, hp, goodRoot_xprvKey 5, rfl, ?_⟩
  rw [derive_eq H R (goodRoot_xprvKey 5) hp]
  exact ⟨_, rfl, by dsimp only; decide +kernel⟩

end Bips
