import Verif.Model.Narrow
import Verif.Lemmas.Path
import Verif.Lemmas.Registry

namespace Bips
open Spec

theorem parseUintLoopW_64 : parseUintLoopW 64 = parseUintLoop := by
  funext d
  induction d with
  | nil => rfl
  | cons c d ih => funext n; rw [parseUintLoopW, parseUintLoop, ih]

theorem atoiW_64 : atoiW 64 = atoi := by
  funext s
  unfold atoiW atoi
  rw [parseUintLoopW_64]
  rfl

theorem valuesLoopW_64 : valuesLoopW 64 = valuesLoop := by
  funext l
  induction l with
  | nil => rfl
  | cons s l ih => funext acc; rw [valuesLoopW, valuesLoop, ih, atoiW_64]; rfl

theorem valuesAtDepthW_64 : valuesAtDepthW 64 = valuesAtDepth := by
  funext p; rw [valuesAtDepthW, valuesAtDepth, valuesLoopW_64]

theorem pathIsValidW_64 : pathIsValidW 64 = pathIsValid := by
  funext p; rw [pathIsValidW, pathIsValid, valuesAtDepthW_64]

theorem deriveBIP32ResultW_64 : deriveBIP32ResultW 64 = deriveBIP32Result := by
  funext H R k p; rw [deriveBIP32ResultW, deriveBIP32Result, valuesAtDepthW_64, pathIsValidW_64]; rfl

theorem foldl_dec_mono (l : Bytes) (a : Nat) : a ≤ l.foldl (fun a c => a * 10 + (c.toNat - 48)) a := by
  induction l generalizing a with
  | nil => exact Nat.le_refl a
  | cons x l ihl => rw [List.foldl_cons]; exact Nat.le_trans (by omega) (ihl _)

theorem parseUintLoopW_digits (w : Nat) (hw : w ≤ 64) (d : Bytes) (h : ∀ c ∈ d, 48 ≤ c.toNat ∧ c.toNat ≤ 57) (n : Nat) :
    parseUintLoopW w d n =
      if d.foldl (fun a c => a * 10 + (c.toNat - 48)) n < 2 ^ w then
        .inl (d.foldl (fun a c => a * 10 + (c.toNat - 48)) n)
      else if d = [] then .inl n else .inr .atoiRange := by
  have hle : 2 ^ w ≤ 2 ^ 64 := Nat.pow_le_pow_right (by norm_num) hw
  induction d generalizing n with
  | nil => simp [parseUintLoopW]
  | cons c d ih =>
    have hc : isDigit c = true := (isDigit_iff c).2 (h c (by simp))
    have hm := foldl_dec_mono d (n * 10 + (c.toNat - 48))
    rw [parseUintLoopW, List.foldl_cons]
    simp only [hc, Bool.not_true, Bool.false_eq_true, if_false]
    by_cases h1 : 2 ^ 64 / 10 + 1 ≤ n
    · rw [if_pos h1, if_neg (by omega)]; simp
    · rw [if_neg h1]
      by_cases h2 : 2 ^ w ≤ n * 10 + (c.toNat - 48)
      · rw [if_pos h2, if_neg (by omega)]; simp
      · rw [if_neg h2, ih (fun c hc => h c (by simp [hc]))]
        by_cases h3 : d.foldl (fun a c => a * 10 + (c.toNat - 48)) (n * 10 + (c.toNat - 48)) < 2 ^ w
        · rw [if_pos h3, if_pos h3]
        · rw [if_neg h3, if_neg h3]
          by_cases hd : d = []
          · subst hd; simp at h3; omega
          · rw [if_neg hd]; simp

/-- `strconv.Atoi` on a numeral, where `int` has `w` bits. -/
theorem atoiW_numeral (w : Nat) (hw : w ≤ 64) (d : Bytes) (h : IsNumeral d) :
    atoiW w d = if decValue d < 2 ^ (w - 1) then ((decValue d : Int), none) else (0, some .atoiRange) := by
  have hle : 2 ^ (w - 1) ≤ 2 ^ w := Nat.pow_le_pow_right (by norm_num) (Nat.sub_le _ _)
  obtain ⟨hne, hd⟩ := h
  match d, hne with
  | c :: r, _ =>
    have hc := hd c (by simp)
    have h43 : c ≠ 43 := by rintro rfl; exact absurd hc (by decide)
    have h45 : c ≠ 45 := by rintro rfl; exact absurd hc (by decide)
    rw [atoiW]
    simp only [h43, h45, or_self, if_false, reduceCtorEq]
    rw [parseUintLoopW_digits w hw _ hd]
    change (match (if decValue (c :: r) < 2 ^ w then Sum.inl (decValue (c :: r))
      else if c :: r = [] then .inl 0 else .inr .atoiRange : Nat ⊕ Err) with
      | .inr e => ((0 : Int), some e)
      | .inl un => _) = _
    by_cases h64 : decValue (c :: r) < 2 ^ w
    · rw [if_pos h64]
      by_cases h63 : decValue (c :: r) < 2 ^ (w - 1)
      · simp only [not_false_eq_true, true_and, false_and, if_false]
        rw [if_neg (by omega), if_pos h63]
      · simp only [not_false_eq_true, true_and, false_and, if_false]
        rw [if_pos (by omega), if_neg h63]
    · rw [if_neg h64]
      have h63 : ¬ decValue (c :: r) < 2 ^ (w - 1) := by omega
      rw [if_neg h63]
      simp

/-- The condition under which the code accepts a component, where `int` has `w` bits. -/
def CompOkW (w : Nat) (c : Comp) : Prop :=
  decValue c.digits < 2 ^ (w - 1) ∧ (c.hardened = true → decValue c.digits % 2 ^ 32 < 2 ^ 31)

theorem compOkW_32 (c : Comp) : CompOkW 32 c ↔ decValue c.digits < 2 ^ 31 := by
  unfold CompOkW
  constructor
  · exact fun h => h.1
  · intro h; exact ⟨h, fun _ => by omega⟩

theorem valuesLoopW_cons (w : Nat) (hw : w ≤ 64) (c : Comp) (h : IsNumeral c.digits) (rest : List Bytes)
    (acc : List UInt32) :
    (CompOkW w c → valuesLoopW w (compBody c :: rest) acc = valuesLoopW w rest (acc ++ [compVal c])) ∧
    (¬ CompOkW w c → ∃ e, valuesLoopW w (compBody c :: rest) acc = (acc, some e)) := by
  rcases c with ⟨d, hd⟩
  cases hd with
  | false =>
    have hnc : (d.contains (39 : UInt8)) = false := by
      have := numeral_not_mem h (c := 39) (by decide)
      simpa using this
    simp only [compBody, Bool.false_eq_true, if_false, List.append_nil, CompOkW, compVal, false_implies, and_true,
      UInt32.add_zero]
    rw [valuesLoopW, hnc]
    simp only [Bool.false_eq_true, if_false]
    rw [atoiW_numeral w hw d h]
    by_cases h63 : decValue d < 2 ^ (w - 1)
    · simp only [h63, if_true, not_true, false_implies, and_true, true_implies]
      rw [intToUint32_natCast]
    · simp only [h63, if_false, false_implies, not_false_eq_true, true_implies, true_and]
      exact ⟨_, rfl⟩
  | true =>
    have hc : ((d ++ [39]).contains (39 : UInt8)) = true := by simp
    simp only [compBody, if_true, CompOkW, compVal, true_implies]
    rw [valuesLoopW, if_pos hc, removeByte_body h, atoiW_numeral w hw d h]
    by_cases h63 : decValue d < 2 ^ (w - 1)
    · simp only [h63, if_true, true_and]
      rw [intToUint32_natCast]
      by_cases h31 : decValue d % 2 ^ 32 < 2 ^ 31
      · rw [if_neg ((hardened_lt_iff _).2 h31)]
        exact ⟨fun _ => rfl, fun h => absurd h31 h⟩
      · rw [if_pos (by by_contra hh; exact h31 ((hardened_lt_iff _).1 hh))]
        exact ⟨fun h => absurd h h31, fun _ => ⟨_, rfl⟩⟩
    · simp only [h63, if_false, false_and, false_implies, not_false_eq_true, true_implies, true_and]
      exact ⟨_, rfl⟩

theorem valuesLoopW_comps (w : Nat) (hw : w ≤ 64) (cs : List Comp) (h : ∀ c ∈ cs, IsNumeral c.digits)
    (acc : List UInt32) :
    ((∀ c ∈ cs, CompOkW w c) → valuesLoopW w (cs.map compBody) acc = (acc ++ cs.map compVal, none)) ∧
    ((¬ ∀ c ∈ cs, CompOkW w c) → ∃ l e, valuesLoopW w (cs.map compBody) acc = (l, some e)) := by
  induction cs generalizing acc with
  | nil => simp [valuesLoopW]
  | cons c cs ih =>
    obtain ⟨h1, h2⟩ := valuesLoopW_cons w hw c (h c (by simp)) (cs.map compBody) acc
    obtain ⟨i1, i2⟩ := ih (fun c hc => h c (by simp [hc])) (acc ++ [compVal c])
    rw [List.map_cons]
    constructor
    · intro hall
      rw [h1 (hall c (by simp)), i1 (fun c hc => hall c (by simp [hc]))]
      simp
    · intro hn
      by_cases hc : CompOkW w c
      · rw [h1 hc]
        apply i2
        intro h'
        apply hn
        intro x hx
        rcases List.mem_cons.1 hx with rfl | hx
        · exact hc
        · exact h' x hx
      · obtain ⟨e, he⟩ := h2 hc
        exact ⟨_, _, he⟩

theorem valuesAtDepthW_of_text (w : Nat) (hw : w ≤ 64) {p : Bytes} {cs : List Comp} (h : PathText (stripSpace p) cs) :
    ((∀ c ∈ cs, CompOkW w c) → valuesAtDepthW w p = (0 :: cs.map compVal, none)) ∧
    ((¬ ∀ c ∈ cs, CompOkW w c) → ∃ l e, valuesAtDepthW w p = (l, some e)) := by
  obtain ⟨_, -, -, e⟩ := splitByte_pathText h
  have hm : pathRegex.rmatch (pathString p) = true := by
    rw [pathString_eq, pathRegex_iff]; exact ⟨cs, h⟩
  rw [valuesAtDepthW, if_neg (by simp [hm]), pathString_eq, e]
  exact valuesLoopW_comps w hw cs h.2.1 [0]

theorem valuesAtDepthW_of_not_text (w : Nat) {p : Bytes} (h : ¬ ∃ cs, PathText (stripSpace p) cs) :
    valuesAtDepthW w p = ([], some .unSupportedOrInvalidPath) := by
  rw [← pathRegex_iff, ← pathString_eq] at h
  rw [valuesAtDepthW, if_pos (by simpa using h)]

theorem pathIsValidW_iff (w : Nat) (hw : w ≤ 64) (p : Bytes) :
    pathIsValidW w p = true ↔ ∃ cs, PathText (stripSpace p) cs ∧ ∀ c ∈ cs, CompOkW w c := by
  unfold pathIsValidW
  rw [decide_eq_true_eq]
  constructor
  · intro h
    by_cases ht : ∃ cs, PathText (stripSpace p) cs
    · obtain ⟨cs, hcs⟩ := ht
      refine ⟨cs, hcs, ?_⟩
      by_contra hn
      obtain ⟨l, e, he⟩ := (valuesAtDepthW_of_text w hw hcs).2 hn
      rw [he] at h; simp at h
    · rw [valuesAtDepthW_of_not_text w ht] at h; simp at h
  · rintro ⟨cs, hcs, hok⟩
    rw [(valuesAtDepthW_of_text w hw hcs).1 hok]

/-- Reading a component of a version's path does not depend on the width. -/
theorem comp_readW (w : Nat) (hw : 32 ≤ w) (hw' : w ≤ 64) {d : Bytes} (h : Digits8 d) (rangeErr : Err) :
    (match atoiW w (removeByte 39 (d ++ [39])) with
      | (_, some e) => Outcome.ok ((0 : UInt32), some e)
      | (v, none) =>
        if intToUint32 v ≥ firstHardenedChild then .ok (0, some rangeErr)
        else .ok (intToUint32 v, none)) = Outcome.ok (readDigits d) := by
  rw [removeByte_digits8 h, readDigits]
  by_cases hd : d = []
  · subst hd; rfl
  · have hv := decValue_digits8 h
    have hle : 2 ^ 31 ≤ 2 ^ (w - 1) := Nat.pow_le_pow_right (by norm_num) (by omega)
    rw [if_neg hd, atoiW_numeral w hw' d ⟨hd, h.1⟩, if_pos (by omega)]
    simp only
    rw [intToUint32_natCast, if_neg]
    rw [hardened_lt_iff]; omega

end Bips
