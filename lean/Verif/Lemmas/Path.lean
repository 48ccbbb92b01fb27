import Verif.Model.Path
import Verif.Spec.Path
import Mathlib.Tactic.IntervalCases

/-! Lemmas about path parsing. -/

namespace Bips
open Spec

theorem isDigit_iff (c : UInt8) : isDigit c = true ↔ 48 ≤ c.toNat ∧ c.toNat ≤ 57 := by
  simp [isDigit]

/-! ### Regular expressions -/

theorem mem_reAny (cs : Bytes) (x : Bytes) : x ∈ (reAny cs).matches' ↔ ∃ c ∈ cs, x = [c] := by
  induction cs with
  | nil => simp [reAny]
  | cons a cs ih =>
    have e : reAny (a :: cs) = RegularExpression.char a + reAny cs := rfl
    rw [e, RegularExpression.matches'_add, Language.mem_add, ih, RegularExpression.matches'_char]
    simp only [List.mem_cons, exists_eq_or_imp]
    rfl

theorem digit_mem (c : UInt8) : c ∈ str "0123456789" ↔ isDigit c = true := by
  have : ∀ n : Fin 256, (UInt8.ofNat n.1 ∈ str "0123456789") ↔ isDigit (UInt8.ofNat n.1) = true := by
    decide +kernel
  have h := this ⟨c.toNat, c.toNat_lt⟩
  simpa only [ofNat_toNat] using h

theorem mem_reDigit (x : Bytes) : x ∈ reDigit.matches' ↔ ∃ c, isDigit c = true ∧ x = [c] := by
  rw [reDigit, mem_reAny]
  constructor
  · rintro ⟨c, h, e⟩; exact ⟨c, (digit_mem c).1 h, e⟩
  · rintro ⟨c, h, e⟩; exact ⟨c, (digit_mem c).2 h, e⟩

theorem mem_star_digit (x : Bytes) : x ∈ reDigit.star.matches' ↔ ∀ c ∈ x, isDigit c = true := by
  rw [RegularExpression.matches'_star, Language.mem_kstar]
  constructor
  · rintro ⟨L, rfl, hL⟩ c hc
    obtain ⟨y, hy, hcy⟩ := List.mem_flatten.1 hc
    obtain ⟨d, hd, rfl⟩ := (mem_reDigit y).1 (hL y hy)
    simp at hcy; subst hcy; exact hd
  · intro h
    refine ⟨x.map fun c => [c], ?_, ?_⟩
    · induction x with
      | nil => rfl
      | cons a x ih => simp [← ih (fun c hc => h c (by simp [hc]))]
    · intro y hy
      obtain ⟨c, hc, rfl⟩ := List.mem_map.1 hy
      exact (mem_reDigit _).2 ⟨c, h c hc, rfl⟩

theorem mem_digits (x : Bytes) : x ∈ (rePlus reDigit).matches' ↔ IsNumeral x := by
  rw [rePlus, RegularExpression.matches'_mul, Language.mem_mul]
  constructor
  · rintro ⟨a, ha, b, hb, rfl⟩
    obtain ⟨c, hc, rfl⟩ := (mem_reDigit a).1 ha
    rw [mem_star_digit] at hb
    refine ⟨by simp, ?_⟩
    intro d hd
    rcases List.mem_cons.1 hd with rfl | hd
    · exact (isDigit_iff _).1 hc
    · exact (isDigit_iff _).1 (hb d hd)
  · rintro ⟨h1, h2⟩
    match x, h1 with
    | c :: r, _ =>
      refine ⟨[c], (mem_reDigit _).2 ⟨c, (isDigit_iff _).2 (h2 c (by simp)), rfl⟩, r, ?_, rfl⟩
      rw [mem_star_digit]
      exact fun d hd => (isDigit_iff _).2 (h2 d (by simp [hd]))

theorem mem_comp_plain (x : Bytes) :
    x ∈ (RegularExpression.char 47 * rePlus reDigit).matches' ↔
      ∃ d, IsNumeral d ∧ x = (⟨d, false⟩ : Comp).text := by
  rw [RegularExpression.matches'_mul, Language.mem_mul]
  constructor
  · rintro ⟨a, ha, b, hb, rfl⟩
    rw [RegularExpression.matches'_char] at ha
    rw [mem_digits] at hb
    obtain rfl : a = [47] := ha
    exact ⟨b, hb, by simp [Comp.text]; rfl⟩
  · rintro ⟨d, hd, rfl⟩
    exact ⟨[47], rfl, d, (mem_digits d).2 hd, by simp [Comp.text]; rfl⟩

theorem mem_comp_hard (x : Bytes) :
    x ∈ (RegularExpression.char 47 * rePlus reDigit * RegularExpression.char 39).matches' ↔
      ∃ d, IsNumeral d ∧ x = (⟨d, true⟩ : Comp).text := by
  rw [RegularExpression.matches'_mul, Language.mem_mul]
  constructor
  · rintro ⟨a, ha, b, hb, rfl⟩
    obtain ⟨d, hd, rfl⟩ := (mem_comp_plain a).1 ha
    rw [RegularExpression.matches'_char] at hb
    obtain rfl : b = [39] := hb
    exact ⟨d, hd, by simp [Comp.text]; rfl⟩
  · rintro ⟨d, hd, rfl⟩
    exact ⟨_, (mem_comp_plain _).2 ⟨d, hd, rfl⟩, [39], rfl, by simp [Comp.text]; rfl⟩

theorem flatten_comps (L : List Bytes) (h : Bool)
    (hL : ∀ y ∈ L, ∃ d, IsNumeral d ∧ y = (⟨d, h⟩ : Comp).text) :
    ∃ cs : List Comp, L.flatten = cs.flatMap Comp.text ∧ (∀ c ∈ cs, IsNumeral c.digits) ∧
      cs.map Comp.hardened = List.replicate cs.length h := by
  induction L with
  | nil => exact ⟨[], rfl, by simp, rfl⟩
  | cons y L ih =>
    obtain ⟨cs, h1, h2, h3⟩ := ih (fun z hz => hL z (by simp [hz]))
    obtain ⟨d, hd, rfl⟩ := hL y (by simp)
    refine ⟨⟨d, h⟩ :: cs, by simp [h1], ?_, by simp [h3, List.replicate_succ]⟩
    intro c hc
    rcases List.mem_cons.1 hc with rfl | hc
    · exact hd
    · exact h2 c hc

theorem star_comps (r : RegularExpression UInt8) (h : Bool)
    (hr : ∀ x, x ∈ r.matches' ↔ ∃ d, IsNumeral d ∧ x = (⟨d, h⟩ : Comp).text) (x : Bytes) :
    x ∈ r.star.matches' ↔ ∃ cs : List Comp, x = cs.flatMap Comp.text ∧ (∀ c ∈ cs, IsNumeral c.digits) ∧
      cs.map Comp.hardened = List.replicate cs.length h := by
  rw [RegularExpression.matches'_star, Language.mem_kstar]
  constructor
  · rintro ⟨L, rfl, hL⟩
    exact flatten_comps L h (fun y hy => (hr y).1 (hL y hy))
  · rintro ⟨cs, rfl, h1, h2⟩
    refine ⟨cs.map Comp.text, by rw [List.flatMap_def], ?_⟩
    intro y hy
    obtain ⟨c, hc, rfl⟩ := List.mem_map.1 hy
    rw [hr]
    refine ⟨c.digits, h1 c hc, ?_⟩
    have : c.hardened = h := by
      have : c.hardened ∈ cs.map Comp.hardened := List.mem_map_of_mem hc
      rw [h2] at this
      exact List.eq_of_mem_replicate this
    rw [← this]

/-- The regular expression accepts exactly the grammar. -/
theorem pathRegex_iff (s : Bytes) : pathRegex.rmatch s = true ↔ ∃ cs, PathText s cs := by
  have hm : (str "mM") = [109, 77] := by decide
  have hm1 : str "m" = [109] := by decide
  have hm2 : str "M" = [77] := by decide
  rw [RegularExpression.rmatch_iff_matches', pathRegex, RegularExpression.matches'_mul, Language.mem_mul]
  constructor
  · rintro ⟨a, ha, b, hb, rfl⟩
    rw [RegularExpression.matches'_mul, Language.mem_mul] at ha
    obtain ⟨a1, ha1, a2, ha2, rfl⟩ := ha
    rw [mem_reAny] at ha1
    obtain ⟨c, hc, rfl⟩ := ha1
    obtain ⟨cs1, rfl, h1, h1'⟩ := (star_comps _ true mem_comp_hard a2).1 ha2
    obtain ⟨cs2, rfl, h2, h2'⟩ := (star_comps _ false mem_comp_plain b).1 hb
    refine ⟨cs1 ++ cs2, ?_, ?_, cs1.length, cs2.length, by simp [h1', h2']⟩
    · rw [hm] at hc
      rcases List.mem_cons.1 hc with rfl | hc
      · left; simp [hm1]
      · simp at hc; subst hc; right; simp [hm2]
    · intro c hc
      rcases List.mem_append.1 hc with h | h
      · exact h1 c h
      · exact h2 c h
  · rintro ⟨cs, hs, hn, j, k, hjk⟩
    have hlen : cs.length = j + k := by
      have := congrArg List.length hjk; simpa using this
    have hsplit : cs = cs.take j ++ cs.drop j := (List.take_append_drop j cs).symm
    have e1 : (cs.take j).map Comp.hardened = List.replicate (cs.take j).length true := by
      rw [List.map_take, hjk, List.take_left' (by simp)]
      simp; omega
    have e2 : (cs.drop j).map Comp.hardened = List.replicate (cs.drop j).length false := by
      rw [List.map_drop, hjk, List.drop_left' (by simp)]
      simp; omega
    have key : ∀ c : UInt8, c ∈ str "mM" → s = [c] ++ cs.flatMap Comp.text →
        ∃ a ∈ (reAny (str "mM") *
          (RegularExpression.char 47 * rePlus reDigit * RegularExpression.char 39).star).matches',
          ∃ b ∈ (RegularExpression.char 47 * rePlus reDigit).star.matches', a ++ b = s := by
      intro c hc e
      refine ⟨[c] ++ (cs.take j).flatMap Comp.text, ?_, (cs.drop j).flatMap Comp.text, ?_, ?_⟩
      · rw [RegularExpression.matches'_mul, Language.mem_mul]
        refine ⟨[c], (mem_reAny _ _).2 ⟨c, hc, rfl⟩, _, ?_, rfl⟩
        rw [star_comps _ true mem_comp_hard]
        exact ⟨cs.take j, rfl, fun c hc => hn c (List.mem_of_mem_take hc), e1⟩
      · rw [star_comps _ false mem_comp_plain]
        exact ⟨cs.drop j, rfl, fun c hc => hn c (List.mem_of_mem_drop hc), e2⟩
      · rw [e, List.append_assoc, ← List.flatMap_append, List.take_append_drop]
    rcases hs with hs | hs
    · exact key 109 (by rw [hm]; simp) (by rw [hs, hm1])
    · exact key 77 (by rw [hm]; simp) (by rw [hs, hm2])

/-! ### Splitting -/

theorem splitByte_ne_nil (sep : UInt8) (s : Bytes) : splitByte sep s ≠ [] := by
  induction s with
  | nil => simp [splitByte]
  | cons c s ih =>
    rw [splitByte]
    split
    · simp
    · split <;> simp

theorem splitByte_append (sep : UInt8) (w s : Bytes) (hw : sep ∉ w) :
    splitByte sep (w ++ sep :: s) = w :: splitByte sep s := by
  induction w with
  | nil => simp [splitByte]
  | cons c w ih =>
    have hc : c ≠ sep := fun e => hw (by simp [e])
    rw [List.cons_append, splitByte, if_neg hc, ih (fun h => hw (by simp [h]))]

theorem splitByte_of_not_mem (sep : UInt8) (w : Bytes) (hw : sep ∉ w) : splitByte sep w = [w] := by
  induction w with
  | nil => rfl
  | cons c w ih =>
    have hc : c ≠ sep := fun e => hw (by simp [e])
    rw [splitByte, if_neg hc, ih (fun h => hw (by simp [h]))]

theorem joinByte_splitByte (sep : UInt8) (s : Bytes) : joinByte sep (splitByte sep s) = s := by
  induction s with
  | nil => rfl
  | cons c s ih =>
    rw [splitByte]
    split
    · rename_i h; subst h
      cases hs : splitByte c s with
      | nil => exact absurd hs (splitByte_ne_nil _ _)
      | cons w ws => rw [joinByte, ← hs, ih]; rfl; simp
    · cases hs : splitByte sep s with
      | nil => exact absurd hs (splitByte_ne_nil _ _)
      | cons w ws =>
        rw [hs] at ih
        dsimp only
        cases ws with
        | nil => simp only [joinByte] at ih ⊢; rw [ih]
        | cons w' ws => simp only [joinByte, List.cons_append] at ih ⊢; rw [ih]

theorem splitByte_joinByte (sep : UInt8) (ws : List Bytes) (hne : ws ≠ []) (h : ∀ w ∈ ws, sep ∉ w) :
    splitByte sep (joinByte sep ws) = ws := by
  induction ws with
  | nil => exact absurd rfl hne
  | cons w ws ih =>
    cases ws with
    | nil => exact splitByte_of_not_mem sep w (h w (by simp))
    | cons w' ws =>
      rw [joinByte, splitByte_append _ _ _ (h w (by simp)), ih (by simp) (fun v hv => h v (by simp [hv]))]
      simp

/-- The text of a component without its slash. -/
def compBody (c : Comp) : Bytes := c.digits ++ (if c.hardened then [39] else [])

theorem comp_text_eq (c : Comp) : c.text = 47 :: compBody c := by
  have h1 : str "/" = [47] := by decide
  have h2 : str "'" = [39] := by decide
  rw [Comp.text, compBody, h1, h2]; simp

theorem numeral_not_mem {d : Bytes} (h : IsNumeral d) {c : UInt8} (hc : c.toNat < 48 ∨ 57 < c.toNat) : c ∉ d := by
  intro hm
  have := h.2 c hm
  omega

theorem slash_not_mem_body {c : Comp} (h : IsNumeral c.digits) : (47 : UInt8) ∉ compBody c := by
  rw [compBody]
  have := numeral_not_mem h (c := 47) (by decide)
  cases c.hardened <;> simp [this]

theorem joinByte_cons_comps (w : Bytes) (cs : List Comp) :
    joinByte 47 (w :: cs.map compBody) = w ++ cs.flatMap Comp.text := by
  induction cs generalizing w with
  | nil => simp [joinByte]
  | cons c cs ih =>
    rw [List.map_cons, joinByte, ih, List.flatMap_cons, comp_text_eq]
    · simp
    · simp

theorem splitByte_comps (w : Bytes) (hw : (47 : UInt8) ∉ w) (cs : List Comp) (h : ∀ c ∈ cs, IsNumeral c.digits) :
    splitByte 47 (w ++ cs.flatMap Comp.text) = w :: cs.map compBody := by
  rw [← joinByte_cons_comps]
  apply splitByte_joinByte _ _ (by simp)
  intro v hv
  rcases List.mem_cons.1 hv with rfl | hv
  · exact hw
  · obtain ⟨c, hc, rfl⟩ := List.mem_map.1 hv
    exact slash_not_mem_body (h c hc)

theorem splitByte_pathText {s : Bytes} {cs : List Comp} (h : PathText s cs) :
    ∃ w, (w = str "m" ∨ w = str "M") ∧ s = w ++ cs.flatMap Comp.text ∧ splitByte 47 s = w :: cs.map compBody := by
  obtain ⟨hs | hs, hn, -⟩ := h
  · exact ⟨str "m", .inl rfl, hs, by rw [hs]; exact splitByte_comps _ (by decide) _ hn⟩
  · exact ⟨str "M", .inr rfl, hs, by rw [hs]; exact splitByte_comps _ (by decide) _ hn⟩

/-! ### Numbers -/

theorem decValue_eq (d : Bytes) : decValue d = ofDigitsBE 10 (d.map fun c => c.toNat - 48) := by
  rw [decValue, ofDigitsBE, List.foldl_map]

theorem foldl_dec (d : Bytes) (n : Nat) :
    d.foldl (fun a c => a * 10 + (c.toNat - 48)) n = n * 10 ^ d.length + decValue d := by
  induction d generalizing n with
  | nil => simp [decValue]
  | cons c d ih =>
    have e : decValue (c :: d) = (0 * 10 + (c.toNat - 48)) * 10 ^ d.length + decValue d := by
      conv_lhs => rw [decValue, List.foldl_cons, ih]
    rw [List.foldl_cons, ih, e]
    simp only [List.length_cons, pow_succ]; ring

theorem parseUintLoop_digits (d : Bytes) (h : ∀ c ∈ d, 48 ≤ c.toNat ∧ c.toNat ≤ 57) (n : Nat) :
    parseUintLoop d n =
      if d.foldl (fun a c => a * 10 + (c.toNat - 48)) n < 2 ^ 64 then
        .inl (d.foldl (fun a c => a * 10 + (c.toNat - 48)) n)
      else if d = [] then .inl n else .inr .atoiRange := by
  induction d generalizing n with
  | nil => simp [parseUintLoop]
  | cons c d ih =>
    have hc : isDigit c = true := (isDigit_iff c).2 (h c (by simp))
    have hmono : ∀ (l : Bytes) (a : Nat), a ≤ l.foldl (fun a c => a * 10 + (c.toNat - 48)) a := by
      intro l
      induction l with
      | nil => intro a; exact Nat.le_refl a
      | cons x l ihl => intro a; rw [List.foldl_cons]; exact Nat.le_trans (by omega) (ihl _)
    have hm := hmono d (n * 10 + (c.toNat - 48))
    rw [parseUintLoop, List.foldl_cons]
    simp only [hc, Bool.not_true, Bool.false_eq_true, if_false]
    by_cases h1 : 2 ^ 64 / 10 + 1 ≤ n
    · rw [if_pos h1, if_neg (by omega)]; simp
    · rw [if_neg h1]
      by_cases h2 : 2 ^ 64 ≤ n * 10 + (c.toNat - 48)
      · rw [if_pos h2, if_neg (by omega)]; simp
      · rw [if_neg h2, ih (fun c hc => h c (by simp [hc]))]
        by_cases h3 : d.foldl (fun a c => a * 10 + (c.toNat - 48)) (n * 10 + (c.toNat - 48)) < 2 ^ 64
        · rw [if_pos h3, if_pos h3]
        · rw [if_neg h3, if_neg h3]
          by_cases hd : d = []
          · subst hd; simp at h3; omega
          · rw [if_neg hd]; simp

/-- `strconv.Atoi` on a numeral. -/
theorem atoi_numeral (d : Bytes) (h : IsNumeral d) :
    atoi d = if decValue d < 2 ^ 63 then ((decValue d : Int), none) else (0, some .atoiRange) := by
  obtain ⟨hne, hd⟩ := h
  match d, hne with
  | c :: r, _ =>
    have hc := hd c (by simp)
    have h43 : c ≠ 43 := by rintro rfl; exact absurd hc (by decide)
    have h45 : c ≠ 45 := by rintro rfl; exact absurd hc (by decide)
    rw [atoi]
    simp only [h43, h45, or_self, if_false, reduceCtorEq]
    rw [parseUintLoop_digits _ hd]
    change (match (if decValue (c :: r) < 2 ^ 64 then Sum.inl (decValue (c :: r))
      else if c :: r = [] then .inl 0 else .inr .atoiRange : Nat ⊕ Err) with
      | .inr e => ((0 : Int), some e)
      | .inl un => _) = _
    by_cases h64 : decValue (c :: r) < 2 ^ 64
    · rw [if_pos h64]
      by_cases h63 : decValue (c :: r) < 2 ^ 63
      · simp only [not_false_eq_true, true_and, false_and, if_false]
        rw [if_neg (by omega), if_pos h63]
      · simp only [not_false_eq_true, true_and, false_and, if_false]
        rw [if_pos (by omega), if_neg h63]
    · rw [if_neg h64]
      have h63 : ¬ decValue (c :: r) < 2 ^ 63 := by omega
      rw [if_neg h63]
      simp

theorem intToUint32_natCast (n : Nat) : intToUint32 (n : Int) = UInt32.ofNat n := by
  unfold intToUint32
  apply UInt32.toNat_inj.1
  rw [UInt32.toNat_ofNat', UInt32.toNat_ofNat']
  have : ((n : Int) % 2 ^ 32).toNat = n % 2 ^ 32 := by norm_cast
  rw [this, Nat.mod_mod]

/-! ### Values -/

/-- What the code reads from a component (32-bit truncation included). -/
def compVal (c : Comp) : UInt32 := UInt32.ofNat (decValue c.digits) + (if c.hardened then firstHardenedChild else 0)

/-- The condition under which the code accepts a component. -/
def CompOk (c : Comp) : Prop :=
  decValue c.digits < 2 ^ 63 ∧ (c.hardened = true → decValue c.digits % 2 ^ 32 < 2 ^ 31)

theorem hardened_lt_iff (n : Nat) : ¬ (UInt32.ofNat n ≥ firstHardenedChild) ↔ n % 2 ^ 32 < 2 ^ 31 := by
  rw [ge_iff_le, UInt32.not_le, UInt32.lt_iff_toNat_lt, UInt32.toNat_ofNat']
  rfl

theorem removeByte_body {d : Bytes} (h : IsNumeral d) : removeByte 39 (d ++ [39]) = d := by
  rw [removeByte, List.filter_append, List.filter_eq_self.2]
  · simp
  · intro c hc
    have : c ≠ 39 := by rintro rfl; exact numeral_not_mem h (by decide) hc
    simpa using this

theorem valuesLoop_cons (c : Comp) (h : IsNumeral c.digits) (rest : List Bytes) (acc : List UInt32) :
    (CompOk c → valuesLoop (compBody c :: rest) acc = valuesLoop rest (acc ++ [compVal c])) ∧
    (¬ CompOk c → ∃ e, valuesLoop (compBody c :: rest) acc = (acc, some e)) := by
  rcases c with ⟨d, hd⟩
  cases hd with
  | false =>
    have hnc : (d.contains (39 : UInt8)) = false := by
      have := numeral_not_mem h (c := 39) (by decide)
      simpa using this
    simp only [compBody, Bool.false_eq_true, if_false, List.append_nil, CompOk, compVal, false_implies, and_true,
      UInt32.add_zero]
    rw [valuesLoop, hnc]
    simp only [Bool.false_eq_true, if_false]
    rw [atoi_numeral d h]
    by_cases h63 : decValue d < 2 ^ 63
    · simp only [h63, if_true, not_true, false_implies, and_true, true_implies]
      rw [intToUint32_natCast]
    · simp only [h63, if_false, false_implies, not_false_eq_true, true_implies, true_and]
      exact ⟨_, rfl⟩
  | true =>
    have hc : ((d ++ [39]).contains (39 : UInt8)) = true := by simp
    simp only [compBody, if_true, CompOk, compVal, true_implies]
    rw [valuesLoop, if_pos hc, removeByte_body h, atoi_numeral d h]
    by_cases h63 : decValue d < 2 ^ 63
    · simp only [h63, if_true, true_and]
      rw [intToUint32_natCast]
      by_cases h31 : decValue d % 2 ^ 32 < 2 ^ 31
      · rw [if_neg ((hardened_lt_iff _).2 h31)]
        exact ⟨fun _ => rfl, fun h => absurd h31 h⟩
      · rw [if_pos (by by_contra hh; exact h31 ((hardened_lt_iff _).1 hh))]
        exact ⟨fun h => absurd h h31, fun _ => ⟨_, rfl⟩⟩
    · simp only [h63, if_false, false_and, false_implies, not_false_eq_true, true_implies, true_and]
      exact ⟨_, rfl⟩

theorem valuesLoop_comps (cs : List Comp) (h : ∀ c ∈ cs, IsNumeral c.digits) (acc : List UInt32) :
    ((∀ c ∈ cs, CompOk c) → valuesLoop (cs.map compBody) acc = (acc ++ cs.map compVal, none)) ∧
    ((¬ ∀ c ∈ cs, CompOk c) → ∃ l e, valuesLoop (cs.map compBody) acc = (l, some e)) := by
  induction cs generalizing acc with
  | nil => simp [valuesLoop]
  | cons c cs ih =>
    obtain ⟨h1, h2⟩ := valuesLoop_cons c (h c (by simp)) (cs.map compBody) acc
    obtain ⟨i1, i2⟩ := ih (fun c hc => h c (by simp [hc])) (acc ++ [compVal c])
    rw [List.map_cons]
    constructor
    · intro hall
      rw [h1 (hall c (by simp)), i1 (fun c hc => hall c (by simp [hc]))]
      simp
    · intro hn
      by_cases hc : CompOk c
      · rw [h1 hc]
        apply i2
        intro h'
        apply hn
        intro x hx
        rcases List.mem_cons.1 hx with rfl | hx
        · exact hc
        · exact h' x hx
      · obtain ⟨e, he⟩ := h2 hc
        exact ⟨_, _, he⟩

theorem pathString_eq (p : Bytes) : pathString p = stripSpace p := by
  unfold pathString stripSpace
  congr 1
  funext c
  have : ∀ n : Fin 256, (!isReSpace (UInt8.ofNat n.1)) = decide (UInt8.ofNat n.1 ∉ str "\t\n\x0c\r ") := by
    decide +kernel
  have h := this ⟨c.toNat, c.toNat_lt⟩
  simpa only [ofNat_toNat] using h

theorem compBody_map_inj : ∀ (l l' : List Comp), (∀ c ∈ l, IsNumeral c.digits) → (∀ c ∈ l', IsNumeral c.digits) →
      l.map compBody = l'.map compBody → l = l' := by
    intro l
    induction l with
    | nil => intro l' _ _ h; simpa using h.symm
    | cons c l ih =>
      intro l' h1 h2 h
      cases l' with
      | nil => simp at h
      | cons c' l' =>
        rw [List.map_cons, List.map_cons, List.cons.injEq] at h
        rw [ih l' (fun c hc => h1 c (by simp [hc])) (fun c hc => h2 c (by simp [hc])) h.2]
        congr 1
        have n1 := h1 c (by simp)
        have n2 := h2 c' (by simp)
        rcases c with ⟨d, b⟩
        rcases c' with ⟨d', b'⟩
        have hh := h.1
        have f1 := removeByte_body n1
        have f2 := removeByte_body n2
        have g1 := numeral_not_mem n1 (c := 39) (by decide)
        have g2 := numeral_not_mem n2 (c := 39) (by decide)
        cases b <;> cases b' <;> simp only [compBody, if_true, Bool.false_eq_true, if_false, List.append_nil] at hh
        · subst hh; rfl
        · subst hh; simp at g1
        · subst hh; simp at g2
        · have := congrArg (removeByte 39) hh
          rw [f1, f2] at this
          have : d = d' := this
          subst this; rfl

/-- Components of a text are unique. -/
theorem pathText_unique {s : Bytes} {cs cs' : List Comp} (h : PathText s cs) (h' : PathText s cs') : cs = cs' := by
  obtain ⟨w, -, -, e⟩ := splitByte_pathText h
  obtain ⟨w', -, -, e'⟩ := splitByte_pathText h'
  rw [e] at e'
  exact compBody_map_inj cs cs' h.2.1 h'.2.1 (List.cons.inj e').2

/-- Complete description of `ValuesAtDepth`. -/
theorem valuesAtDepth_of_text {p : Bytes} {cs : List Comp} (h : PathText (stripSpace p) cs) :
    ((∀ c ∈ cs, CompOk c) → valuesAtDepth p = (0 :: cs.map compVal, none)) ∧
    ((¬ ∀ c ∈ cs, CompOk c) → ∃ l e, valuesAtDepth p = (l, some e)) := by
  obtain ⟨w, -, -, e⟩ := splitByte_pathText h
  have hm : pathRegex.rmatch (pathString p) = true := by
    rw [pathString_eq, pathRegex_iff]; exact ⟨cs, h⟩
  rw [valuesAtDepth, if_neg (by simp [hm]), pathString_eq, e]
  exact valuesLoop_comps cs h.2.1 [0]

theorem valuesAtDepth_of_not_text {p : Bytes} (h : ¬ ∃ cs, PathText (stripSpace p) cs) :
    valuesAtDepth p = ([], some .unSupportedOrInvalidPath) := by
  rw [← pathRegex_iff, ← pathString_eq] at h
  rw [valuesAtDepth, if_pos (by simpa using h)]

theorem pathIsValid_iff (p : Bytes) :
    pathIsValid p = true ↔ ∃ cs, PathText (stripSpace p) cs ∧ ∀ c ∈ cs, CompOk c := by
  unfold pathIsValid
  rw [decide_eq_true_eq]
  constructor
  · intro h
    by_cases ht : ∃ cs, PathText (stripSpace p) cs
    · obtain ⟨cs, hcs⟩ := ht
      refine ⟨cs, hcs, ?_⟩
      by_contra hn
      obtain ⟨l, e, he⟩ := (valuesAtDepth_of_text hcs).2 hn
      rw [he] at h; simp at h
    · rw [valuesAtDepth_of_not_text ht] at h; simp at h
  · rintro ⟨cs, hcs, hok⟩
    rw [(valuesAtDepth_of_text hcs).1 hok]

end Bips

namespace Bips
open Spec

/-! ### Printing numbers -/

theorem decimal_numeral (n : Nat) : IsNumeral (decimal n) ∧ decValue (decimal n) = n := by
  unfold decimal
  by_cases h : n = 0
  · subst h
    simp only [if_true]
    exact ⟨⟨by simp, by decide⟩, rfl⟩
  · rw [if_neg h]
    have hd := toDigitsBE_lt 10 (by omega) n
    refine ⟨⟨?_, ?_⟩, ?_⟩
    · intro e
      have := List.map_eq_nil_iff.1 e
      have h2 := ofDigitsBE_toDigitsBE 10 (by omega) n
      rw [this] at h2
      exact h h2.symm
    · intro c hc
      obtain ⟨d, hd', rfl⟩ := List.mem_map.1 hc
      have := hd d hd'
      rw [toNat_ofNat_lt (by omega)]; omega
    · rw [decValue_eq, List.map_map]
      have : (toDigitsBE 10 n).map ((fun c : UInt8 => c.toNat - 48) ∘ fun d => UInt8.ofNat (48 + d)) = toDigitsBE 10 n := by
        conv_rhs => rw [← List.map_id (toDigitsBE 10 n)]
        apply List.map_congr_left
        intro d hd'
        have := hd d hd'
        simp only [Function.comp, id]
        rw [toNat_ofNat_lt (by omega)]; omega
      rw [this, ofDigitsBE_toDigitsBE 10 (by omega)]

/-- The component the code prints for a value: `%d'` of the low 31 bits, or `%d`. -/
def printComp (v : UInt32) : Comp :=
  if v ≥ firstHardenedChild then ⟨decimal (v % firstHardenedChild).toNat, true⟩ else ⟨decimal v.toNat, false⟩

theorem printComp_numeral (v : UInt32) : IsNumeral (printComp v).digits := by
  unfold printComp; split <;> exact (decimal_numeral _).1

theorem printComp_hardened (v : UInt32) : (printComp v).hardened = decide (v ≥ firstHardenedChild) := by
  unfold printComp; split <;> simp [*]

theorem hard_toNat : firstHardenedChild.toNat = 2 ^ 31 := rfl

theorem printComp_ok (v : UInt32) : CompOk (printComp v) ∧ compVal (printComp v) = v := by
  unfold printComp
  have hv := v.toNat_lt
  split
  · rename_i h
    have hm : (v % firstHardenedChild).toNat = v.toNat % 2 ^ 31 := rfl
    have h' : 2 ^ 31 ≤ v.toNat := h
    simp only [CompOk, compVal, (decimal_numeral _).2, hm, if_true]
    refine ⟨⟨by omega, fun _ => by omega⟩, ?_⟩
    apply UInt32.toNat_inj.1
    rw [UInt32.toNat_add, UInt32.toNat_ofNat', hard_toNat]
    omega
  · simp only [CompOk, compVal, (decimal_numeral _).2]
    refine ⟨⟨by omega, by simp⟩, ?_⟩
    simp

theorem replaceText_eq (v : UInt32) :
    (if v ≥ firstHardenedChild then decimal (v % firstHardenedChild).toNat ++ [39] else decimal v.toNat) =
      compBody (printComp v) := by
  unfold printComp compBody; split <;> simp

/-! ### White space -/

theorem stripSpace_idem (p : Bytes) : stripSpace (stripSpace p) = stripSpace p := by
  simp [stripSpace]

theorem stripSpace_of_pathText {s : Bytes} {cs : List Comp} (h : PathText s cs) : stripSpace s = s := by
  have hnum : ∀ c ∈ cs, ∀ x ∈ c.text, x ∉ str "\t\n\x0c\r " := by
    intro c hc x hx
    rw [comp_text_eq] at hx
    have hd := (h.2.1 c hc).2
    rcases List.mem_cons.1 hx with rfl | hx
    · decide
    · rw [compBody] at hx
      rcases List.mem_append.1 hx with hx | hx
      · have := hd x hx
        intro hm
        have h2 : ∀ y ∈ str "\t\n\x0c\r ", y.toNat < 48 := by decide
        have := h2 x hm
        omega
      · cases hh : c.hardened <;> rw [hh] at hx
        · simp at hx
        · simp at hx; subst hx; decide
  have hall : ∀ x ∈ s, x ∉ str "\t\n\x0c\r " := by
    intro x hx
    rcases h.1 with e | e <;> rw [e] at hx <;> rcases List.mem_append.1 hx with hx | hx
    · have h2 : ∀ y ∈ str "m", y ∉ str "\t\n\x0c\r " := by decide
      exact h2 x hx
    · obtain ⟨c, hc, hx⟩ := List.mem_flatMap.1 hx
      exact hnum c hc x hx
    · have h2 : ∀ y ∈ str "M", y ∉ str "\t\n\x0c\r " := by decide
      exact h2 x hx
    · obtain ⟨c, hc, hx⟩ := List.mem_flatMap.1 hx
      exact hnum c hc x hx
  rw [stripSpace, List.filter_eq_self]
  intro x hx
  simpa using hall x hx

theorem valuesAtDepth_strip (p : Bytes) : valuesAtDepth (stripSpace p) = valuesAtDepth p := by
  unfold valuesAtDepth
  rw [pathString_eq, pathString_eq, stripSpace_idem]

theorem valuesAtDepth_valid {p : Bytes} (h : pathIsValid p = true) :
    ∃ cs, PathText (stripSpace p) cs ∧ (∀ c ∈ cs, CompOk c) ∧ valuesAtDepth p = (0 :: cs.map compVal, none) := by
  obtain ⟨cs, hcs, hok⟩ := (pathIsValid_iff p).1 h
  exact ⟨cs, hcs, hok, (valuesAtDepth_of_text hcs).1 hok⟩

theorem valuesAtDepth_length {p : Bytes} {cs : List Comp} (h : PathText (stripSpace p) cs) :
    (splitByte 47 (pathString p)).length = cs.length + 1 := by
  obtain ⟨w, -, -, e⟩ := splitByte_pathText h
  rw [pathString_eq, e]; simp

end Bips
