import Verif.Go.Utf8
import Verif.Spec.Words
import Mathlib.Tactic.Linarith

/-! # Decoding lemmas: runes, fields and white space -/

namespace Bips
open Spec

/-- A Unicode scalar value. -/
def IsScalar (r : Nat) : Prop := r < 0x110000 ∧ ¬(0xD800 ≤ r ∧ r ≤ 0xDFFF)

/-- Does not start with a continuation byte. -/
def StartsRune (b : Bytes) : Prop := ∀ c l, b = c :: l → c.toNat < 0x80 ∨ 0xBF < c.toNat

theorem ofNat_eq_of_toNat {c : UInt8} {n : Nat} (h : c.toNat = n) : UInt8.ofNat n = c := by
  rw [← h]; simp

/-- Decoding a scalar value's encoding, whatever follows. -/
theorem decodeRune_utf8 {r : Nat} (h : IsScalar r) (s : Bytes) :
    decodeRune (utf8 r ++ s) = (r, (utf8 r).length) := by
  obtain ⟨h1, h2⟩ := h
  unfold utf8
  split_ifs with c1 c2 c3
  · have e : (UInt8.ofNat r).toNat = r := toNat_ofNat_lt (by omega)
    simp [decodeRune, e, c1]
  · have e1 : (UInt8.ofNat (0xC0 + r / 64)).toNat = 0xC0 + r / 64 := toNat_ofNat_lt (by omega)
    have e2 : (UInt8.ofNat (0x80 + r % 64)).toNat = 0x80 + r % 64 := toNat_ofNat_lt (by omega)
    simp only [List.cons_append, List.nil_append, decodeRune, e1, e2]
    rw [if_neg (by omega), if_neg (by omega), if_neg (by split_ifs <;> omega), if_pos (by omega)]
    refine Prod.ext ?_ rfl
    dsimp only; omega
  · have e1 : (UInt8.ofNat (0xE0 + r / 4096)).toNat = 0xE0 + r / 4096 := toNat_ofNat_lt (by omega)
    have e2 : (UInt8.ofNat (0x80 + r / 64 % 64)).toNat = 0x80 + r / 64 % 64 := toNat_ofNat_lt (by omega)
    have e3 : (UInt8.ofNat (0x80 + r % 64)).toNat = 0x80 + r % 64 := toNat_ofNat_lt (by omega)
    simp only [List.cons_append, List.nil_append, decodeRune, e1, e2, e3]
    rw [if_neg (by omega), if_neg (by omega), if_neg (by split_ifs <;> omega), if_neg (by omega), if_neg (by omega),
      if_pos (by omega)]
    refine Prod.ext ?_ rfl
    dsimp only; omega
  · have e1 : (UInt8.ofNat (0xF0 + r / 262144)).toNat = 0xF0 + r / 262144 := toNat_ofNat_lt (by omega)
    have e2 : (UInt8.ofNat (0x80 + r / 4096 % 64)).toNat = 0x80 + r / 4096 % 64 := toNat_ofNat_lt (by omega)
    have e3 : (UInt8.ofNat (0x80 + r / 64 % 64)).toNat = 0x80 + r / 64 % 64 := toNat_ofNat_lt (by omega)
    have e4 : (UInt8.ofNat (0x80 + r % 64)).toNat = 0x80 + r % 64 := toNat_ofNat_lt (by omega)
    simp only [List.cons_append, List.nil_append, decodeRune, e1, e2, e3, e4]
    rw [if_neg (by omega), if_neg (by omega), if_neg (by split_ifs <;> omega), if_neg (by omega), if_neg (by omega),
      if_neg (by omega), if_neg (by omega)]
    refine Prod.ext ?_ rfl
    dsimp only; omega

/-- Decoding gives an error of width 1 or consumes exactly the encoding of a scalar value. -/
theorem decodeRune_cases (c : UInt8) (s : Bytes) :
    decodeRune (c :: s) = (0xFFFD, 1) ∨ ∃ r tail, IsScalar r ∧ c :: s = utf8 r ++ tail := by
  have hc := c.toNat_lt
  unfold decodeRune
  dsimp only
  split
  · right
    refine ⟨c.toNat, s, ⟨by omega, by omega⟩, ?_⟩
    rw [utf8, if_pos (by assumption), ofNat_eq_of_toNat rfl]; rfl
  split
  · left; rfl
  rcases s with _ | ⟨b1, s⟩
  · left; rfl
  have h1 := b1.toNat_lt
  dsimp only
  rename_i hx hx2
  generalize hlo : (if c.toNat = 0xE0 then 0xA0 else if c.toNat = 0xF0 then 0x90 else 0x80) = lo
  generalize hhi : (if c.toNat = 0xED then 0x9F else if c.toNat = 0xF4 then 0x8F else 0xBF) = hi
  have hlo1 : 0x80 ≤ lo ∧ (c.toNat = 0xE0 → lo = 0xA0) ∧ (c.toNat = 0xF0 → lo = 0x90) := by
    split_ifs at hlo <;> omega
  have hhi1 : hi ≤ 0xBF ∧ (c.toNat = 0xED → hi = 0x9F) ∧ (c.toNat = 0xF4 → hi = 0x8F) := by
    split_ifs at hhi <;> omega
  clear hlo hhi
  split
  · left; rfl
  rename_i hy
  split
  · right
    refine ⟨c.toNat % 32 * 64 + b1.toNat % 64, s, ⟨by omega, by omega⟩, ?_⟩
    rw [utf8, if_neg (by omega), if_pos (by omega), ofNat_eq_of_toNat (c := c) (by omega),
      ofNat_eq_of_toNat (c := b1) (by omega)]
    rfl
  rcases s with _ | ⟨b2, s⟩
  · left; rfl
  have h2 := b2.toNat_lt
  dsimp only
  split
  · left; rfl
  split
  · right
    refine ⟨c.toNat % 16 * 4096 + b1.toNat % 64 * 64 + b2.toNat % 64, s, ⟨by omega, by omega⟩, ?_⟩
    rw [utf8, if_neg (by omega), if_neg (by omega), if_pos (by omega),
      ofNat_eq_of_toNat (c := c) (by omega), ofNat_eq_of_toNat (c := b1) (by omega),
      ofNat_eq_of_toNat (c := b2) (by omega)]
    rfl
  rcases s with _ | ⟨b3, s⟩
  · left; rfl
  have h3 := b3.toNat_lt
  dsimp only
  split
  · left; rfl
  right
  refine ⟨c.toNat % 8 * 262144 + b1.toNat % 64 * 4096 + b2.toNat % 64 * 64 + b3.toNat % 64, s,
    ⟨by omega, by omega⟩, ?_⟩
  rw [utf8, if_neg (by omega), if_neg (by omega),
    if_neg (by omega),
    ofNat_eq_of_toNat (c := c) (by omega), ofNat_eq_of_toNat (c := b1) (by omega),
    ofNat_eq_of_toNat (c := b2) (by omega), ofNat_eq_of_toNat (c := b3) (by omega)]
  rfl

theorem utf8_ne_nil (r : Nat) : utf8 r ≠ [] := by
  unfold utf8; split_ifs <;> simp

theorem utf8_length_pos (r : Nat) : 1 ≤ (utf8 r).length := List.length_pos_iff.2 (utf8_ne_nil r)

/-- Encodings start with a lead byte and continue with continuation bytes. -/
theorem utf8_shape {r : Nat} (h : IsScalar r) : ∃ c l, utf8 r = c :: l ∧ (c.toNat < 0x80 ∨ 0xBF < c.toNat) ∧
    ∀ b ∈ l, 0x80 ≤ b.toNat ∧ b.toNat ≤ 0xBF := by
  obtain ⟨h1, -⟩ := h
  unfold utf8
  split_ifs with c1 c2 c3
  · refine ⟨_, _, rfl, ?_, by simp⟩
    rw [toNat_ofNat_lt (by omega)]; omega
  · refine ⟨_, _, rfl, ?_, ?_⟩
    · rw [toNat_ofNat_lt (by omega)]; omega
    · simp only [List.mem_cons, List.not_mem_nil, or_false, forall_eq]
      rw [toNat_ofNat_lt (by omega)]; omega
  · refine ⟨_, _, rfl, ?_, ?_⟩
    · rw [toNat_ofNat_lt (by omega)]; omega
    · simp only [List.mem_cons, List.not_mem_nil, or_false, forall_eq_or_imp, forall_eq]
      rw [toNat_ofNat_lt (by omega), toNat_ofNat_lt (by omega)]; omega
  · refine ⟨_, _, rfl, ?_, ?_⟩
    · rw [toNat_ofNat_lt (by omega)]; omega
    · simp only [List.mem_cons, List.not_mem_nil, or_false, forall_eq_or_imp, forall_eq]
      rw [toNat_ofNat_lt (by omega), toNat_ofNat_lt (by omega), toNat_ofNat_lt (by omega)]; omega

theorem decodeRune_width (c : UInt8) (s : Bytes) :
    1 ≤ (decodeRune (c :: s)).2 ∧ (decodeRune (c :: s)).2 ≤ (c :: s).length := by
  rcases decodeRune_cases c s with h | ⟨r, t, hr, h⟩
  · rw [h]; simp
  · rw [h, decodeRune_utf8 hr]
    have := utf8_length_pos r
    simp; omega

/-- What follows a non-empty prefix does not matter if it does not start with a continuation byte. -/
theorem decodeRune_append (c : UInt8) (a b : Bytes) (hb : StartsRune b) :
    decodeRune (c :: a ++ b) = decodeRune (c :: a) := by
  rcases decodeRune_cases c a with h | ⟨r, t, hr, h⟩
  · rcases decodeRune_cases c (a ++ b) with h' | ⟨r, t, hr, h'⟩
    · rw [h]; exact h'
    · -- the encoding cannot reach into `b`
      rw [← List.cons_append] at h'
      obtain ⟨d, l, hd, -, hl⟩ := utf8_shape hr
      rcases List.append_eq_append_iff.1 h' with ⟨u, hu1, hu2⟩ | ⟨u, hu1, hu2⟩
      · cases u with
        | nil =>
          rw [List.append_nil] at hu1
          rw [h', decodeRune_utf8 hr, ← hu1]
          have := decodeRune_utf8 hr []
          rw [List.append_nil] at this
          rw [hu1] at this ⊢
          rw [this]
        | cons e u =>
          exfalso
          have h1 := hb e _ hu2
          have h2 : e ∈ l := by
            rw [hd] at hu1
            simp only [List.cons_append, List.cons.injEq] at hu1
            rw [hu1.2]; simp
          have := hl e h2
          omega
      · rw [h', decodeRune_utf8 hr, hu1, decodeRune_utf8 hr]
  · rw [h, List.append_assoc, decodeRune_utf8 hr, decodeRune_utf8 hr]

theorem runesF_fuel (s : Bytes) : ∀ f g : Nat, s.length ≤ f → s.length ≤ g → runesF f s = runesF g s := by
  intro f
  induction f generalizing s with
  | zero =>
    intro g hf hg
    have : s = [] := List.length_eq_zero_iff.1 (by omega)
    subst this
    cases g <;> rfl
  | succ f ih =>
    intro g hf hg
    cases s with
    | nil => cases g <;> rfl
    | cons c s =>
      cases g with
      | zero => simp at hg
      | succ g =>
        rw [runesF, runesF]
        have hw := decodeRune_width c s
        congr 1
        apply ih
        · rw [List.length_drop]; omega
        · rw [List.length_drop]; omega

@[simp] theorem runes_nil : runes [] = [] := rfl

theorem runes_cons (c : UInt8) (s : Bytes) : runes (c :: s) =
    ((decodeRune (c :: s)).1, (c :: s).take (decodeRune (c :: s)).2) :: runes ((c :: s).drop (decodeRune (c :: s)).2) := by
  have hw := decodeRune_width c s
  rw [runes, List.length_cons, runesF, runes]
  congr 1
  apply runesF_fuel
  · rw [List.length_drop, List.length_cons]; omega
  · rfl

theorem runes_utf8 {r : Nat} (h : IsScalar r) (s : Bytes) : runes (utf8 r ++ s) = (r, utf8 r) :: runes s := by
  have hd := decodeRune_utf8 h s
  cases he : utf8 r with
  | nil => exact absurd he (utf8_ne_nil r)
  | cons c l =>
    rw [he] at hd
    rw [List.cons_append] at hd ⊢
    rw [runes_cons, hd]
    dsimp only
    rw [← List.cons_append, List.take_left, List.drop_left]

theorem runes_append (a b : Bytes) (hb : StartsRune b) : runes (a ++ b) = runes a ++ runes b := by
  induction hn : a.length using Nat.strong_induction_on generalizing a with
  | _ n ih =>
    cases a with
    | nil => simp
    | cons c a =>
      have hw := decodeRune_width c a
      rw [List.cons_append, runes_cons, ← List.cons_append, decodeRune_append c a b hb, runes_cons c a,
        List.take_append_of_le_length hw.2, List.drop_append_of_le_length hw.2,
        ih _ (by rw [← hn, List.length_drop]; simp only [List.length_cons] at hw ⊢; omega) _ rfl]
      rfl

/-- The runes partition the string. -/
theorem runes_flatten (s : Bytes) : (runes s).flatMap (·.2) = s := by
  induction hn : s.length using Nat.strong_induction_on generalizing s with
  | _ n ih =>
    cases s with
    | nil => rfl
    | cons c s =>
      have hw := decodeRune_width c s
      rw [runes_cons, List.flatMap_cons, ih _ (by rw [← hn, List.length_drop, List.length_cons]; omega) _ rfl,
        List.take_append_drop]

theorem runes_ne_nil {s : Bytes} (h : s ≠ []) : runes s ≠ [] := by
  cases s with
  | nil => exact absurd rfl h
  | cons c s => rw [runes_cons]; simp

theorem isSpace_iff (r : Nat) : isSpace r = true ↔ r ∈ whiteSpace := by
  simp only [isSpace, whiteSpace, Bool.or_eq_true, Bool.and_eq_true, decide_eq_true_eq, beq_iff_eq, List.mem_cons,
    List.not_mem_nil, or_false]
  omega

theorem scalar_of_ws {c : Nat} (h : c ∈ whiteSpace) : IsScalar c := by
  have : ∀ c ∈ whiteSpace, c < 0x110000 ∧ ¬(0xD800 ≤ c ∧ c ≤ 0xDFFF) := by decide +kernel
  exact this c h

/-- A rune in the list is an error of one byte or comes with its own encoding. -/
theorem runes_mem {s : Bytes} {r : Nat} {ch : Bytes} (h : (r, ch) ∈ runes s) :
    (r = 0xFFFD ∧ ch ≠ []) ∨ (IsScalar r ∧ ch = utf8 r) := by
  induction hn : s.length using Nat.strong_induction_on generalizing s with
  | _ n ih =>
    cases s with
    | nil => simp at h
    | cons c s =>
      have hw := decodeRune_width c s
      rw [runes_cons, List.mem_cons] at h
      rcases h with h | h
      · rcases decodeRune_cases c s with e | ⟨q, t, hq, e⟩
        · rw [e] at h
          obtain ⟨rfl, rfl⟩ := Prod.mk.inj h
          left; simp
        · rw [e, decodeRune_utf8 hq] at h
          obtain ⟨rfl, rfl⟩ := Prod.mk.inj h
          right; rw [List.take_left]; exact ⟨hq, rfl⟩
      · exact ih _ (by rw [← hn, List.length_drop, List.length_cons]; omega) h rfl

/-- `NoWs` in terms of the decoder. -/
theorem noWs_iff (w : Bytes) : NoWs w ↔ ∀ p ∈ runes w, isSpace p.1 = false := by
  constructor
  · intro h p hp
    by_contra hs
    rw [Bool.not_eq_false, isSpace_iff] at hs
    obtain ⟨r, ch⟩ := p
    dsimp only at hs
    have hch : ch = utf8 r := by
      rcases runes_mem hp with ⟨rfl, -⟩ | ⟨-, h⟩
      · exact absurd hs (by decide)
      · exact h
    obtain ⟨a, b, hab⟩ := List.append_of_mem hp
    have := runes_flatten w
    rw [hab] at this
    simp only [List.flatMap_append, List.flatMap_cons] at this
    rw [hch] at this
    exact h (a.flatMap (·.2)) r (b.flatMap (·.2)) hs (by rw [List.append_assoc]; exact this.symm)
  · intro h a c b hc e
    have hsc := scalar_of_ws hc
    have hst : StartsRune (utf8 c ++ b) := by
      obtain ⟨d, l, hd, h1, -⟩ := utf8_shape hsc
      intro x l' hx
      rw [hd] at hx
      obtain ⟨rfl, -⟩ := List.cons.inj hx
      exact h1
    have hr : runes w = runes a ++ (c, utf8 c) :: runes b := by
      rw [e, List.append_assoc, runes_append _ _ hst, runes_utf8 hsc]
    have := h (c, utf8 c) (by rw [hr]; simp)
    rw [(isSpace_iff c).2 hc] at this
    simp at this

/-! ### `strings.Fields` -/

theorem fieldsLoop_space (cs : List Nat) (h : ∀ c ∈ cs, c ∈ whiteSpace) (s : Bytes) :
    fieldsLoop (runes (cs.flatMap utf8 ++ s)) [] = fieldsLoop (runes s) [] := by
  induction cs with
  | nil => rfl
  | cons c cs ih =>
    have hc := h c (by simp)
    rw [List.flatMap_cons, List.append_assoc, runes_utf8 (scalar_of_ws hc), fieldsLoop,
      if_pos ((isSpace_iff c).2 hc), if_pos rfl]
    exact ih fun x hx => h x (by simp [hx])

theorem fieldsLoop_word (l : List (Nat × Bytes)) (h : ∀ p ∈ l, isSpace p.1 = false) (rest : List (Nat × Bytes))
    (cur : Bytes) : fieldsLoop (l ++ rest) cur = fieldsLoop rest (cur ++ l.flatMap (·.2)) := by
  induction l generalizing cur with
  | nil => simp
  | cons p l ih =>
    obtain ⟨r, b⟩ := p
    rw [List.cons_append, fieldsLoop, if_neg (by rw [h (r, b) (by simp)]; simp),
      ih (fun p hp => h p (by simp [hp])), List.flatMap_cons, List.append_assoc]

theorem startsRune_ws {cs : List Nat} (h : ∀ c ∈ cs, c ∈ whiteSpace) (s : Bytes) (hne : cs ≠ [] ∨ s = []) :
    StartsRune (cs.flatMap utf8 ++ s) := by
  cases cs with
  | nil =>
    rcases hne with h | rfl
    · exact absurd rfl h
    · intro c l e; simp at e
  | cons c cs =>
    obtain ⟨d, l, hd, h1, -⟩ := utf8_shape (scalar_of_ws (h c (by simp)))
    intro x l' hx
    rw [List.flatMap_cons, hd] at hx
    obtain ⟨rfl, -⟩ := List.cons.inj hx
    exact h1

theorem fields_layout {s : Bytes} {ws : List Bytes} (h : Layout s ws) : fields s = ws := by
  induction h with
  | nil h =>
    obtain ⟨cs, hcs, rfl⟩ := h
    have := fieldsLoop_space cs hcs []
    rw [List.append_nil] at this
    rw [fields, this]; rfl
  | @last pre w post hpre hw hpost =>
    obtain ⟨cs, hcs, rfl⟩ := hpre
    obtain ⟨ds, hds, rfl⟩ := hpost
    have hn := (noWs_iff w).1 hw.2
    rw [fields, List.append_assoc, fieldsLoop_space cs hcs]
    have hst := startsRune_ws hds [] (Or.inr rfl)
    rw [List.append_nil] at hst
    rw [runes_append _ _ hst, fieldsLoop_word _ hn, runes_flatten, List.nil_append]
    cases ds with
    | nil => simp [fieldsLoop, hw.1]
    | cons d ds =>
      have hd := hds d (by simp)
      rw [List.flatMap_cons, runes_utf8 (scalar_of_ws hd), fieldsLoop, if_pos ((isSpace_iff d).2 hd), if_neg hw.1]
      have := fieldsLoop_space ds (fun x hx => hds x (by simp [hx])) []
      rw [List.append_nil] at this
      rw [this]; rfl
  | @cons pre w sep rest ws hpre hw hsep hne hrest ih =>
    obtain ⟨cs, hcs, rfl⟩ := hpre
    obtain ⟨ds, hds, rfl⟩ := hsep
    have hn := (noWs_iff w).1 hw.2
    rw [fields, List.append_assoc, List.append_assoc, fieldsLoop_space cs hcs]
    cases ds with
    | nil => simp at hne
    | cons d ds =>
      have hst := startsRune_ws hds rest (Or.inl (by simp))
      have hd := hds d (by simp)
      rw [runes_append _ _ hst, fieldsLoop_word _ hn, runes_flatten, List.nil_append, List.flatMap_cons,
        List.append_assoc, runes_utf8 (scalar_of_ws hd), fieldsLoop, if_pos ((isSpace_iff d).2 hd), if_neg hw.1,
        fieldsLoop_space ds (fun x hx => hds x (by simp [hx]))]
      rw [fields] at ih
      rw [ih]

theorem isWs_nil : IsWs [] := ⟨[], by simp, rfl⟩

theorem isWs_cons {c : Nat} (hc : c ∈ whiteSpace) {s : Bytes} (h : IsWs s) : IsWs (utf8 c ++ s) := by
  obtain ⟨cs, hcs, rfl⟩ := h
  refine ⟨c :: cs, ?_, rfl⟩
  simp only [List.mem_cons, forall_eq_or_imp]
  exact ⟨hc, hcs⟩

theorem isWs_append {s t : Bytes} (hs : IsWs s) (ht : IsWs t) : IsWs (s ++ t) := by
  obtain ⟨cs, hcs, rfl⟩ := hs
  obtain ⟨ds, hds, rfl⟩ := ht
  refine ⟨cs ++ ds, ?_, by simp⟩
  intro c hc
  rcases List.mem_append.1 hc with h | h
  · exact hcs c h
  · exact hds c h

theorem layout_ws_left {c : Nat} (hc : c ∈ whiteSpace) {s : Bytes} {ws : List Bytes} (h : Layout s ws) :
    Layout (utf8 c ++ s) ws := by
  cases h with
  | nil h => exact .nil (isWs_cons hc h)
  | last h1 h2 h3 =>
    rw [List.append_assoc, ← List.append_assoc, ← List.append_assoc]
    exact .last (isWs_cons hc h1) h2 h3
  | cons h1 h2 h3 h4 h5 =>
    rw [List.append_assoc, List.append_assoc, ← List.append_assoc, ← List.append_assoc, ← List.append_assoc]
    exact .cons (isWs_cons hc h1) h2 h3 h4 h5

/-- A rune list cut from a string, seen as a string. -/
theorem noWs_of_runes {w : Bytes} {l : List (Nat × Bytes)} (hr : runes w = l) (h : ∀ p ∈ l, isSpace p.1 = false) :
    NoWs w := (noWs_iff w).2 (by rw [hr]; exact h)

/-- Cutting a string at a rune boundary. -/
theorem runes_take {s : Bytes} {l m : List (Nat × Bytes)} (h : runes s = l ++ m) :
    runes (l.flatMap (·.2)) = l ∧ runes (m.flatMap (·.2)) = m := by
  induction l generalizing s with
  | nil =>
    refine ⟨rfl, ?_⟩
    rw [List.nil_append] at h
    rw [← h, runes_flatten]
  | cons p l ih =>
    cases s with
    | nil => simp at h
    | cons c s =>
      rw [runes_cons, List.cons_append, List.cons.injEq] at h
      obtain ⟨rfl, ht⟩ := h
      obtain ⟨h1, h2⟩ := ih ht
      refine ⟨?_, h2⟩
      have hx : (c :: s).drop (decodeRune (c :: s)).2 = l.flatMap (·.2) ++ m.flatMap (·.2) := by
        have := runes_flatten ((c :: s).drop (decodeRune (c :: s)).2)
        rw [ht, List.flatMap_append] at this
        exact this.symm
      rw [List.flatMap_cons]
      rcases decodeRune_cases c s with e | ⟨r, t, hr, e⟩
      · rw [e] at hx ⊢
        dsimp only at hx ⊢
        rw [List.take_succ_cons, List.take_zero, List.cons_append, List.nil_append]
        rw [List.drop_succ_cons, List.drop_zero] at hx
        have hdec : decodeRune (c :: l.flatMap (·.2)) = (0xFFFD, 1) := by
          rcases decodeRune_cases c (l.flatMap (·.2)) with e' | ⟨q, t, hq, e'⟩
          · exact e'
          · exfalso
            rw [hx, ← List.cons_append, e', List.append_assoc, decodeRune_utf8 hq] at e
            obtain ⟨rfl, h3⟩ := Prod.mk.inj e
            exact absurd h3 (by decide)
        rw [runes_cons, hdec]
        dsimp only
        rw [List.take_succ_cons, List.take_zero, List.drop_succ_cons, List.drop_zero, h1]
      · have e1 : decodeRune (c :: s) = (r, (utf8 r).length) := by rw [e, decodeRune_utf8 hr]
        rw [e1]
        dsimp only
        rw [e, List.take_left, runes_utf8 hr, h1]

theorem layout_fields (s : Bytes) : Layout s (fields s) := by
  suffices H : ∀ (n : Nat) (l : List (Nat × Bytes)), l.length = n → ∀ s, runes s = l → Layout s (fieldsLoop l []) from
    H _ (runes s) rfl s rfl
  intro n
  induction n using Nat.strong_induction_on with
  | _ n ih =>
    intro l hn s hs
    cases l with
    | nil =>
      have : s = [] := by
        by_contra h; exact runes_ne_nil h hs
      subst this
      exact .nil isWs_nil
    | cons p l =>
      cases hp : isSpace p.1 with
      | true =>
        obtain ⟨r, b⟩ := p
        have hp' := (isSpace_iff r).1 hp
        have hb : b = utf8 r := by
          rcases runes_mem (s := s) (r := r) (ch := b) (by rw [hs]; simp) with ⟨rfl, -⟩ | ⟨-, h⟩
          · exact absurd hp' (by decide)
          · exact h
        have hfl := runes_flatten s
        rw [hs, List.flatMap_cons] at hfl
        have h2 := (runes_take (l := [(r, b)]) (m := l) hs).2
        rw [← hfl, fieldsLoop, if_pos hp, if_pos rfl]
        dsimp only
        rw [hb]
        exact layout_ws_left hp' (ih l.length (by rw [← hn]; simp) l rfl _ h2)
      | false =>
        have hsplit := List.takeWhile_append_dropWhile (p := fun q : Nat × Bytes => !isSpace q.1) (l := p :: l)
        have hall : ∀ q ∈ (p :: l).takeWhile (fun q => !isSpace q.1), isSpace q.1 = false := by
          intro q hq
          have := List.mem_takeWhile_imp hq
          simpa using this
        have hne : (p :: l).takeWhile (fun q => !isSpace q.1) ≠ [] := by
          rw [List.takeWhile_cons]; simp [hp]
        generalize hl1 : (p :: l).takeWhile (fun q => !isSpace q.1) = l1 at hsplit hall hne
        generalize hl2 : (p :: l).dropWhile (fun q => !isSpace q.1) = l2 at hsplit
        have hcut := runes_take (l := l1) (m := l2) (by rw [hs, hsplit])
        have hw : IsWord (l1.flatMap (·.2)) := by
          refine ⟨?_, noWs_of_runes hcut.1 hall⟩
          intro e
          rw [e] at hcut
          exact hne hcut.1.symm
        have hfl := runes_flatten s
        rw [hs, ← hsplit, List.flatMap_append] at hfl
        rw [← hsplit, fieldsLoop_word _ hall, List.nil_append]
        cases l2 with
        | nil =>
          rw [fieldsLoop, if_neg hw.1, ← hfl]
          have := Layout.last isWs_nil hw isWs_nil
          simpa using this
        | cons q l3 =>
          have hq : isSpace q.1 = true := by
            have := List.head?_dropWhile_not (fun q : Nat × Bytes => !isSpace q.1) (p :: l)
            rw [hl2] at this
            simpa using this
          obtain ⟨r, b⟩ := q
          have hq' := (isSpace_iff r).1 hq
          have hb : b = utf8 r := by
            rcases runes_mem (s := s) (r := r) (ch := b) (by rw [hs, ← hsplit]; simp) with ⟨rfl, -⟩ | ⟨-, h⟩
            · exact absurd hq' (by decide)
            · exact h
          rw [fieldsLoop, if_pos hq, if_neg hw.1, ← hfl]
          have h3 := (runes_take (l := l1 ++ [(r, b)]) (m := l3) (by rw [hs, ← hsplit]; simp)).2
          have hlen : l3.length < n := by
            rw [← hn, ← hsplit]; simp; omega
          have := Layout.cons isWs_nil hw (sep := utf8 r) (by simpa using isWs_cons hq' isWs_nil) (utf8_ne_nil r)
            (ih _ hlen l3 rfl _ h3)
          simpa [hb, List.append_assoc] using this

/-- `strings.Fields` computes the unique list of words. -/
theorem layout_iff (s : Bytes) (ws : List Bytes) : Layout s ws ↔ fields s = ws :=
  ⟨fields_layout, fun h => h ▸ layout_fields s⟩

theorem fields_isWord {s w : Bytes} (h : w ∈ fields s) : IsWord w := by
  have := layout_fields s
  generalize fields s = ws at *
  induction this with
  | nil _ => simp at h
  | last _ hw _ => rw [List.mem_singleton] at h; rw [h]; exact hw
  | cons _ hw _ _ _ ih =>
    rcases List.mem_cons.1 h with rfl | h
    · exact hw
    · exact ih h

end Bips
