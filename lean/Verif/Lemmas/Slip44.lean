import Verif.Model.Slip44
import Verif.Lemmas.Bip44

/-!
# Lemmas on the SLIP-0044 document and its reader
-/

namespace Bips
open Spec

theorem splitTwo_append (a b : UInt8) (w s : Bytes) (hw : a ∉ w) :
    splitTwo a b (w ++ a :: b :: s) = w :: splitTwo a b s := by
  induction w with
  | nil => simp [splitTwo]
  | cons c w ih =>
    have hc : c ≠ a := fun h => hw (by simp [h])
    have ih := ih fun h => hw (by simp [h])
    cases w with
    | nil =>
      simp only [List.cons_append, List.nil_append] at ih ⊢
      rw [splitTwo, if_neg (by simp [hc]), ih]
    | cons d w =>
      simp only [List.cons_append] at ih ⊢
      rw [splitTwo, if_neg (by simp [hc]), ih]

theorem splitTwo_of_not_mem (a b : UInt8) (w : Bytes) (hw : a ∉ w) : splitTwo a b w = [w] := by
  induction w with
  | nil => rfl
  | cons c w ih =>
    have hc : c ≠ a := fun h => hw (by simp [h])
    have ih := ih fun h => hw (by simp [h])
    cases w with
    | nil => rfl
    | cons d w => rw [splitTwo, if_neg (by simp [hc]), ih]

theorem bar_str : str "| " = [124, 32] := by decide +kernel

theorem splitTwo_mdLine (cells : List (Bytes × Nat)) (h : ∀ c ∈ cells, CellText c.1) (w : Bytes) (hw : 124 ∉ w) :
    splitTwo 124 32 (w ++ mdLine cells) = w :: cells.map fun c => c.1 ++ List.replicate c.2 32 := by
  induction cells generalizing w with
  | nil => simpa [mdLine] using splitTwo_of_not_mem 124 32 w hw
  | cons c cells ih =>
    have e : mdLine (c :: cells) = 124 :: 32 :: ((c.1 ++ List.replicate c.2 32) ++ mdLine cells) := by
      simp [mdLine, bar_str]
    rw [e, splitTwo_append _ _ _ _ hw, ih (fun c hc => h c (by simp [hc])), List.map_cons]
    intro hm
    rcases List.mem_append.1 hm with hm | hm
    · exact (h c (by simp)).bar hm
    · exact absurd (List.eq_of_mem_replicate hm) (by decide)

theorem runes_blanks (n : Nat) : runes (List.replicate n 32) = List.replicate n (32, [32]) := by
  induction n with
  | zero => rfl
  | succ n ih =>
    rw [List.replicate_succ, List.replicate_succ, ← ih]
    have := runes_utf8 (r := 32) (by unfold IsScalar; omega) (List.replicate n 32)
    simpa [utf8] using this

theorem dropWhile_eq_self {α : Type} (p : α → Bool) (l : List α) (h : ∀ x, l.head? = some x → p x = false) :
    l.dropWhile p = l := by
  cases l with
  | nil => rfl
  | cons x l => rw [List.dropWhile_cons, h x rfl]; rfl

theorem trimSpace_cell {s : Bytes} (h : CellText s) (n : Nat) : trimSpace (s ++ List.replicate n 32) = s := by
  have hr : runes (s ++ List.replicate n 32) = runes s ++ List.replicate n (32, [32]) := by
    rw [runes_append, runes_blanks]
    cases n with
    | zero => simp [StartsRune]
    | succ n => rw [List.replicate_succ]; simp [StartsRune]
  have hf : ∀ x, (runes s).head? = some x → isSpace x.1 = false := by
    intro x hx
    by_contra hs
    rw [Bool.not_eq_false] at hs
    obtain ⟨l, hl⟩ : ∃ l, runes s = x :: l := by
      cases hl : runes s with
      | nil => rw [hl] at hx; cases hx
      | cons y l => rw [hl] at hx; cases hx; exact ⟨l, rfl⟩
    have hm : (x.1, x.2) ∈ runes s := by rw [hl]; simp
    have hw := (isSpace_iff _).1 hs
    rcases runes_mem hm with ⟨h1, -⟩ | ⟨-, h1⟩
    · rw [h1] at hs; exact absurd hs (by decide)
    · refine h.left x.1 hw ?_
      rw [← h1]
      have := runes_flatten s
      rw [hl, List.flatMap_cons] at this
      exact ⟨_, this⟩
  have hlast : ∀ x, (runes s).reverse.head? = some x → isSpace x.1 = false := by
    intro x hx
    by_contra hs
    rw [Bool.not_eq_false] at hs
    obtain ⟨l, hl⟩ : ∃ l, runes s = l ++ [x] := by
      cases hl : (runes s).reverse with
      | nil => rw [hl] at hx; cases hx
      | cons y l =>
        rw [hl] at hx; cases hx
        exact ⟨l.reverse, by rw [← List.reverse_reverse (runes s), hl, List.reverse_cons]⟩
    have hm : (x.1, x.2) ∈ runes s := by rw [hl]; simp
    have hw := (isSpace_iff _).1 hs
    rcases runes_mem hm with ⟨h1, -⟩ | ⟨-, h1⟩
    · rw [h1] at hs; exact absurd hs (by decide)
    · refine h.right x.1 hw ?_
      rw [← h1]
      have := runes_flatten s
      rw [hl, List.flatMap_append] at this
      exact ⟨l.flatMap (·.2), by simpa using this⟩
  have hb : ∀ m, (List.replicate m ((32 : Nat), [(32 : UInt8)])).dropWhile (fun r => isSpace r.1) = [] := by
    intro m
    rw [List.dropWhile_eq_nil_iff]
    intro x hx
    rw [List.eq_of_mem_replicate hx]
    decide
  unfold trimSpace
  rw [hr]
  cases hs : runes s with
  | nil =>
    have : s = [] := by rw [← runes_flatten s, hs]; rfl
    rw [List.nil_append, hb]
    simp [this]
  | cons x l =>
    rw [dropWhile_eq_self _ (x :: l ++ List.replicate n (32, [32]))
      (fun y hy => hf y (by rw [hs]; simpa using hy)), List.reverse_append, List.reverse_replicate,
      List.dropWhile_append, hb, List.isEmpty_nil, if_pos rfl, ← hs, dropWhile_eq_self _ _ hlast, List.reverse_reverse, runes_flatten]

theorem mdFields_mdLine (cells : List (Bytes × Nat)) (h : ∀ c ∈ cells, CellText c.1) :
    mdFields (mdLine cells) = cells.map (·.1) := by
  have e := splitTwo_mdLine cells h [] (by simp)
  rw [List.nil_append] at e
  rw [mdFields, e, List.drop_one, List.tail_cons, List.map_map]
  apply List.map_congr_left
  intro c hc
  exact trimSpace_cell (h c hc) c.2

theorem newline_mdLine (cells : List (Bytes × Nat)) (h : ∀ c ∈ cells, CellText c.1) : 10 ∉ mdLine cells := by
  intro hm
  obtain ⟨c, hc, hm⟩ := List.mem_flatMap.1 hm
  rw [bar_str] at hm
  simp only [List.mem_append, List.mem_cons, List.not_mem_nil, or_false] at hm
  rcases hm with (hm | hm) | hm
  · exact absurd hm (by decide)
  · exact (h c hc).newline hm
  · exact absurd (List.eq_of_mem_replicate hm) (by decide)

theorem splitByte_mdFile (rows : List (List (Bytes × Nat))) (h : ∀ r ∈ rows, ∀ c ∈ r, CellText c.1) :
    splitByte 10 (mdFile rows) = rows.map mdLine ++ [[]] := by
  induction rows with
  | nil => rfl
  | cons r rows ih =>
    have e : mdFile (r :: rows) = mdLine r ++ 10 :: mdFile rows := by simp [mdFile]
    rw [e, splitByte_append _ _ _ (newline_mdLine r (h r (by simp))), ih fun r hr => h r (by simp [hr])]
    rfl

/-! ### The shipped file -/

/-- No bar, no line break, and neither the first nor the last byte belongs to white space. -/
def goodCell (n : Nat) : Bool :=
  let b := natBytes 64 n []
  b.all (fun x => !(Nat.beq x 124) && !(Nat.beq x 10)) &&
    (b.isEmpty || (Nat.blt 32 (b.headD 0) && Nat.blt (b.headD 0) 0xC2 || Nat.beq (b.headD 0) 0xC3 ||
      Nat.beq (b.headD 0) 0xCE) &&
      (Nat.blt 32 (b.getLastD 0) && Nat.blt (b.getLastD 0) 128 || Nat.beq (b.getLastD 0) 0xB8))

theorem ws_head : ∀ c ∈ whiteSpace, ((utf8 c).headD 0).toNat < 33 ∨ ((utf8 c).headD 0).toNat ∈ [0xC2, 0xE1, 0xE2, 0xE3] := by
  decide +kernel

theorem ws_last : ∀ c ∈ whiteSpace, ((utf8 c).getLastD 0).toNat < 33 ∨
    (127 < ((utf8 c).getLastD 0).toNat ∧ ((utf8 c).getLastD 0).toNat ≠ 0xB8) := by
  decide +kernel

theorem headD_of_prefix {a s : Bytes} (h : a <+: s) (ha : a ≠ []) : s.headD 0 = a.headD 0 := by
  obtain ⟨t, rfl⟩ := h
  cases a with
  | nil => exact absurd rfl ha
  | cons x a => rfl

theorem getLastD_of_suffix {a s : Bytes} (h : a <:+ s) (ha : a ≠ []) : s.getLastD 0 = a.getLastD 0 := by
  obtain ⟨t, rfl⟩ := h
  rw [List.getLastD_eq_getLast?, List.getLastD_eq_getLast?, List.getLast?_append]
  obtain ⟨x, hx⟩ : ∃ x, a.getLast? = some x := ⟨_, List.getLast?_eq_some_getLast ha⟩
  simp [hx]

theorem goodCell_cellText {n : Nat} (h : goodCell n = true) : CellText (codeWord n) := by
  have hb := codeWord_toNat n
  unfold goodCell at h
  dsimp only at h
  rw [← hb] at h
  generalize codeWord n = s at h hb ⊢
  rw [Bool.and_eq_true] at h
  obtain ⟨h1, h2⟩ := h
  rw [List.all_map, List.all_eq_true] at h1
  have e1 : ∀ x ∈ s, x ≠ 124 ∧ x ≠ 10 := by
    intro x hx
    have := h1 x hx
    simp only [Function.comp, Bool.and_eq_true, Bool.not_eq_true'] at this
    constructor
    · rintro rfl; exact absurd this.1 (by decide)
    · rintro rfl; exact absurd this.2 (by decide)
  have eh : (s.map UInt8.toNat).headD 0 = (s.headD 0).toNat := by cases s <;> rfl
  have el : (s.map UInt8.toNat).getLastD 0 = (s.getLastD 0).toNat := by
    rw [List.getLastD_eq_getLast?, List.getLastD_eq_getLast?, List.getLast?_map]
    cases s.getLast? <;> rfl
  rw [eh, el] at h2
  simp only [Bool.or_eq_true, Bool.and_eq_true, Nat.blt_eq, Nat.beq_eq, List.isEmpty_iff, List.map_eq_nil_iff] at h2
  refine ⟨fun h => (e1 _ h).1 rfl, fun h => (e1 _ h).2 rfl, ?_, ?_⟩
  · intro c hc hp
    have e := headD_of_prefix hp (utf8_ne_nil c)
    have hw := ws_head c hc
    rw [← e] at hw
    simp only [List.mem_cons, List.not_mem_nil, or_false] at hw
    rcases h2 with h2 | h2
    · subst h2; exact utf8_ne_nil c (List.prefix_nil.1 hp)
    · omega
  · intro c hc hp
    have e := getLastD_of_suffix hp (utf8_ne_nil c)
    have hw := ws_last c hc
    rw [← e] at hw
    rcases h2 with h2 | h2
    · subst h2; exact utf8_ne_nil c (List.suffix_nil.1 hp)
    · omega

/-- The rows of the shipped file. -/
def slipRows : List (List (Bytes × Nat)) := Data.Slip44.lines.map fun l => l.map fun c => (codeWord c.1, c.2)

theorem slip44File_eq : slip44File = mdFile slipRows := by
  unfold slip44File mdFile slipRows
  rw [List.flatMap_map]
  apply List.flatMap_congr
  intro l _
  unfold MdLine.bytes mdLine
  rw [List.flatMap_map]

set_option maxRecDepth 100000 in
theorem slip_good : Data.Slip44.lines.all (fun l => l.all fun c => goodCell c.1) = true := by decide +kernel

theorem slipRows_cells : ∀ r ∈ slipRows, ∀ c ∈ r, CellText c.1 := by
  intro r hr c hc
  obtain ⟨l, hl, rfl⟩ := List.mem_map.1 hr
  obtain ⟨d, hd, rfl⟩ := List.mem_map.1 hc
  exact goodCell_cellText (List.all_eq_true.1 (List.all_eq_true.1 slip_good l hl) d hd)

end Bips
