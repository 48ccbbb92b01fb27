import Verif.Spec.Nfkd
import Verif.Data.Words.Check

/-! # Texts that NFKD leaves alone, and a check of word lists in the kernel -/

namespace Bips
open Spec

variable {U : Unicode}

theorem utf8s_cons (c : Nat) (cs : List Nat) : utf8s (c :: cs) = utf8 c ++ utf8s cs := rfl

theorem utf8s_append (cs ds : List Nat) : utf8s (cs ++ ds) = utf8s cs ++ utf8s ds := List.flatMap_append

/-- Every mark comes directly after a starter; `m`: no mark may come first. -/
def Isolated : Bool → List Nat → Prop
  | _, [] => True
  | m, c :: cs => (Starter c ∧ Isolated false cs) ∨ (c ∈ marks ∧ m = false ∧ Isolated true cs)

theorem Isolated.weaken {cs : List Nat} : ∀ {m : Bool}, Isolated true cs → Isolated m cs := by
  intro m h
  cases cs with
  | nil => trivial
  | cons c cs =>
    rcases h with h | ⟨-, h, -⟩
    · exact .inl h
    · exact absurd h (by simp)

theorem Isolated.append {cs ds : List Nat} {m : Bool} (h1 : Isolated m cs) (h2 : Isolated true ds) : Isolated m (cs ++ ds) := by
  induction cs generalizing m with
  | nil => exact h2.weaken
  | cons c cs ih =>
    rcases h1 with ⟨a, b⟩ | ⟨a, b, c⟩
    · exact .inl ⟨a, ih b⟩
    · exact .inr ⟨a, b, ih c⟩

theorem Isolated.decomp (hU : U.Known) {cs : List Nat} {m : Bool} (h : Isolated m cs) : cs.flatMap U.decomp = cs := by
  induction cs generalizing m with
  | nil => rfl
  | cons c cs ih =>
    rcases h with ⟨a, b⟩ | ⟨a, -, b⟩
    · rw [List.flatMap_cons, (hU.starter c a).1, ih b]; rfl
    · rw [List.flatMap_cons, (hU.mark c a).1, ih b]; rfl

/-- Neighbours are never both marks. -/
theorem Isolated.no_swap (hU : U.Known) {cs : List Nat} {m : Bool} (h : Isolated m cs) (t : List Nat) : ¬ U.Swap cs t := by
  rintro ⟨pre, a, b, post, h1, h2⟩
  induction pre generalizing m with
  | nil =>
    rcases h with ⟨ha, h⟩ | ⟨ha, -, h⟩
    · rw [(hU.starter a ha).2] at h1; omega
    · rcases h with ⟨hb, -⟩ | ⟨-, hb, -⟩
      · rw [(hU.starter b hb).2] at h2; omega
      · exact absurd hb (by simp)
  | cons c pre ih =>
    rcases h with ⟨-, h⟩ | ⟨-, -, h⟩ <;> exact ih h

/-- A text is its own and only NFKD form if its decomposition has its marks isolated. -/
theorem nfkd_iff (hU : U.Known) {s d : List Nat} (hd : s.flatMap U.decomp = d) {m : Bool} (h : Isolated m d) (t : List Nat) :
    U.Nfkd s t ↔ t = d := by
  constructor
  · rintro ⟨h1, -⟩
    rw [hd] at h1
    rcases Relation.ReflTransGen.cases_head h1 with e | ⟨c, hc, -⟩
    · exact e.symm
    · exact absurd hc (h.no_swap hU c)
  · rintro rfl
    exact ⟨hd ▸ .refl, fun t' => h.no_swap hU t'⟩

/-! ### The normal form is unique -/

/-- Puts a code point in front of an ordered text. -/
def putMark (U : Unicode) (a : Nat) : List Nat → List Nat
  | [] => [a]
  | b :: l => if 0 < U.ccc b ∧ U.ccc b < U.ccc a then b :: putMark U a l else a :: b :: l

/-- Canonical order. -/
def canon (U : Unicode) : List Nat → List Nat
  | [] => []
  | a :: l => putMark U a (canon U l)

theorem putMark_comm {a b : Nat} (h1 : U.ccc b < U.ccc a) (h2 : 0 < U.ccc b) (l : List Nat) :
    putMark U a (putMark U b l) = putMark U b (putMark U a l) := by
  induction l with
  | nil =>
    have e1 : putMark U a [b] = [b, a] := by rw [putMark, if_pos ⟨h2, h1⟩, putMark]
    have e2 : putMark U b [a] = [b, a] := by rw [putMark, if_neg (by omega)]
    show putMark U a [b] = putMark U b [a]
    rw [e1, e2]
  | cons c l ih =>
    by_cases hc : 0 < U.ccc c ∧ U.ccc c < U.ccc b
    · rw [putMark, if_pos hc, putMark, if_pos ⟨hc.1, by omega⟩, putMark, if_pos ⟨hc.1, by omega⟩, putMark, if_pos hc, ih]
    · rw [putMark, if_neg hc, putMark, if_pos ⟨h2, h1⟩]
      by_cases hd : 0 < U.ccc c ∧ U.ccc c < U.ccc a
      · rw [putMark, if_pos hd, putMark, if_neg hc]
      · rw [putMark, if_neg hd, putMark, if_neg (by omega)]

theorem canon_append (pre : List Nat) {s t : List Nat} (h : canon U s = canon U t) : canon U (pre ++ s) = canon U (pre ++ t) := by
  induction pre with
  | nil => exact h
  | cons c pre ih => rw [List.cons_append, List.cons_append, canon, canon, ih]

theorem canon_swap {s t : List Nat} (h : U.Swap s t) : canon U s = canon U t := by
  obtain ⟨pre, a, b, post, h1, h2⟩ := h
  apply canon_append
  rw [canon, canon, canon, canon, putMark_comm h1 h2]

theorem canon_of_ordered {s : List Nat} (h : ∀ t, ¬ U.Swap s t) : canon U s = s := by
  induction s with
  | nil => rfl
  | cons a l ih =>
    have hl : ∀ t, ¬ U.Swap l t := by
      rintro t ⟨pre, c, d, post, h1, h2⟩
      exact h _ (.mk (a :: pre) c d post h1 h2)
    rw [canon, ih hl]
    cases l with
    | nil => rfl
    | cons b l =>
      rw [putMark, if_neg]
      rintro ⟨h1, h2⟩
      exact h _ (.mk [] a b l h2 h1)

theorem nfkd_unique {s t t' : List Nat} (h : U.Nfkd s t) (h' : U.Nfkd s t') : t = t' := by
  have key : ∀ {t}, U.Nfkd s t → canon U (s.flatMap U.decomp) = t := by
    intro t ht
    rw [← canon_of_ordered ht.2]
    have : ∀ {x y}, Relation.ReflTransGen U.Swap x y → canon U x = canon U y := by
      intro x y hxy
      induction hxy with
      | refl => rfl
      | tail _ h ih => exact ih.trans (canon_swap h)
    rw [this ht.1]
  rw [← key h, ← key h']

theorem swap_mem {s t : List Nat} (h : U.Swap s t) (c : Nat) : c ∈ t ↔ c ∈ s := by
  obtain ⟨pre, a, b, post, -, -⟩ := h
  simp only [List.mem_append, List.mem_cons]
  tauto

theorem nfkd_scalar (hU : U.Known) {s t : List Nat} (hs : ∀ c ∈ s, Scalar c) (h : U.Nfkd s t) : ∀ c ∈ t, Scalar c := by
  have : ∀ {x y}, Relation.ReflTransGen U.Swap x y → ∀ c, c ∈ y ↔ c ∈ x := by
    intro x y hxy
    induction hxy with
    | refl => exact fun _ => Iff.rfl
    | tail _ h ih => exact fun c => (swap_mem h c).trans (ih c)
  intro c hc
  rw [this h.1, List.mem_flatMap] at hc
  obtain ⟨a, ha, hc⟩ := hc
  exact hU.scalar a (hs a ha) c hc

theorem utf8s_inj {s t : List Nat} (hs : ∀ c ∈ s, Scalar c) (ht : ∀ c ∈ t, Scalar c) (h : utf8s s = utf8s t) : s = t := by
  have key : ∀ s : List Nat, (∀ c ∈ s, Scalar c) → (runes (utf8s s)).map (·.1) = s := by
    intro s hs
    induction s with
    | nil => rfl
    | cons c s ih =>
      rw [utf8s_cons, runes_utf8 (hs c (by simp)), List.map_cons, ih fun d hd => hs d (by simp [hd])]
  rw [← key s hs, ← key t ht, h]

/-! ### The check -/

/-- The Hiragana and Katakana among the starters, from U+3041 on. -/
def kana : Nat := 0x1c07ffffe0007e80000057ff9007ffffe4927ead555557ff

/-- `Starter` on numbers. -/
def starterB (c : Nat) : Bool :=
  bif Nat.ble 0x4e00 c then Nat.ble c 0x9fff
  else bif Nat.ble 0x3041 c then Nat.beq (Nat.land (Nat.shiftRight kana (c - 0x3041)) 1) 1
  else Nat.ble 0x1100 c && Nat.ble c 0x11ff

theorem kana_spec : ∀ i < 189, Nat.land (Nat.shiftRight kana i) 1 = 1 → ∃ r ∈ starters, r.1 ≤ 0x3041 + i ∧ 0x3041 + i ≤ r.2 := by
  decide +kernel

theorem starterB_spec {c : Nat} (h : starterB c = true) : Starter c := by
  rw [starterB] at h
  cases h1 : Nat.ble 0x4e00 c with
  | true =>
    rw [h1, cond_true] at h
    exact ⟨(0x4e00, 0x9fff), by decide, Nat.le_of_ble_eq_true h1, Nat.le_of_ble_eq_true h⟩
  | false =>
    rw [h1, cond_false] at h
    cases h2 : Nat.ble 0x3041 c with
    | true =>
      rw [h2, cond_true] at h
      have h2 := Nat.le_of_ble_eq_true h2
      have h := Nat.eq_of_beq_eq_true h
      by_cases hc : c - 0x3041 < 189
      · obtain ⟨r, h3, h4, h5⟩ := kana_spec _ hc h
        exact ⟨r, h3, by omega, by omega⟩
      · exfalso
        have hk : Nat.shiftRight kana (c - 0x3041) = 0 := by
          show kana >>> (c - 0x3041) = 0
          rw [Nat.shiftRight_eq_div_pow]
          apply Nat.div_eq_of_lt
          exact lt_of_lt_of_le (show kana < 2 ^ 189 by decide +kernel) (Nat.pow_le_pow_right (by decide) (by omega))
        rw [hk] at h
        exact absurd h (by decide)
    | false =>
      rw [h2, cond_false, Bool.and_eq_true] at h
      exact ⟨(0x1100, 0x11ff), by decide, Nat.le_of_ble_eq_true h.1, Nat.le_of_ble_eq_true h.2⟩

/-- UTF-8 bytes of starters and isolated marks. -/
def stable : Bool → List Nat → Bool
  | _, [] => true
  | m, x :: r =>
    bif Nat.blt x 0x7f then Nat.ble 0x20 x && stable false r
    else match r with
      | [] => false
      | y :: r =>
        bif Nat.beq x 0xcc then !m && (Nat.beq y 0x80 || Nat.beq y 0x81 || Nat.beq y 0x83) && stable true r
        else match r with
          | [] => false
          | z :: r =>
            bif Nat.ble 0xe1 x && Nat.ble x 0xef && Nat.ble 0x80 y && Nat.blt y 0xc0 && Nat.ble 0x80 z && Nat.blt z 0xc0 then
              bif starterB ((x - 0xe0) * 4096 + (y - 0x80) * 64 + (z - 0x80)) then stable false r
              else Nat.beq x 0xe3 && Nat.beq y 0x82 && (Nat.beq z 0x99 || Nat.beq z 0x9a) && !m && stable true r
            else false

theorem stable_spec (l : List Nat) : ∀ m, stable m l = true → ∃ cs, l = (utf8s cs).map UInt8.toNat ∧ Isolated m cs := by
  induction hn : l.length using Nat.strong_induction_on generalizing l with
  | _ n ih =>
    intro m h
    match l with
    | [] => exact ⟨[], rfl, trivial⟩
    | x :: r =>
      rw [stable.eq_def] at h; dsimp only at h
      by_cases hx : x < 0x7f
      · rw [show Nat.blt x 0x7f = true from Nat.ble_eq_true_of_le hx, cond_true, Bool.and_eq_true] at h
        obtain ⟨cs, h1, h2⟩ := ih r.length (by rw [← hn]; simp) r rfl _ h.2
        have h20 := Nat.le_of_ble_eq_true h.1
        refine ⟨x :: cs, ?_, .inl ⟨⟨(0x20, 0x7e), by decide, h20, by show x ≤ 0x7e; omega⟩, h2⟩⟩
        rw [h1, utf8s_cons, utf8, if_pos (by omega), List.map_append]
        simp [toNat_ofNat_lt (show x < 256 by omega)]
      · rw [show Nat.blt x 0x7f = false from by
          rw [← Bool.not_eq_true]; intro hh; exact hx (Nat.le_of_ble_eq_true hh), cond_false] at h
        match r with
        | [] => simp at h
        | y :: r =>
          dsimp only at h
          by_cases hx : Nat.beq x 0xcc = true
          · rw [hx, cond_true, Bool.and_eq_true, Bool.and_eq_true] at h
            obtain ⟨⟨hm, hy⟩, h⟩ := h
            obtain ⟨cs, h1, h2⟩ := ih r.length (by rw [← hn]; simp; omega) r rfl _ h
            obtain rfl := Nat.eq_of_beq_eq_true hx
            have hm : m = false := by simpa using hm
            simp only [Bool.or_eq_true, Nat.beq_eq] at hy
            have key : ∀ c, c ∈ marks → (utf8 c).map UInt8.toNat = [0xcc, y] →
                ∃ cs, 0xcc :: y :: r = (utf8s cs).map UInt8.toNat ∧ Isolated m cs := by
              intro c hc he
              refine ⟨c :: cs, ?_, .inr ⟨hc, hm, h2⟩⟩
              rw [h1, utf8s_cons, List.map_append, he]; rfl
            rcases hy with (rfl | rfl) | rfl
            · exact key 0x300 (by decide) (by decide)
            · exact key 0x301 (by decide) (by decide)
            · exact key 0x303 (by decide) (by decide)
          · rw [Bool.not_eq_true] at hx
            rw [hx, cond_false] at h
            match r with
            | [] => simp at h
            | z :: r =>
              dsimp only at h
              cases hc : (Nat.ble 0xe1 x && Nat.ble x 0xef && Nat.ble 0x80 y && Nat.blt y 0xc0 && Nat.ble 0x80 z && Nat.blt z 0xc0) with
              | false => rw [hc] at h; simp at h
              | true =>
                rw [hc, cond_true] at h
                simp only [Bool.and_eq_true] at hc
                obtain ⟨⟨⟨⟨⟨c1, c2⟩, c3⟩, c4⟩, c5⟩, c6⟩ := hc
                replace c1 := Nat.le_of_ble_eq_true c1
                replace c2 := Nat.le_of_ble_eq_true c2
                replace c3 := Nat.le_of_ble_eq_true c3
                replace c4 : y < 0xc0 := Nat.le_of_ble_eq_true c4
                replace c5 := Nat.le_of_ble_eq_true c5
                replace c6 : z < 0xc0 := Nat.le_of_ble_eq_true c6
                cases hs : starterB ((x - 0xe0) * 4096 + (y - 0x80) * 64 + (z - 0x80)) with
                | true =>
                  rw [hs, cond_true] at h
                  obtain ⟨cs, h1, h2⟩ := ih r.length (by rw [← hn]; simp; omega) r rfl _ h
                  refine ⟨((x - 0xe0) * 4096 + (y - 0x80) * 64 + (z - 0x80)) :: cs, ?_, .inl ⟨starterB_spec hs, h2⟩⟩
                  rw [h1, utf8s_cons, List.map_append, utf8, if_neg (by omega), if_neg (by omega),
                    if_pos (by omega)]
                  simp only [List.map_cons, List.map_nil, List.cons_append, List.nil_append]
                  generalize hcp : (x - 0xe0) * 4096 + (y - 0x80) * 64 + (z - 0x80) = c
                  have e1 : (UInt8.ofNat (0xE0 + c / 4096)).toNat = x := by rw [toNat_ofNat_lt (by omega)]; omega
                  have e2 : (UInt8.ofNat (0x80 + c / 64 % 64)).toNat = y := by rw [toNat_ofNat_lt (by omega)]; omega
                  have e3 : (UInt8.ofNat (0x80 + c % 64)).toNat = z := by rw [toNat_ofNat_lt (by omega)]; omega
                  rw [e1, e2, e3]
                | false =>
                  rw [hs, cond_false] at h
                  simp only [Bool.and_eq_true, Bool.or_eq_true, Nat.beq_eq, Bool.not_eq_true'] at h
                  obtain ⟨⟨⟨⟨rfl, rfl⟩, hz⟩, hm⟩, h⟩ := h
                  obtain ⟨cs, h1, h2⟩ := ih r.length (by rw [← hn]; simp; omega) r rfl _ h
                  rcases hz with rfl | rfl
                  · refine ⟨0x3099 :: cs, ?_, .inr ⟨by decide, hm, h2⟩⟩
                    rw [h1, utf8s_cons, List.map_append]; rfl
                  · refine ⟨0x309a :: cs, ?_, .inr ⟨by decide, hm, h2⟩⟩
                    rw [h1, utf8s_cons, List.map_append]; rfl

/-- The words of a list, checked. -/
def stableCodes (codes : List Nat) : Bool := codes.all fun n => stable true (natBytes 64 n [])

theorem stableCodes_spec {codes : List Nat} (h : stableCodes codes = true) (w : Bytes) (hw : w ∈ codes.map codeWord) :
    ∃ cs, w = utf8s cs ∧ Isolated true cs := by
  obtain ⟨n, hn, rfl⟩ := List.mem_map.1 hw
  obtain ⟨cs, h1, h2⟩ := stable_spec _ _ (List.all_eq_true.1 h n hn)
  refine ⟨cs, ?_, h2⟩
  rw [codeWord, h1, List.map_map]
  conv_rhs => rw [← List.map_id (utf8s cs)]
  apply List.map_congr_left
  intro a _
  simp

end Bips
