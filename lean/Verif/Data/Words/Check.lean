import Verif.Go.Crc32
import Verif.Lemmas.Bip39
import Verif.Data.Words.Macro

/-!
# Checking a word list in the kernel

Programs on numbers that the kernel evaluates quickly, and their correctness.
-/

namespace Bips
open Spec

/-- The big-endian bytes of `n`, at most `f` of them, in front of `acc`. -/
def natBytes : Nat → Nat → List Nat → List Nat
  | 0, _, acc => acc
  | f + 1, n, acc => bif Nat.beq n 0 then acc else natBytes f (n / 256) (n % 256 :: acc)

/-- The word with the given number. -/
def codeWord (n : Nat) : Bytes := (natBytes 64 n []).map UInt8.ofNat

/-! ### Distinct words -/

/-- Merges two lists; `f` bounds the number of comparisons. -/
def mergeF : Nat → List Nat → List Nat → List Nat
  | 0, a, b => a ++ b
  | _ + 1, [], b => b
  | _ + 1, x :: a, [] => x :: a
  | f + 1, x :: a, y :: b => bif Nat.ble x y then x :: mergeF f a (y :: b) else y :: mergeF f (x :: a) b

/-- Merges neighbours. -/
def mergePairs : List (List Nat) → List (List Nat)
  | a :: b :: r => mergeF 16384 a b :: mergePairs r
  | r => r

/-- `f` rounds of merging. -/
def mergeRounds : Nat → List (List Nat) → List Nat
  | 0, ls => ls.flatten
  | f + 1, ls => mergeRounds f (mergePairs ls)

/-- Strictly increasing. -/
def strictly : List Nat → Bool
  | x :: y :: r => bif Nat.blt x y then strictly (y :: r) else false
  | _ => true

/-- The list has no duplicates (seen after sorting). -/
def distinct (l : List Nat) : Bool := strictly (mergeRounds 14 (l.map fun x => [x]))

theorem mergeF_perm (f : Nat) (a b : List Nat) : (mergeF f a b).Perm (a ++ b) := by
  induction f generalizing a b with
  | zero => exact .refl _
  | succ f ih =>
    cases a with
    | nil => exact .refl _
    | cons x a =>
      cases b with
      | nil => simp [mergeF]
      | cons y b =>
        rw [mergeF]
        cases Nat.ble x y with
        | true => exact (ih a (y :: b)).cons x
        | false =>
          refine ((ih (x :: a) b).cons y).trans ?_
          exact (List.perm_middle (l₁ := x :: a)).symm

theorem mergePairs_perm (ls : List (List Nat)) : (mergePairs ls).flatten.Perm ls.flatten := by
  induction hn : ls.length using Nat.strong_induction_on generalizing ls with
  | _ n ih =>
    match ls with
    | [] => exact .refl _
    | [a] => exact .refl _
    | a :: b :: r =>
      rw [mergePairs, List.flatten_cons, List.flatten_cons, List.flatten_cons, ← List.append_assoc]
      exact (mergeF_perm _ a b).append (ih r.length (by rw [← hn]; simp only [List.length_cons]; omega) r rfl)

theorem mergeRounds_perm (f : Nat) (ls : List (List Nat)) : (mergeRounds f ls).Perm ls.flatten := by
  induction f generalizing ls with
  | zero => exact .refl _
  | succ f ih => exact (ih _).trans (mergePairs_perm ls)

theorem strictly_pairwise (l : List Nat) (h : strictly l = true) : l.Pairwise (· < ·) := by
  induction l with
  | nil => exact .nil
  | cons x l ih =>
    cases l with
    | nil => simp
    | cons y r =>
      rw [strictly] at h
      cases hxy : Nat.blt x y with
      | false => rw [hxy] at h; simp at h
      | true =>
        rw [hxy] at h
        have hr := ih h
        have hxy : x < y := by
          have : Nat.ble (x + 1) y = true := hxy
          exact Nat.le_of_ble_eq_true this
        refine List.pairwise_cons.2 ⟨?_, hr⟩
        intro z hz
        rcases List.mem_cons.1 hz with rfl | hz
        · exact hxy
        · exact hxy.trans ((List.pairwise_cons.1 hr).1 z hz)

theorem distinct_nodup {l : List Nat} (h : distinct l = true) : l.Nodup := by
  have hp := mergeRounds_perm 14 (l.map fun x => [x])
  have hf : (l.map fun x => [x]).flatten = l := by
    clear h hp
    induction l with
    | nil => rfl
    | cons x l ih => rw [List.map_cons, List.flatten_cons, ih]; rfl
  rw [hf] at hp
  exact hp.nodup_iff.1 ((strictly_pairwise _ h).imp fun h => Nat.ne_of_lt h)

/-! ### Words without white space -/

/-- Bytes that could begin a white space character. -/
def startsWs : List Nat → Bool
  | [] => false
  | [x] => Nat.blt x 33 || Nat.beq x 0xC2 || Nat.beq x 0xE2
  | x :: y :: _ => Nat.blt x 33 || Nat.beq x 0xC2 || Nat.beq x 0xE2 || (Nat.beq x 0xE1 && Nat.beq y 0x9A)
      || (Nat.beq x 0xE3 && Nat.beq y 0x80)

/-- No position starts a white space character. -/
def clean : List Nat → Bool
  | [] => true
  | x :: l => bif startsWs (x :: l) then false else clean l

/-- A number of a non-empty clean word. -/
def goodCode (n : Nat) : Bool :=
  bif Nat.blt n (256 ^ 64) then bif Nat.beq n 0 then false else clean (natBytes 64 n []) else false

theorem startsWs_utf8 {c : Nat} (hc : c ∈ whiteSpace) (l : List Nat) :
    startsWs ((utf8 c).map UInt8.toNat ++ l) = true := by
  have h : ∀ c ∈ whiteSpace, (∃ x, (utf8 c).map UInt8.toNat = [x] ∧ (Nat.blt x 33) = true) ∨
      ∃ x y r, (utf8 c).map UInt8.toNat = x :: y :: r ∧ startsWs (x :: y :: r) = true := by
    intro c hc
    simp only [whiteSpace, List.mem_cons, List.not_mem_nil, or_false] at hc
    rcases hc with rfl | rfl | rfl | rfl | rfl | rfl | rfl | rfl | rfl | rfl | rfl | rfl | rfl | rfl | rfl | rfl |
      rfl | rfl | rfl | rfl | rfl | rfl | rfl | rfl | rfl
    all_goals first
      | exact Or.inl ⟨_, rfl, rfl⟩
      | exact Or.inr ⟨_, _, _, rfl, rfl⟩
  rcases h c hc with ⟨x, h1, h2⟩ | ⟨x, y, r, h1, h2⟩
  · rw [h1]
    cases l <;> simp [startsWs, h2]
  · rw [h1]
    exact h2

theorem clean_append {a l : List Nat} (h : clean (a ++ l) = true) : clean l = true := by
  induction a with
  | nil => exact h
  | cons x a ih =>
    rw [List.cons_append, clean] at h
    cases hs : startsWs (x :: (a ++ l)) with
    | true => rw [hs] at h; simp at h
    | false => rw [hs] at h; exact ih h

theorem noWs_of_clean {w : Bytes} (h : clean (w.map UInt8.toNat) = true) : NoWs w := by
  rintro a c b hc rfl
  rw [List.append_assoc, List.map_append, List.map_append] at h
  have h1 := clean_append h
  have h2 := startsWs_utf8 hc (b.map UInt8.toNat)
  cases hu : (utf8 c).map UInt8.toNat ++ b.map UInt8.toNat with
  | nil => rw [hu] at h2; simp [startsWs] at h2
  | cons x l =>
    rw [hu] at h1 h2
    rw [clean, h2] at h1
    simp at h1

/-! ### Numbers and words -/

theorem natBytes_lt (f n : Nat) (acc : List Nat) (h : ∀ v ∈ acc, v < 256) : ∀ v ∈ natBytes f n acc, v < 256 := by
  induction f generalizing n acc with
  | zero => exact h
  | succ f ih =>
    rw [natBytes]
    cases Nat.beq n 0 with
    | true => exact h
    | false =>
      refine ih _ _ ?_
      intro v hv
      rcases List.mem_cons.1 hv with rfl | hv
      · exact Nat.mod_lt _ (by norm_num)
      · exact h v hv

theorem natBytes_value (f n : Nat) (acc : List Nat) (h : n < 256 ^ f) :
    ofDigitsBE 256 (natBytes f n acc) = n * 256 ^ acc.length + ofDigitsBE 256 acc := by
  induction f generalizing n acc with
  | zero =>
    have : n = 0 := by simpa using h
    subst this
    simp [natBytes]
  | succ f ih =>
    rw [natBytes]
    cases hn : Nat.beq n 0 with
    | true =>
      have : n = 0 := Nat.eq_of_beq_eq_true hn
      subst this
      simp
    | false =>
      rw [cond_false, ih _ _ (Nat.div_lt_of_lt_mul (by rw [pow_succ, Nat.mul_comm] at h; exact h)), ofDigitsBE_cons,
        List.length_cons, pow_succ]
      have := Nat.div_add_mod n 256
      calc n / 256 * (256 ^ acc.length * 256) + (n % 256 * 256 ^ acc.length + ofDigitsBE 256 acc)
          = (256 * (n / 256) + n % 256) * 256 ^ acc.length + ofDigitsBE 256 acc := by ring
        _ = _ := by rw [this]

theorem codeWord_toNat (n : Nat) : (codeWord n).map UInt8.toNat = natBytes 64 n [] := by
  rw [codeWord, List.map_map]
  conv_rhs => rw [← List.map_id (natBytes 64 n [])]
  apply List.map_congr_left
  intro v hv
  have := natBytes_lt 64 n [] (by simp) v hv
  simp only [Function.comp_apply, UInt8.toNat_ofNat', id]
  exact Nat.mod_eq_of_lt this

theorem setBytes_codeWord {n : Nat} (h : n < 256 ^ 64) : setBytes (codeWord n) = n := by
  rw [setBytes, codeWord_toNat, natBytes_value 64 n [] h]
  simp

theorem goodCode_iff {n : Nat} (h : goodCode n = true) : n < 256 ^ 64 ∧ IsWord (codeWord n) := by
  unfold goodCode at h
  cases h1 : Nat.blt n (256 ^ 64) with
  | false => rw [h1] at h; simp at h
  | true =>
    rw [h1] at h
    have hlt : n < 256 ^ 64 := by
      have : Nat.ble (n + 1) (256 ^ 64) = true := h1
      exact Nat.le_of_ble_eq_true this
    cases h2 : Nat.beq n 0 with
    | true => rw [h2] at h; simp at h
    | false =>
      rw [h2] at h
      refine ⟨hlt, ?_, noWs_of_clean (by rw [codeWord_toNat]; exact h)⟩
      intro he
      have := setBytes_codeWord hlt
      rw [he] at this
      have h0 : n = 0 := this.symm
      subst h0
      simp at h2

/-- The checks make a good list. -/
theorem goodList_of_checks {codes : List Nat} (h1 : codes.length = 2048) (h2 : distinct codes = true)
    (h3 : codes.all goodCode = true) : GoodList (codes.map codeWord) where
  length := by simpa using h1
  nodup := by
    apply List.Nodup.map_on _ (distinct_nodup h2)
    intro x hx y hy he
    rw [← setBytes_codeWord (goodCode_iff (List.all_eq_true.1 h3 x hx)).1, he,
      setBytes_codeWord (goodCode_iff (List.all_eq_true.1 h3 y hy)).1]
  word := by
    intro w hw
    obtain ⟨n, hn, rfl⟩ := List.mem_map.1 hw
    exact (goodCode_iff (List.all_eq_true.1 h3 n hn)).2

/-! ### CRC -/

/-- `crcBit` without a decidability instance. -/
def bitFast (c : Nat) : Nat := bif Nat.beq (c % 2) 0 then c / 2 else Nat.xor (c / 2) 0xedb88320

/-- `crcUpdate`, likewise. -/
def updFast (c v : Nat) : Nat :=
  Nat.xor (bitFast (bitFast (bitFast (bitFast (bitFast (bitFast (bitFast (bitFast (Nat.xor (c % 256) v)))))))))
    (c / 256)

/-- CRC of bytes given as numbers. -/
def crcNats : List Nat → Nat → Nat
  | [], c => c
  | v :: vs, c => bif Nat.beq c 0 then crcNats vs (updFast 0 v) else crcNats vs (updFast c v)

/-- CRC of words, each followed by a line feed. -/
def crcCodes : List Nat → Nat → Nat
  | [], c => c
  | n :: ns, c => bif Nat.beq c 0 then crcCodes ns (updFast (crcNats (natBytes 64 n []) 0) 10)
      else crcCodes ns (updFast (crcNats (natBytes 64 n []) c) 10)

theorem bitFast_eq (c : Nat) : bitFast c = crcBit c := by
  unfold bitFast crcBit
  rcases Nat.mod_two_eq_zero_or_one c with h | h
  · rw [h]; rfl
  · rw [h]; rfl

theorem updFast_eq (c v : Nat) : updFast c v = crcUpdate c v := by
  unfold updFast
  simp only [bitFast_eq]
  rfl

theorem bif_zero (c : Nat) (f : Nat → Nat) : (bif Nat.beq c 0 then f 0 else f c) = f c := by
  cases h : Nat.beq c 0 with
  | true => rw [Nat.eq_of_beq_eq_true h]; rfl
  | false => rfl

theorem crcNats_eq (l : List Nat) (c : Nat) : crcNats l c = l.foldl crcUpdate c := by
  induction l generalizing c with
  | nil => rfl
  | cons v l ih => rw [crcNats, bif_zero c fun c => crcNats l (updFast c v), ih, updFast_eq, List.foldl_cons]

theorem crcCodes_eq (l : List Nat) (c : Nat) : crcCodes l c =
    (l.flatMap fun n => codeWord n ++ [10]).foldl (fun c (v : UInt8) => crcUpdate c v.toNat) c := by
  induction l generalizing c with
  | nil => rfl
  | cons n l ih =>
    rw [crcCodes, bif_zero c fun c => crcCodes l (updFast (crcNats (natBytes 64 n []) c) 10), ih, updFast_eq,
      crcNats_eq, List.flatMap_cons, List.foldl_append, List.foldl_append, ← codeWord_toNat, List.foldl_map]
    rfl

theorem crcCodes_append (a b : List Nat) (c : Nat) : crcCodes (a ++ b) c = crcCodes b (crcCodes a c) := by
  rw [crcCodes_eq, crcCodes_eq, crcCodes_eq, List.flatMap_append, List.foldl_append]

/-- The checksum of the text made of the words, each followed by a line feed. -/
theorem checksum_of_codes {codes : List Nat} {c : Nat} (h : crcCodes codes 0xffffffff = c) :
    checksumIEEE ((codes.map codeWord).flatMap (· ++ [10])) = c ^^^ 0xffffffff := by
  rw [checksumIEEE, List.flatMap_map, ← h, crcCodes_eq]

end Bips
