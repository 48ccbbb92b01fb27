import Mathlib.Tactic.Ring
import Mathlib.Data.List.Induction
import Mathlib.Data.List.TakeWhile

/-!
# Positional numerals

Radix conversion used by the models of `math/big` (`Bytes`, `SetBytes`), `fmt` (`%d`, `%x`),
`strconv` and base58.  Big-endian digit lists over `Nat`.
-/

namespace Bips

/-- Little-endian digits of `n` in base `b`, no trailing zeros.  The first argument is fuel. -/
def leDigits (b : Nat) : Nat → Nat → List Nat
  | 0, _ => []
  | f + 1, n => if n = 0 then [] else n % b :: leDigits b f (n / b)

/-- Big-endian digits of `n` in base `b` without leading zeros (`0` has no digits). -/
def toDigitsBE (b n : Nat) : List Nat := (leDigits b n n).reverse

/-- Value of a big-endian digit list (Horner). -/
def ofDigitsBE (b : Nat) (l : List Nat) : Nat := l.foldl (fun a d => a * b + d) 0

theorem leDigits_zero (b f : Nat) : leDigits b f 0 = [] := by
  cases f <;> simp [leDigits]

theorem leDigits_fuel (b : Nat) (hb : 2 ≤ b) : ∀ (f n : Nat), n ≤ f → leDigits b f n = leDigits b n n := by
  intro f
  induction f using Nat.strongRecOn with
  | _ f ih =>
    intro n hn
    cases f with
    | zero => obtain rfl : n = 0 := by omega
              rfl
    | succ f =>
      cases n with
      | zero => simp [leDigits]
      | succ n =>
        have h1 : (n + 1) / b < n + 1 := Nat.div_lt_self (by omega) (by omega)
        simp only [leDigits, Nat.add_eq_zero_iff, Nat.one_ne_zero, and_false, if_false]
        rw [ih f (by omega) _ (by omega), ih n (by omega) _ (by omega)]

theorem leDigits_step (b : Nat) (hb : 2 ≤ b) (n : Nat) (hn : n ≠ 0) :
    leDigits b n n = n % b :: leDigits b (n / b) (n / b) := by
  cases n with
  | zero => omega
  | succ n =>
    have h1 : (n + 1) / b < n + 1 := Nat.div_lt_self (by omega) (by omega)
    simp only [leDigits, Nat.add_eq_zero_iff, Nat.one_ne_zero, and_false, if_false]
    rw [leDigits_fuel b hb n _ (by omega)]

@[simp] theorem toDigitsBE_zero (b : Nat) : toDigitsBE b 0 = [] := by
  simp [toDigitsBE, leDigits]

theorem toDigitsBE_step (b : Nat) (hb : 2 ≤ b) (n : Nat) (hn : n ≠ 0) :
    toDigitsBE b n = toDigitsBE b (n / b) ++ [n % b] := by
  unfold toDigitsBE
  rw [leDigits_step b hb n hn, List.reverse_cons]

@[simp] theorem ofDigitsBE_nil (b : Nat) : ofDigitsBE b [] = 0 := rfl

theorem ofDigitsBE_concat (b : Nat) (l : List Nat) (d : Nat) :
    ofDigitsBE b (l ++ [d]) = ofDigitsBE b l * b + d := by
  simp [ofDigitsBE]

theorem ofDigitsBE_append (b : Nat) (l m : List Nat) :
    ofDigitsBE b (l ++ m) = ofDigitsBE b l * b ^ m.length + ofDigitsBE b m := by
  induction m using List.reverseRecOn generalizing l with
  | nil => simp
  | append_singleton m d ih =>
    rw [← List.append_assoc, ofDigitsBE_concat, ofDigitsBE_concat, ih]
    simp only [List.length_append, List.length_singleton, pow_succ]
    ring

theorem ofDigitsBE_cons (b d : Nat) (l : List Nat) :
    ofDigitsBE b (d :: l) = d * b ^ l.length + ofDigitsBE b l := by
  have := ofDigitsBE_append b [d] l
  simpa [ofDigitsBE] using this

theorem ofDigitsBE_lt (b : Nat) (l : List Nat) (h : ∀ d ∈ l, d < b) :
    ofDigitsBE b l < b ^ l.length := by
  induction l using List.reverseRecOn with
  | nil => simp
  | append_singleton l d ih =>
    rw [ofDigitsBE_concat]
    have h1 := ih (fun d hd => h d (by simp [hd]))
    have h2 : d < b := h d (by simp)
    simp only [List.length_append, List.length_singleton, pow_succ]
    calc ofDigitsBE b l * b + d < ofDigitsBE b l * b + b := by omega
      _ = (ofDigitsBE b l + 1) * b := by ring
      _ ≤ b ^ l.length * b := Nat.mul_le_mul_right _ h1

theorem ofDigitsBE_toDigitsBE (b : Nat) (hb : 2 ≤ b) (n : Nat) :
    ofDigitsBE b (toDigitsBE b n) = n := by
  induction n using Nat.strongRecOn with
  | _ n ih =>
    by_cases hn : n = 0
    · subst hn; simp
    · rw [toDigitsBE_step b hb n hn, ofDigitsBE_concat,
        ih _ (Nat.div_lt_self (by omega) (by omega))]
      exact Nat.div_add_mod' n b

theorem toDigitsBE_lt (b : Nat) (hb : 2 ≤ b) (n : Nat) : ∀ d ∈ toDigitsBE b n, d < b := by
  induction n using Nat.strongRecOn with
  | _ n ih =>
    by_cases hn : n = 0
    · subst hn; simp
    · rw [toDigitsBE_step b hb n hn]
      intro d hd
      rcases List.mem_append.1 hd with h | h
      · exact ih _ (Nat.div_lt_self (by omega) (by omega)) d h
      · simp at h; subst h; exact Nat.mod_lt _ (by omega)

/-- Reading then writing digits drops exactly the leading zeros. -/
theorem toDigitsBE_ofDigitsBE (b : Nat) (hb : 2 ≤ b) (l : List Nat) (h : ∀ d ∈ l, d < b) :
    toDigitsBE b (ofDigitsBE b l) = l.dropWhile (· == 0) := by
  induction l using List.reverseRecOn with
  | nil => simp
  | append_singleton l d ih =>
    have h1 := ih (fun d hd => h d (by simp [hd]))
    have h2 : d < b := h d (by simp)
    rw [ofDigitsBE_concat]
    by_cases h0 : ofDigitsBE b l * b + d = 0
    · have hd : d = 0 := by omega
      have hl : ofDigitsBE b l = 0 := by
        rcases Nat.mul_eq_zero.1 (show ofDigitsBE b l * b = 0 by omega) with h | h <;> omega
      rw [hl] at h1
      rw [h0]
      simp only [toDigitsBE_zero] at h1 ⊢
      have h3 : ∀ x ∈ l, x = 0 := by
        intro x hx
        have := List.dropWhile_eq_nil_iff.1 h1.symm x hx
        simpa using this
      symm
      rw [List.dropWhile_eq_nil_iff]
      intro x hx
      rcases List.mem_append.1 hx with hx | hx
      · simp [h3 x hx]
      · simp at hx; simp [hx, hd]
    · rw [toDigitsBE_step b hb _ h0]
      have e1 : (ofDigitsBE b l * b + d) / b = ofDigitsBE b l := by
        rw [Nat.mul_comm, Nat.mul_add_div (by omega), Nat.div_eq_of_lt h2]; omega
      have e2 : (ofDigitsBE b l * b + d) % b = d := by
        rw [Nat.mul_comm, Nat.mul_add_mod, Nat.mod_eq_of_lt h2]
      rw [e1, e2, h1]
      by_cases hl : ∀ x ∈ l, x = 0
      · have hz : l.dropWhile (· == 0) = [] := by
          rw [List.dropWhile_eq_nil_iff]; intro x hx; simp [hl x hx]
        have hz' : ofDigitsBE b l = 0 := by
          rw [hz] at h1
          by_contra hne
          have := toDigitsBE_step b hb _ hne
          rw [this] at h1; simp at h1
        have hd : d ≠ 0 := by intro hd; apply h0; rw [hz', hd]; simp
        rw [hz, List.dropWhile_append, hz]
        simp [hd]
      · rw [List.dropWhile_append]
        have : l.dropWhile (· == 0) ≠ [] := by
          intro hh; apply hl; intro x hx
          simpa using List.dropWhile_eq_nil_iff.1 hh x hx
        simp [this]

theorem toDigitsBE_head_ne_zero (b : Nat) (hb : 2 ≤ b) (n : Nat) :
    (toDigitsBE b n).dropWhile (· == 0) = toDigitsBE b n := by
  rw [← toDigitsBE_ofDigitsBE b hb _ (toDigitsBE_lt b hb n), ofDigitsBE_toDigitsBE b hb]

theorem toDigitsBE_length_le (b : Nat) (hb : 2 ≤ b) (n k : Nat) (h : n < b ^ k) :
    (toDigitsBE b n).length ≤ k := by
  induction k generalizing n with
  | zero => simp at h; subst h; simp
  | succ k ih =>
    by_cases hn : n = 0
    · subst hn; simp
    · rw [toDigitsBE_step b hb n hn]
      have : n / b < b ^ k := by
        rw [Nat.div_lt_iff_lt_mul (by omega)]; rwa [pow_succ] at h
      have := ih _ this
      simp; omega

theorem toDigitsBE_length_ge (b : Nat) (hb : 2 ≤ b) (n k : Nat) (h : b ^ k ≤ n) :
    k < (toDigitsBE b n).length := by
  by_contra hc
  have h1 := ofDigitsBE_lt b _ (toDigitsBE_lt b hb n)
  rw [ofDigitsBE_toDigitsBE b hb] at h1
  have : b ^ (toDigitsBE b n).length ≤ b ^ k := Nat.pow_le_pow_right (by omega) (by omega)
  omega

/-- Two digit lists of the same length and value are equal. -/
theorem ofDigitsBE_inj (b : Nat) (l m : List Nat) (hlen : l.length = m.length)
    (hl : ∀ d ∈ l, d < b) (hm : ∀ d ∈ m, d < b) (h : ofDigitsBE b l = ofDigitsBE b m) : l = m := by
  induction l using List.reverseRecOn generalizing m with
  | nil => simpa using hlen.symm
  | append_singleton l d ih =>
    rcases List.eq_nil_or_concat m with rfl | ⟨m', e, rfl⟩
    · simp at hlen
    · rw [List.concat_eq_append] at *
      rw [ofDigitsBE_concat, ofDigitsBE_concat] at h
      have hd : d < b := hl d (by simp)
      have he : e < b := hm e (by simp)
      have h2 : d = e := by
        have := congrArg (· % b) h
        simpa [Nat.mul_comm _ b, Nat.mul_add_mod, Nat.mod_eq_of_lt, hd, he] using this
      subst h2
      have h3 : ofDigitsBE b l = ofDigitsBE b m' := Nat.eq_of_mul_eq_mul_right (show 0 < b by omega) (by omega)
      rw [ih m' (by simpa using hlen) (fun d hd => hl d (by simp [hd])) (fun d hd => hm d (by simp [hd])) h3]

end Bips
