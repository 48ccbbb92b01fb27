import Mathlib.Data.Int.Log
import Mathlib.Data.Rat.Floor
import Mathlib.Algebra.Order.Floor.Ring
import Mathlib.Tactic.Linarith
import Mathlib.Tactic.Positivity
import Mathlib.Tactic.FieldSimp
import Mathlib.Tactic.Ring

/-!
# Floating point numbers

Values of Go's `float32` and `float64` as rational numbers. Each operation gives the exact result rounded to the nearest
representable number, ties to even (IEEE 754, as the Go specification demands). Overflow, infinities and NaN are not modelled;
modules using this one show that their numbers stay in range.
-/

namespace Bips

/-- The nearest integer, ties to even. -/
def rne (x : ℚ) : ℤ :=
  if x - ⌊x⌋ < 1 / 2 then ⌊x⌋
  else if 1 / 2 < x - ⌊x⌋ then ⌊x⌋ + 1
  else if ⌊x⌋ % 2 = 0 then ⌊x⌋ else ⌊x⌋ + 1

theorem rne_ge (x : ℚ) : ⌊x⌋ ≤ rne x := by unfold rne; split_ifs <;> omega

theorem rne_le (x : ℚ) : rne x ≤ ⌊x⌋ + 1 := by unfold rne; split_ifs <;> omega

theorem rne_mono {x y : ℚ} (h : x ≤ y) : rne x ≤ rne y := by
  rcases (Int.floor_mono h).lt_or_eq with h1 | h1
  · have := rne_le x; have := rne_ge y; omega
  · unfold rne
    rw [h1]
    have hxy : x - ⌊y⌋ ≤ y - ⌊y⌋ := by linarith
    split_ifs <;> first | omega | (exfalso; linarith)

theorem rne_int (n : ℤ) : rne (n : ℚ) = n := by
  unfold rne
  rw [Int.floor_intCast]
  simp

theorem rne_err (x : ℚ) : |(rne x : ℚ) - x| ≤ 1 / 2 := by
  have h1 := Int.floor_le x
  have h2 := Int.lt_floor_add_one x
  rw [abs_le]
  unfold rne
  split_ifs <;> push_cast <;> constructor <;> linarith

/-- Exponent of the unit in the last place of `x`, for a format of `p` bits whose smallest positive number is `2 ^ emin`. -/
def quantum (p : ℕ) (emin : ℤ) (x : ℚ) : ℤ := max (Int.log 2 x - (p - 1)) emin

/-- The nearest representable number of a nonnegative one. -/
def flPos (p : ℕ) (emin : ℤ) (x : ℚ) : ℚ := rne (x / 2 ^ quantum p emin x) * 2 ^ quantum p emin x

/-- The nearest representable number. -/
def fl (p : ℕ) (emin : ℤ) (x : ℚ) : ℚ := if x < 0 then -flPos p emin (-x) else flPos p emin x

/-- Rounding to `float32`. -/
def fl32 (x : ℚ) : ℚ := fl 24 (-149) x

/-- Rounding to `float64`. -/
def fl64 (x : ℚ) : ℚ := fl 53 (-1074) x

section
variable {p : ℕ} {emin : ℤ}

theorem two_zpow_pos (k : ℤ) : (0 : ℚ) < 2 ^ k := zpow_pos (by norm_num) k

theorem zpow_div (a b : ℤ) (h : b ≤ a) : ∃ n : ℤ, (2 : ℚ) ^ a / 2 ^ b = n := by
  refine ⟨2 ^ (a - b).toNat, ?_⟩
  rw [← zpow_sub₀ (by norm_num)]
  have : a - b = ((a - b).toNat : ℤ) := by omega
  rw [this]
  push_cast
  exact zpow_natCast _ _

theorem flPos_le_int {x : ℚ} {n : ℤ} (h : x ≤ n * 2 ^ quantum p emin x) : flPos p emin x ≤ n * 2 ^ quantum p emin x := by
  unfold flPos
  have hp := two_zpow_pos (quantum p emin x)
  apply mul_le_mul_of_nonneg_right _ hp.le
  have := rne_mono ((div_le_iff₀ hp).2 h)
  rw [rne_int] at this
  exact_mod_cast this

theorem le_flPos_int {x : ℚ} {n : ℤ} (h : n * 2 ^ quantum p emin x ≤ x) : n * 2 ^ quantum p emin x ≤ flPos p emin x := by
  unfold flPos
  have hp := two_zpow_pos (quantum p emin x)
  apply mul_le_mul_of_nonneg_right _ hp.le
  have := rne_mono ((le_div_iff₀ hp).2 h)
  rw [rne_int] at this
  exact_mod_cast this

/-- A multiple of a power of two above the quantum is not passed by rounding. -/
theorem flPos_le_zpow {x : ℚ} {a : ℤ} (n : ℤ) (ha : quantum p emin x ≤ a) (h : x ≤ n * 2 ^ a) : flPos p emin x ≤ n * 2 ^ a := by
  obtain ⟨m, hm⟩ := zpow_div a _ ha
  have hp := two_zpow_pos (quantum p emin x)
  have e : (n : ℚ) * 2 ^ a = ((n * m : ℤ) : ℚ) * 2 ^ quantum p emin x := by
    push_cast; rw [← hm]; field_simp
  rw [e] at h ⊢
  exact flPos_le_int h

theorem le_flPos_zpow {x : ℚ} {a : ℤ} (n : ℤ) (ha : quantum p emin x ≤ a) (h : n * 2 ^ a ≤ x) : n * 2 ^ a ≤ flPos p emin x := by
  obtain ⟨m, hm⟩ := zpow_div a _ ha
  have hp := two_zpow_pos (quantum p emin x)
  have e : (n : ℚ) * 2 ^ a = ((n * m : ℤ) : ℚ) * 2 ^ quantum p emin x := by
    push_cast; rw [← hm]; field_simp
  rw [e] at h ⊢
  exact le_flPos_int h

theorem flPos_nonneg {x : ℚ} (h : 0 ≤ x) : 0 ≤ flPos p emin x := by
  have := le_flPos_int (p := p) (emin := emin) (x := x) (n := 0) (by simpa using h)
  simpa using this

theorem flPos_zero : flPos p emin 0 = 0 := by
  unfold flPos
  rw [zero_div]
  have : rne 0 = 0 := by simpa using rne_int 0
  rw [this]; simp

theorem quantum_mono {x y : ℚ} (hx : 0 < x) (h : x ≤ y) : quantum p emin x ≤ quantum p emin y := by
  unfold quantum
  have := Int.log_mono_right (b := 2) hx h
  omega

theorem flPos_mono (hp : 1 ≤ p) {x y : ℚ} (hx : 0 ≤ x) (h : x ≤ y) : flPos p emin x ≤ flPos p emin y := by
  rcases hx.eq_or_lt with rfl | hx
  · rw [flPos_zero]; exact flPos_nonneg h
  have hy : 0 < y := lt_of_lt_of_le hx h
  rcases (quantum_mono (p := p) (emin := emin) hx h).eq_or_lt with hq | hq
  · unfold flPos
    rw [hq]
    have h2 := two_zpow_pos (quantum p emin y)
    apply mul_le_mul_of_nonneg_right _ h2.le
    exact_mod_cast rne_mono (div_le_div_of_nonneg_right h h2.le)
  · have hl : quantum p emin y = Int.log 2 y - (p - 1) := by
      unfold quantum at hq ⊢; omega
    have hlt : Int.log 2 x < Int.log 2 y := by
      unfold quantum at hq; omega
    have e1 : x ≤ ((1 : ℤ) : ℚ) * 2 ^ Int.log 2 y := by
      have h1 := Int.lt_zpow_succ_log_self (b := 2) (by norm_num) x
      have h2 : (2 : ℚ) ^ (Int.log 2 x + 1) ≤ 2 ^ Int.log 2 y := zpow_le_zpow_right₀ (by norm_num) (by omega)
      push_cast at h1 ⊢
      linarith
    have e2 : ((1 : ℤ) : ℚ) * 2 ^ Int.log 2 y ≤ y := by
      have := Int.zpow_log_le_self (b := 2) (r := y) (by norm_num) hy
      push_cast at this ⊢
      linarith
    exact (flPos_le_zpow 1 (by omega) e1).trans (le_flPos_zpow 1 (by omega) e2)

theorem fl_neg (x : ℚ) : fl p emin (-x) = -fl p emin x := by
  unfold fl
  rcases lt_trichotomy x 0 with h | rfl | h
  · rw [if_neg (by linarith), if_pos h, neg_neg]
  · simp [flPos_zero]
  · rw [if_pos (by linarith), if_neg (by linarith), neg_neg]

theorem fl_zero : fl p emin 0 = 0 := by unfold fl; simp [flPos_zero]

theorem fl_of_nonneg {x : ℚ} (h : 0 ≤ x) : fl p emin x = flPos p emin x := if_neg (by linarith)

theorem fl_mono (hp : 1 ≤ p) {x y : ℚ} (h : x ≤ y) : fl p emin x ≤ fl p emin y := by
  rcases lt_or_ge x 0 with hx | hx
  · rcases lt_or_ge y 0 with hy | hy
    · rw [fl, if_pos hx, fl, if_pos hy]
      have := flPos_mono (emin := emin) hp (x := -y) (y := -x) (by linarith) (by linarith)
      linarith
    · rw [fl, if_pos hx, fl_of_nonneg hy]
      have := flPos_nonneg (p := p) (emin := emin) (x := -x) (by linarith)
      have := flPos_nonneg (p := p) (emin := emin) hy
      linarith
  · rw [fl_of_nonneg hx, fl_of_nonneg (hx.trans h)]
    exact flPos_mono hp hx h

/-- Small multiples of powers of two are representable. -/
theorem fl_exact {x : ℚ} (n a : ℤ) (hx : x = n * 2 ^ a) (hn : |n| < 2 ^ p) (ha : emin ≤ a) : fl p emin x = x := by
  have pos : ∀ (n : ℤ) (x : ℚ), 0 ≤ n → x = n * 2 ^ a → n < 2 ^ p → fl p emin x = x := by
    intro n x h0 hx hn
    have hp2 := two_zpow_pos a
    have hnn : (0 : ℚ) ≤ n := by exact_mod_cast h0
    have hx0 : 0 ≤ x := by rw [hx]; positivity
    rw [fl_of_nonneg hx0]
    rcases hx0.eq_or_lt with h | hpos
    · rw [← h, flPos_zero]
    have hq : quantum p emin x ≤ a := by
      have hlt : x < 2 ^ (a + p) := by
        rw [hx, zpow_add₀ (by norm_num), mul_comm, zpow_natCast]
        apply mul_lt_mul_of_pos_left _ hp2
        exact_mod_cast hn
      have : Int.log 2 x < a + p := (Int.lt_zpow_iff_log_lt (by norm_num) hpos).1 (by exact_mod_cast hlt)
      unfold quantum
      omega
    apply le_antisymm
    · have := flPos_le_zpow n hq hx.le
      rwa [← hx] at this
    · have := le_flPos_zpow n hq hx.ge
      rwa [← hx] at this
  rcases le_total 0 n with h | h
  · exact pos n x h hx (by rwa [abs_of_nonneg h] at hn)
  · have := pos (-n) (-x) (by omega) (by rw [hx]; push_cast; ring) (by rwa [abs_of_nonpos h] at hn)
    rw [fl_neg] at this
    linarith

/-- Relative error, for numbers in the normal range. -/
theorem fl_err_rel (hp : 1 ≤ p) {x : ℚ} (h : (2 : ℚ) ^ (emin + (p - 1)) ≤ |x|) : |fl p emin x - x| ≤ |x| / 2 ^ p := by
  have pos : ∀ x : ℚ, 0 < x → (2 : ℚ) ^ (emin + (p - 1)) ≤ x → |fl p emin x - x| ≤ x / 2 ^ p := by
    intro x hx h
    rw [fl_of_nonneg hx.le]
    have hlog : emin + (p - 1) ≤ Int.log 2 x := (Int.zpow_le_iff_le_log (by norm_num) hx).1 (by exact_mod_cast h)
    have hq : quantum p emin x = Int.log 2 x - (p - 1) := by unfold quantum; omega
    have h2 := two_zpow_pos (quantum p emin x)
    have e : flPos p emin x - x = (rne (x / 2 ^ quantum p emin x) - x / 2 ^ quantum p emin x) * 2 ^ quantum p emin x := by
      unfold flPos; field_simp
    rw [e, abs_mul, abs_of_pos h2]
    have h3 := rne_err (x / 2 ^ quantum p emin x)
    have h4 : (2 : ℚ) ^ quantum p emin x * 2 ^ p = 2 * 2 ^ Int.log 2 x := by
      rw [hq, ← zpow_natCast, ← zpow_add₀ (by norm_num)]
      have : Int.log 2 x - (p - 1) + (p : ℤ) = 1 + Int.log 2 x := by ring
      rw [this, zpow_add₀ (by norm_num), zpow_one]
    have h5 : (2 : ℚ) ^ Int.log 2 x ≤ x := by
      have := Int.zpow_log_le_self (b := 2) (r := x) (by norm_num) hx
      exact_mod_cast this
    rw [le_div_iff₀ (by positivity), mul_assoc, h4]
    nlinarith [abs_nonneg ((rne (x / 2 ^ quantum p emin x) : ℚ) - x / 2 ^ quantum p emin x)]
  rcases lt_trichotomy x 0 with hx | rfl | hx
  · rw [abs_of_neg hx] at h ⊢
    have := pos (-x) (by linarith) h
    rw [fl_neg] at this
    have e : -fl p emin x - -x = -(fl p emin x - x) := by ring
    rwa [e, abs_neg] at this
  · simp [fl_zero]
  · rw [abs_of_pos hx] at h ⊢
    exact pos x hx h

/-- Absolute error below a power of two. -/
theorem fl_err_abs (hp : 1 ≤ p) {x : ℚ} {k : ℤ} (h : |x| ≤ 2 ^ k) (hk : emin + p ≤ k) : |fl p emin x - x| ≤ 2 ^ (k - p) / 2 := by
  have pos : ∀ x : ℚ, 0 ≤ x → x ≤ 2 ^ k → |fl p emin x - x| ≤ 2 ^ (k - p) / 2 := by
    intro x hx h
    rcases hx.eq_or_lt with rfl | hx
    · rw [fl_zero]; simp only [sub_zero, abs_zero]; exact (div_pos (two_zpow_pos _) two_pos).le
    rcases h.eq_or_lt with h | h
    · have := fl_exact (p := p) (emin := emin) (x := x) 1 k (by rw [h]; simp) (by rw [abs_one]; exact one_lt_pow₀ (by norm_num) (by omega)) (by omega)
      rw [this]; simp only [sub_self, abs_zero]; exact (div_pos (two_zpow_pos _) two_pos).le
    rw [fl_of_nonneg hx.le]
    have hlog : Int.log 2 x < k := (Int.lt_zpow_iff_log_lt (by norm_num) hx).1 (by exact_mod_cast h)
    have hq : quantum p emin x ≤ k - p := by unfold quantum; omega
    have h2 := two_zpow_pos (quantum p emin x)
    have e : flPos p emin x - x = (rne (x / 2 ^ quantum p emin x) - x / 2 ^ quantum p emin x) * 2 ^ quantum p emin x := by
      unfold flPos; field_simp
    rw [e, abs_mul, abs_of_pos h2]
    have h3 := rne_err (x / 2 ^ quantum p emin x)
    have h4 : (2 : ℚ) ^ quantum p emin x ≤ 2 ^ (k - p) := zpow_le_zpow_right₀ (by norm_num) hq
    nlinarith [abs_nonneg ((rne (x / 2 ^ quantum p emin x) : ℚ) - x / 2 ^ quantum p emin x)]
  rcases le_total 0 x with hx | hx
  · exact pos x hx (by rwa [abs_of_nonneg hx] at h)
  · have := pos (-x) (by linarith) (by rwa [abs_of_nonpos hx] at h)
    rw [fl_neg] at this
    have e : -fl p emin x - -x = -(fl p emin x - x) := by ring
    rwa [e, abs_neg] at this

end

end Bips
