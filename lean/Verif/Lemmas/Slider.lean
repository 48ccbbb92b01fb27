import Verif.Model.Slider

/-!
# Lemmas about the slider: rounding, easing, time
-/

namespace Bips
open Ui

theorem fl32_mono {x y : ℚ} (h : x ≤ y) : fl32 x ≤ fl32 y := fl_mono (by norm_num) h

theorem fl64_mono {x y : ℚ} (h : x ≤ y) : fl64 x ≤ fl64 y := fl_mono (by norm_num) h

theorem fl32_zero : fl32 0 = 0 := fl_zero

theorem fl64_zero : fl64 0 = 0 := fl_zero

theorem fl32_neg (x : ℚ) : fl32 (-x) = -fl32 x := fl_neg x

theorem fl32_nonneg {x : ℚ} (h : 0 ≤ x) : 0 ≤ fl32 x := by have := fl32_mono h; rwa [fl32_zero] at this

theorem fl32_nonpos {x : ℚ} (h : x ≤ 0) : fl32 x ≤ 0 := by have := fl32_mono h; rwa [fl32_zero] at this

theorem fl64_nonneg {x : ℚ} (h : 0 ≤ x) : 0 ≤ fl64 x := by have := fl64_mono h; rwa [fl64_zero] at this

theorem fl32_int (n : ℤ) (h : |n| < 2 ^ 24) : fl32 n = n := fl_exact n 0 (by simp) (by exact_mod_cast h) (by norm_num)

theorem fl32_one : fl32 1 = 1 := by simpa using fl32_int 1 (by norm_num)

theorem fl32_neg_one : fl32 (-1) = -1 := by rw [fl32_neg, fl32_one]

theorem fl32_half : fl32 (1 / 2) = 1 / 2 := fl_exact 1 (-1) (by norm_num) (by norm_num) (by norm_num)

theorem fl32_quarter : fl32 (1 / 4) = 1 / 4 := fl_exact 1 (-2) (by norm_num) (by norm_num) (by norm_num)

theorem fl32_two : fl32 2 = 2 := by simpa using fl32_int 2 (by norm_num)

theorem fl32_pow24 : fl32 (2 ^ 24) = 2 ^ 24 := fl_exact 1 24 (by norm_num) (by norm_num) (by norm_num)

/-- Rounding twice is rounding once. -/
theorem fl_idem {p : ℕ} {emin : ℤ} (hp : 1 ≤ p) (x : ℚ) : fl p emin (fl p emin x) = fl p emin x := by
  have pos : ∀ x : ℚ, 0 ≤ x → fl p emin (fl p emin x) = fl p emin x := by
    intro x hx
    rw [fl_of_nonneg hx]
    rcases hx.eq_or_lt with rfl | hx
    · rw [flPos_zero, fl_zero]
    have h2 := two_zpow_pos (quantum p emin x)
    have hq : emin ≤ quantum p emin x := le_max_right _ _
    have hlt : x / 2 ^ quantum p emin x ≤ ((2 ^ p : ℤ) : ℚ) := by
      rw [div_le_iff₀ h2]
      have h1 := Int.lt_zpow_succ_log_self (b := 2) (by norm_num) x
      have h3 : (2 : ℚ) ^ (Int.log 2 x + 1) ≤ 2 ^ (p + quantum p emin x) := by
        apply zpow_le_zpow_right₀ (by norm_num)
        have : Int.log 2 x - (p - 1) ≤ quantum p emin x := le_max_left _ _
        omega
      have h4 : (2 : ℚ) ^ ((p : ℤ) + quantum p emin x) = 2 ^ p * 2 ^ quantum p emin x := by
        rw [zpow_add₀ (by norm_num), zpow_natCast]
      rw [h4] at h3
      push_cast at h1 ⊢
      linarith
    have hr : rne (x / 2 ^ quantum p emin x) ≤ 2 ^ p := by
      have := rne_mono hlt
      rwa [rne_int] at this
    have h0 : 0 ≤ rne (x / 2 ^ quantum p emin x) := by
      have := rne_mono (x := 0) (y := x / 2 ^ quantum p emin x) (by positivity)
      have e : rne 0 = 0 := by simpa using rne_int 0
      rwa [e] at this
    rcases hr.lt_or_eq with hr | hr
    · exact fl_exact _ _ rfl (by rwa [abs_of_nonneg h0]) hq
    · have e : flPos p emin x = ((1 : ℤ) : ℚ) * 2 ^ (quantum p emin x + p) := by
        unfold flPos
        rw [hr, zpow_add₀ (by norm_num), zpow_natCast]; push_cast; ring
      rw [e]
      exact fl_exact 1 _ rfl (by rw [abs_one]; exact one_lt_pow₀ (by norm_num) (by omega)) (by omega)
  rcases le_total 0 x with hx | hx
  · exact pos x hx
  · have := pos (-x) (by linarith)
    rw [fl_neg, fl_neg] at this
    linarith

theorem fl32_idem (x : ℚ) : fl32 (fl32 x) = fl32 x := fl_idem (by norm_num) x

/-! ### Easing -/

/-- The lower half of the easing function. -/
def easeLow (t : ℚ) : ℚ := fl32 (fl32 (fl32 (4 * t) * t) * t)

/-- The factor `2*t-2`. -/
def easeB (fma : Bool) (t : ℚ) : ℚ := if fma then fl32 (2 * t - 2) else fl32 (fl32 (2 * t) - 2)

/-- The upper half of the easing function. -/
def easeHigh (fma : Bool) (t : ℚ) : ℚ :=
  if fma then fl32 (fl32 (fl32 (t - 1) * easeB fma t) * easeB fma t + 1)
  else fl32 (fl32 (fl32 (fl32 (t - 1) * easeB fma t) * easeB fma t) + 1)

theorem ease_eq (fma : Bool) (t : ℚ) : easeInOutCubic fma t = if t < 1 / 2 then easeLow t else easeHigh fma t := rfl

theorem easeLow_mono {s t : ℚ} (hs : 0 ≤ s) (h : s ≤ t) : easeLow s ≤ easeLow t := by
  have ht : 0 ≤ t := hs.trans h
  have h1 : fl32 (4 * s) ≤ fl32 (4 * t) := fl32_mono (by linarith)
  have h2 : 0 ≤ fl32 (4 * s) := fl32_nonneg (by linarith)
  have h3 : fl32 (fl32 (4 * s) * s) ≤ fl32 (fl32 (4 * t) * t) := fl32_mono (mul_le_mul h1 h hs (h2.trans h1))
  have h4 : 0 ≤ fl32 (fl32 (4 * s) * s) := fl32_nonneg (mul_nonneg h2 hs)
  exact fl32_mono (mul_le_mul h3 h hs (h4.trans h3))

theorem easeLow_zero : easeLow 0 = 0 := by unfold easeLow; simp [fl32_zero]

theorem easeLow_half : easeLow (1 / 2) = 1 / 2 := by
  unfold easeLow
  rw [show (4 : ℚ) * (1 / 2) = 2 by norm_num, fl32_two, show (2 : ℚ) * (1 / 2) = 1 by norm_num, fl32_one, one_mul, fl32_half]

theorem easeB_mono (fma : Bool) {s t : ℚ} (h : s ≤ t) : easeB fma s ≤ easeB fma t := by
  unfold easeB
  split
  · exact fl32_mono (by linarith)
  · have := fl32_mono (show 2 * s ≤ 2 * t by linarith)
    exact fl32_mono (by linarith)

theorem easeB_one (fma : Bool) : easeB fma 1 = 0 := by
  unfold easeB
  have : fl32 (2 * 1) = 2 := by rw [mul_one, fl32_two]
  split
  · norm_num [fl32_zero]
  · rw [this]; norm_num [fl32_zero]

theorem easeB_half (fma : Bool) : easeB fma (1 / 2) = -1 := by
  unfold easeB
  have : fl32 (2 * (1 / 2)) = 1 := by rw [show (2 : ℚ) * (1 / 2) = 1 by norm_num, fl32_one]
  split
  · rw [show (2 : ℚ) * (1 / 2) - 2 = -1 by norm_num, fl32_neg_one]
  · rw [this, show (1 : ℚ) - 2 = -1 by norm_num, fl32_neg_one]

theorem easeHigh_mono (fma : Bool) {s t : ℚ} (h : s ≤ t) (ht : t ≤ 1) : easeHigh fma s ≤ easeHigh fma t := by
  have a1 : fl32 (s - 1) ≤ fl32 (t - 1) := fl32_mono (by linarith)
  have a2 : fl32 (t - 1) ≤ 0 := fl32_nonpos (by linarith)
  have b1 : easeB fma s ≤ easeB fma t := easeB_mono fma h
  have b2 : easeB fma t ≤ 0 := by rw [← easeB_one fma]; exact easeB_mono fma ht
  have m1 : fl32 (fl32 (t - 1) * easeB fma t) ≤ fl32 (fl32 (s - 1) * easeB fma s) := fl32_mono (by nlinarith)
  have m2 : 0 ≤ fl32 (fl32 (t - 1) * easeB fma t) := fl32_nonneg (by nlinarith)
  have c : fl32 (fl32 (s - 1) * easeB fma s) * easeB fma s ≤ fl32 (fl32 (t - 1) * easeB fma t) * easeB fma t := by nlinarith
  unfold easeHigh
  split
  · exact fl32_mono (by linarith)
  · have := fl32_mono c
    exact fl32_mono (by linarith)

theorem easeHigh_half (fma : Bool) : easeHigh fma (1 / 2) = 1 / 2 := by
  unfold easeHigh
  have h : fl32 (-(1 / 2)) = -(1 / 2) := by rw [fl32_neg, fl32_half]
  rw [easeB_half, show (1 / 2 - 1 : ℚ) = -(1 / 2) by norm_num, h, show (-(1 / 2) * -1 : ℚ) = 1 / 2 by norm_num, fl32_half,
    show (1 / 2 * -1 : ℚ) = -(1 / 2) by norm_num, h, show (-(1 / 2) + 1 : ℚ) = 1 / 2 by norm_num, fl32_half, ite_self]

theorem easeHigh_one (fma : Bool) : easeHigh fma 1 = 1 := by
  unfold easeHigh
  simp [easeB_one, fl32_zero, fl32_one]

theorem ease_zero (fma : Bool) : easeInOutCubic fma 0 = 0 := by rw [ease_eq, if_pos (by norm_num), easeLow_zero]

theorem ease_half (fma : Bool) : easeInOutCubic fma (1 / 2) = 1 / 2 := by rw [ease_eq, if_neg (by norm_num), easeHigh_half]

theorem ease_one (fma : Bool) : easeInOutCubic fma 1 = 1 := by rw [ease_eq, if_neg (by norm_num), easeHigh_one]

theorem ease_mono (fma : Bool) {s t : ℚ} (hs : 0 ≤ s) (h : s ≤ t) (ht : t ≤ 1) :
    easeInOutCubic fma s ≤ easeInOutCubic fma t := by
  rw [ease_eq, ease_eq]
  split_ifs with h1 h2 h2
  · exact easeLow_mono hs h
  · calc easeLow s ≤ easeLow (1 / 2) := easeLow_mono hs h1.le
      _ = easeHigh fma (1 / 2) := by rw [easeLow_half, easeHigh_half]
      _ ≤ easeHigh fma t := easeHigh_mono fma (not_lt.1 h2) ht
  · linarith
  · exact easeHigh_mono fma h ht

/-! ### Positions -/

theorem truncate_neg (x : ℚ) : truncate (-x) = -truncate x := by
  unfold truncate
  rcases lt_trichotomy x 0 with h | rfl | h
  · rw [if_pos (by linarith), if_neg (by linarith), Int.floor_neg]
  · simp
  · rw [if_neg (by linarith), if_pos (by linarith), Int.ceil_neg]

theorem truncate_int (n : ℤ) : truncate n = n := by unfold truncate; split <;> simp

theorem truncate_mono {x y : ℚ} (h : x ≤ y) : truncate x ≤ truncate y := by
  unfold truncate
  split_ifs with h1 h2 h2
  · exact Int.floor_mono h
  · linarith
  · have a : ⌈x⌉ ≤ 0 := Int.ceil_le.2 (by push_cast; linarith)
    have b : 0 ≤ ⌊y⌋ := Int.floor_nonneg.2 h2
    omega
  · exact Int.ceil_mono h

theorem fl32_width {w : ℤ} (h0 : 0 ≤ w) (h1 : w ≤ 2 ^ 24) : fl32 w = w := by
  rcases h1.lt_or_eq with h | h
  · exact fl32_int w (by rwa [abs_of_nonneg h0])
  · rw [h]; push_cast; exact fl32_pow24

theorem shift_neg (fma : Bool) {o : ℚ} (h : 0 < o) (w : ℤ) : shift fma (-o) w = -shift fma o w := by
  unfold shift
  rw [if_neg (by linarith), if_pos h]
  have e : smooth fma (-o) = -smooth fma o := by
    unfold smooth
    rw [if_pos (by linarith), if_neg (by linarith), neg_neg]
  rw [e, show -smooth fma o + 1 = -(smooth fma o - 1) by ring, fl32_neg, mul_neg, fl32_neg, truncate_neg]

theorem shift_mono (fma : Bool) {a b : ℚ} (ha : 0 < a) (h : a ≤ b) (hb : b ≤ 1) {w : ℤ} (hw : 0 ≤ w) :
    shift fma a w ≤ shift fma b w := by
  unfold shift smooth
  rw [if_pos ha, if_pos (ha.trans_le h), if_neg (by linarith), if_neg (by linarith)]
  apply truncate_mono
  apply fl32_mono
  apply mul_le_mul_of_nonneg_left
  · have := ease_mono fma ha.le h hb
    exact fl32_mono (by linarith)
  · exact fl32_nonneg (by exact_mod_cast hw)

theorem shift_range (fma : Bool) {o : ℚ} (h0 : 0 < o) (h1 : o ≤ 1) {w : ℤ} (hw : 0 ≤ w) (hw2 : w ≤ 2 ^ 24) :
    -w ≤ shift fma o w ∧ shift fma o w ≤ 0 := by
  have hwq : (0 : ℚ) ≤ w := by exact_mod_cast hw
  unfold shift smooth
  rw [if_pos h0, if_neg (by linarith), fl32_width hw hw2]
  have e0 : 0 ≤ easeInOutCubic fma o := by rw [← ease_zero fma]; exact ease_mono fma le_rfl h0.le h1
  have e1 : easeInOutCubic fma o ≤ 1 := by
    have := ease_mono fma h0.le h1 le_rfl
    rwa [ease_one] at this
  have f0 : -1 ≤ fl32 (easeInOutCubic fma o - 1) := by rw [← fl32_neg_one]; exact fl32_mono (by linarith)
  have f1 : fl32 (easeInOutCubic fma o - 1) ≤ 0 := fl32_nonpos (by linarith)
  constructor
  · have : fl32 (-w) ≤ fl32 (w * fl32 (easeInOutCubic fma o - 1)) := fl32_mono (by nlinarith)
    rw [fl32_neg, fl32_width hw hw2] at this
    have := truncate_mono this
    rwa [truncate_neg, truncate_int] at this
  · have : fl32 (w * fl32 (easeInOutCubic fma o - 1)) ≤ 0 := fl32_nonpos (by nlinarith)
    have := truncate_mono this
    simpa using this.trans_eq (truncate_int 0)

/-! ### Time -/

theorem seconds_zero : seconds 0 = 0 := by unfold seconds; simp [fl64_zero]

theorem seconds_bounds {d : ℤ} (h0 : 0 < d) (h1 : d < 2 ^ 63) :
    (1 - 1 / 2 ^ 50) * ((d : ℚ) / 1000000000) ≤ seconds d ∧ seconds d ≤ (1 + 1 / 2 ^ 50) * ((d : ℚ) / 1000000000) := by
  have hS : d.tdiv 1000000000 = d / 1000000000 := Int.tdiv_eq_ediv_of_nonneg h0.le
  have hN : d.tmod 1000000000 = d % 1000000000 := Int.tmod_eq_emod_of_nonneg h0.le
  unfold seconds
  rw [hS, hN]
  have hd : (d : ℚ) = 1000000000 * ((d / 1000000000 : ℤ) : ℚ) + ((d % 1000000000 : ℤ) : ℚ) := by
    have : 1000000000 * (d / 1000000000) + d % 1000000000 = d := Int.mul_ediv_add_emod _ _
    exact_mod_cast this.symm
  have n0 : 0 ≤ d % 1000000000 := by omega
  have n1 : d % 1000000000 < 1000000000 := by omega
  have s0 : 0 ≤ d / 1000000000 := by omega
  have s1 : d / 1000000000 < 2 ^ 53 := by omega
  have hpos : 1 ≤ d / 1000000000 ∨ 1 ≤ d % 1000000000 := by omega
  generalize hs : d / 1000000000 = S at *
  generalize hn : d % 1000000000 = N at *
  have eS : fl64 S = S := fl_exact S 0 (by simp) (by rw [abs_of_nonneg s0]; exact_mod_cast s1) (by norm_num)
  have eN : fl64 N = N := fl_exact N 0 (by simp) (by rw [abs_of_nonneg n0]; norm_num; omega) (by norm_num)
  rw [eS, eN]
  have qS : (0 : ℚ) ≤ S := by exact_mod_cast s0
  have qN : (0 : ℚ) ≤ N := by exact_mod_cast n0
  set f := fl64 ((N : ℚ) / 1000000000) with hf
  have herr : |f - N / 1000000000| ≤ N / 1000000000 / 2 ^ 53 := by
    rcases n0.eq_or_lt with h | h
    · rw [hf, ← h]; simp [fl64_zero]
    · have hN1 : (1 : ℚ) ≤ N := by exact_mod_cast h
      have := fl_err_rel (p := 53) (emin := -1074) (by norm_num) (x := (N : ℚ) / 1000000000) (by
        rw [abs_of_nonneg (by positivity)]
        refine (zpow_le_zpow_right₀ (n := -30) (by norm_num) (by norm_num)).trans ?_
        have : (2 : ℚ) ^ (-30 : ℤ) ≤ 1 / 1000000000 := by norm_num
        have : 1 / 1000000000 ≤ (N : ℚ) / 1000000000 := by linarith
        linarith)
      rw [abs_of_nonneg (a := (N : ℚ) / 1000000000) (by positivity)] at this
      exact this
  rw [abs_le] at herr
  have hx : (1 : ℚ) / 1000000000 ≤ d / 1000000000 := by
    have : (1 : ℚ) ≤ d := by exact_mod_cast h0
    linarith
  have hdd : (d : ℚ) / 1000000000 = S + N / 1000000000 := by rw [hd]; ring
  set x := (d : ℚ) / 1000000000 with hxd
  have b1 : (1 - 1 / 2 ^ 53) * x ≤ S + f := by rw [hdd]; nlinarith
  have b2 : S + f ≤ (1 + 1 / 2 ^ 53) * x := by rw [hdd]; nlinarith
  have hpos : 0 < S + f := by nlinarith
  have herr2 := fl_err_rel (p := 53) (emin := -1074) (by norm_num) (x := S + f) (by
    rw [abs_of_pos hpos]
    refine (zpow_le_zpow_right₀ (n := -31) (by norm_num) (by norm_num)).trans ?_
    have k1 : (2 : ℚ) ^ (-31 : ℤ) ≤ 1 / 2000000000 := by norm_num
    have k2 : 1 / 2000000000 ≤ x / 2 := by linarith
    have k3 : x / 2 ≤ (1 - 1 / 2 ^ 53) * x := by nlinarith
    exact k1.trans (k2.trans (k3.trans b1)))
  rw [abs_of_pos hpos, abs_le] at herr2
  obtain ⟨c1, c2⟩ := herr2
  have e : fl64 (S + f) = fl 53 (-1074) (S + f) := rfl
  rw [e]
  constructor <;> nlinarith

theorem seconds32_bounds {d : ℤ} (h0 : 0 < d) (h1 : d < 2 ^ 63) :
    (1 - 1 / 2 ^ 23) * ((d : ℚ) / 1000000000) ≤ fl32 (seconds d) ∧
    fl32 (seconds d) ≤ (1 + 1 / 2 ^ 23) * ((d : ℚ) / 1000000000) := by
  obtain ⟨b1, b2⟩ := seconds_bounds h0 h1
  have hx : (1 : ℚ) / 1000000000 ≤ d / 1000000000 := by
    have : (1 : ℚ) ≤ d := by exact_mod_cast h0
    linarith
  set x := (d : ℚ) / 1000000000
  have hpos : 0 < seconds d := by nlinarith
  have herr := fl_err_rel (p := 24) (emin := -149) (by norm_num) (x := seconds d) (by
    rw [abs_of_pos hpos]
    refine (zpow_le_zpow_right₀ (n := -31) (by norm_num) (by norm_num)).trans ?_
    have k1 : (2 : ℚ) ^ (-31 : ℤ) ≤ 1 / 2000000000 := by norm_num
    have k2 : 1 / 2000000000 ≤ x / 2 := by linarith
    have k3 : x / 2 ≤ (1 - 1 / 2 ^ 50) * x := by nlinarith
    exact k1.trans (k2.trans (k3.trans b1)))
  rw [abs_of_pos hpos, abs_le] at herr
  obtain ⟨c1, c2⟩ := herr
  have e : fl32 (seconds d) = fl 24 (-149) (seconds d) := rfl
  rw [e]
  constructor <;> nlinarith

/-- The duration in effect. -/
def effDuration (duration : ℤ) : ℤ := if duration = 0 then defaultDuration else duration

theorem movement_zero (duration : ℤ) : movement duration 0 = 0 := by
  unfold movement
  rw [seconds_zero, fl32_zero]
  simp [fl32_zero]

theorem movement_bounds {duration δ : ℤ} (hD0 : 0 ≤ duration) (hD1 : duration < 2 ^ 63) (h0 : 0 ≤ δ) (h1 : δ < 2 ^ 63) :
    (1 - 1 / 2 ^ 21) * ((δ : ℚ) / effDuration duration) ≤ movement duration δ ∧
    movement duration δ ≤ (1 + 1 / 2 ^ 21) * ((δ : ℚ) / effDuration duration) := by
  rcases h0.eq_or_lt with rfl | h0
  · rw [movement_zero]; simp
  have hE0 : 0 < effDuration duration := by unfold effDuration defaultDuration; split <;> omega
  have hE1 : effDuration duration < 2 ^ 63 := by unfold effDuration defaultDuration; split <;> omega
  have e : movement duration δ = fl32 (fl32 (seconds δ) / fl32 (seconds (effDuration duration))) := rfl
  rw [e]
  obtain ⟨a1, a2⟩ := seconds32_bounds h0 h1
  obtain ⟨b1, b2⟩ := seconds32_bounds hE0 hE1
  have qδ : (1 : ℚ) ≤ δ := by exact_mod_cast h0
  have qE : (1 : ℚ) ≤ effDuration duration := by exact_mod_cast hE0
  have qE2 : (effDuration duration : ℚ) ≤ 2 ^ 63 := by exact_mod_cast hE1.le
  generalize effDuration duration = E at *
  set A := fl32 (seconds δ)
  set B := fl32 (seconds E)
  have hB : 0 < B := by nlinarith
  have hA : 0 < A := by nlinarith
  have hE : (0 : ℚ) < E := by linarith
  set r := (δ : ℚ) / E with hr
  have hrE : (δ : ℚ) = r * E := by rw [hr]; field_simp
  have hrpos : 0 < r := by rw [hr]; positivity
  have hrlow : (2 : ℚ) ^ (-63 : ℤ) ≤ r := by
    rw [hr, le_div_iff₀ hE]
    have : (2 : ℚ) ^ (-63 : ℤ) * 2 ^ 63 = 1 := by norm_num
    nlinarith [two_zpow_pos (-63)]
  rw [hrE] at a1 a2
  have q1 : (1 - 1 / 2 ^ 21 + 1 / 2 ^ 23) * r ≤ A / B := by
    rw [le_div_iff₀ hB]
    have hrB := mul_le_mul_of_nonneg_left b2 (show 0 ≤ (1 - 1 / 2 ^ 21 + 1 / 2 ^ 23 : ℚ) * r by positivity)
    have hrE' : 0 < r * E := by positivity
    calc (1 - 1 / 2 ^ 21 + 1 / 2 ^ 23) * r * B ≤ (1 - 1 / 2 ^ 21 + 1 / 2 ^ 23) * r * ((1 + 1 / 2 ^ 23) * (E / 1000000000)) := hrB
      _ = ((1 - 1 / 2 ^ 21 + 1 / 2 ^ 23) * (1 + 1 / 2 ^ 23)) * (r * E / 1000000000) := by ring
      _ ≤ (1 - 1 / 2 ^ 23) * (r * E / 1000000000) := by
        apply mul_le_mul_of_nonneg_right _ (by positivity); norm_num
      _ ≤ A := a1
  have q2 : A / B ≤ (1 + 1 / 2 ^ 21 - 1 / 2 ^ 23) * r := by
    rw [div_le_iff₀ hB]
    have hrB := mul_le_mul_of_nonneg_left b1 (show 0 ≤ (1 + 1 / 2 ^ 21 - 1 / 2 ^ 23 : ℚ) * r by positivity)
    have hrE' : 0 < r * E := by positivity
    calc A ≤ (1 + 1 / 2 ^ 23) * (r * E / 1000000000) := a2
      _ ≤ ((1 + 1 / 2 ^ 21 - 1 / 2 ^ 23) * (1 - 1 / 2 ^ 23)) * (r * E / 1000000000) := by
        apply mul_le_mul_of_nonneg_right _ (by positivity); norm_num
      _ = (1 + 1 / 2 ^ 21 - 1 / 2 ^ 23) * r * ((1 - 1 / 2 ^ 23) * (E / 1000000000)) := by ring
      _ ≤ (1 + 1 / 2 ^ 21 - 1 / 2 ^ 23) * r * B := hrB
  have hq : 0 < A / B := by positivity
  have herr := fl_err_rel (p := 24) (emin := -149) (by norm_num) (x := A / B) (by
    rw [abs_of_pos hq]
    refine (zpow_le_zpow_right₀ (n := -64) (by norm_num) (by norm_num)).trans ?_
    have : (2 : ℚ) ^ (-64 : ℤ) = 2 ^ (-63 : ℤ) / 2 := by norm_num
    nlinarith [two_zpow_pos (-63)])
  rw [abs_of_pos hq, abs_le] at herr
  obtain ⟨c1, c2⟩ := herr
  have e : fl32 (A / B) = fl 24 (-149) (A / B) := rfl
  rw [e]
  constructor <;> nlinarith

theorem movement_nonneg {duration δ : ℤ} (hD0 : 0 ≤ duration) (hD1 : duration < 2 ^ 63) (h0 : 0 ≤ δ) (h1 : δ < 2 ^ 63) :
    0 ≤ movement duration δ := by
  refine le_trans ?_ (movement_bounds hD0 hD1 h0 h1).1
  have hE0 : 0 < effDuration duration := by unfold effDuration defaultDuration; split <;> omega
  have qE : (0 : ℚ) < effDuration duration := by exact_mod_cast hE0
  have qδ : (0 : ℚ) ≤ δ := by exact_mod_cast h0
  have : 0 ≤ (δ : ℚ) / effDuration duration := by positivity
  nlinarith

/-! ### One step -/

theorem stepOffset_of_pos (duration δ : ℤ) {o : ℚ} (h : 0 < o) : stepOffset duration δ o =
    if fl32 (o - movement duration δ) ≤ 0 then 0 else fl32 (o - movement duration δ) := by
  unfold stepOffset
  rw [if_pos h.ne', if_neg (by linarith)]

theorem stepOffset_of_neg (duration δ : ℤ) {o : ℚ} (h : o < 0) : stepOffset duration δ o =
    if 0 ≤ fl32 (o + movement duration δ) then 0 else fl32 (o + movement duration δ) := by
  unfold stepOffset
  rw [if_pos h.ne, if_pos h]

theorem stepOffset_zero (duration δ : ℤ) : stepOffset duration δ 0 = 0 := by unfold stepOffset; simp

theorem stepOffset_neg (duration δ : ℤ) (o : ℚ) : stepOffset duration δ (-o) = -stepOffset duration δ o := by
  have key : ∀ o : ℚ, 0 < o → stepOffset duration δ (-o) = -stepOffset duration δ o := by
    intro o h
    rw [stepOffset_of_pos _ _ h, stepOffset_of_neg _ _ (by linarith)]
    have e : fl32 (-o + movement duration δ) = -fl32 (o - movement duration δ) := by rw [← fl32_neg]; congr 1; ring
    rw [e]
    split_ifs <;> first | (exfalso; linarith) | simp
  rcases lt_trichotomy o 0 with h | rfl | h
  · have := key (-o) (by linarith)
    rw [neg_neg] at this
    rw [this, neg_neg]
  · simp [stepOffset_zero]
  · exact key o h

/-- One step from the right: towards 0, never past it, by the movement up to rounding. -/
theorem stepOffset_pos {duration δ : ℤ} {o : ℚ} (ho : 0 < o) (h1 : o ≤ 1) (hf : fl32 o = o) (hm : 0 ≤ movement duration δ) :
    0 ≤ stepOffset duration δ o ∧ stepOffset duration δ o ≤ o ∧ fl32 (stepOffset duration δ o) = stepOffset duration δ o ∧
    (stepOffset duration δ o = 0 → o - 1 / 2 ^ 25 ≤ movement duration δ) ∧
    (stepOffset duration δ o ≠ 0 → |stepOffset duration δ o - (o - movement duration δ)| ≤ 1 / 2 ^ 25) := by
  rw [stepOffset_of_pos _ _ ho]
  have hle : fl32 (o - movement duration δ) ≤ o := by
    have := fl32_mono (show o - movement duration δ ≤ o by linarith)
    rwa [hf] at this
  have herr : -1 ≤ o - movement duration δ → |fl32 (o - movement duration δ) - (o - movement duration δ)| ≤ 1 / 2 ^ 25 := by
    intro h
    have := fl_err_abs (p := 24) (emin := -149) (by norm_num) (x := o - movement duration δ) (k := 0)
      (by rw [abs_le]; constructor <;> norm_num <;> linarith) (by norm_num)
    have e : (2 : ℚ) ^ ((0 : ℤ) - (24 : ℕ)) / 2 = 1 / 2 ^ 25 := by norm_num
    rw [e] at this
    exact this
  split_ifs with h
  · refine ⟨le_rfl, ho.le, fl32_zero, fun _ => ?_, fun h => absurd rfl h⟩
    by_contra hcon
    push Not at hcon
    have hh := herr (by
      have : (0 : ℚ) < 1 / 2 ^ 25 := by positivity
      linarith)
    rw [abs_le] at hh
    have h3 : fl32 (1 / 2 ^ 25) = 1 / 2 ^ 25 := fl_exact 1 (-25) (by norm_num) (by norm_num) (by norm_num)
    have h4 := fl32_mono (show (1 / 2 ^ 25 : ℚ) ≤ o - movement duration δ by linarith)
    rw [h3] at h4
    have : (0 : ℚ) < 1 / 2 ^ 25 := by positivity
    linarith
  · push Not at h
    refine ⟨h.le, hle, fl32_idem _, fun hh => by linarith, fun _ => herr ?_⟩
    by_contra hcon
    push Not at hcon
    have := fl32_nonpos (show o - movement duration δ ≤ 0 by linarith)
    linarith

end Bips
