import Verif.Src.SlideVal
import Verif.Props.Slider

/-!
# examples/ui/one/slider.go, from the text

The text of `Layout`, `smooth` and `easeInOutCubic`. No operation overflows, there is no division by zero, and conversions to `int` are in range.
-/

namespace Bips.Src

open Bips.Ui

set_option linter.unusedSimpArgs false

variable (W : World) (L : Nat)

theorem fl32_two_pow (k : Nat) : fl32 (2 ^ k) = 2 ^ k :=
  fl_exact 1 k (by rw [Int.cast_one, one_mul, zpow_natCast]) (by norm_num) (by omega)

theorem abs_fl32_le {q : ℚ} (k : Nat) (h : |q| ≤ 2 ^ k) : |fl32 q| ≤ 2 ^ k := by
  rw [abs_le] at h ⊢
  have h1 := fl32_mono h.1
  have h2 := fl32_mono h.2
  rw [fl32_neg] at h1
  rw [fl32_two_pow] at h1 h2
  exact ⟨h1, h2⟩

theorem f32Res_of {q : ℚ} (h : |q| ≤ 2 ^ 100) : f32Res q = .ok (.f32 (fl32 q)) :=
  if_pos (lt_of_le_of_lt (abs_fl32_le 100 h) (by norm_num))

theorem slide_ease (n : Nat) (t : ℚ) (h0 : 0 ≤ t) (h1 : t ≤ 1) :
    run W L (n + 1) .main_easeInOutCubic [.f32 t] = .ok [.f32 (easeInOutCubic false t)] := by
  rw [run_succ, easeInOutCubic]
  have e1 := f32Res_of (q := 4 * t) (by rw [abs_le]; constructor <;> linarith)
  have b1 := abs_fl32_le 2 (q := 4 * t) (by rw [abs_le]; constructor <;> linarith)
  have g2 : |fl32 (4 * t) * t| ≤ 2 ^ 2 := by
    rw [abs_mul, abs_of_nonneg h0]
    nlinarith [abs_nonneg (fl32 (4 * t))]
  have b2 := abs_fl32_le 2 g2
  have e2 := f32Res_of (g2.trans (by norm_num))
  have g3 : |fl32 (fl32 (4 * t) * t) * t| ≤ 2 ^ 2 := by
    rw [abs_mul, abs_of_nonneg h0]
    nlinarith [abs_nonneg (fl32 (fl32 (4 * t) * t))]
  have e3 := f32Res_of (g3.trans (by norm_num))
  have i1 : |t - 1| ≤ 2 ^ 0 := by rw [abs_le]; constructor <;> linarith
  have c1 := abs_fl32_le 0 i1
  have f1 := f32Res_of (i1.trans (by norm_num))
  have i2 : |2 * t| ≤ 2 ^ 1 := by rw [abs_le]; constructor <;> linarith
  have c2 := abs_fl32_le 1 i2
  have f2 := f32Res_of (i2.trans (by norm_num))
  have i3 : |fl32 (2 * t) - 2| ≤ 2 ^ 2 := by rw [abs_le] at c2 ⊢; constructor <;> linarith
  have c3 := abs_fl32_le 2 i3
  have f3 := f32Res_of (i3.trans (by norm_num))
  have i4 : |fl32 (t - 1) * fl32 (fl32 (2 * t) - 2)| ≤ 2 ^ 2 := by
    rw [abs_mul]
    nlinarith [abs_nonneg (fl32 (t - 1)), abs_nonneg (fl32 (fl32 (2 * t) - 2))]
  have c4 := abs_fl32_le 2 i4
  have f4 := f32Res_of (i4.trans (by norm_num))
  have i5 : |fl32 (fl32 (t - 1) * fl32 (fl32 (2 * t) - 2)) * fl32 (fl32 (2 * t) - 2)| ≤ 2 ^ 4 := by
    rw [abs_mul]
    nlinarith [abs_nonneg (fl32 (fl32 (t - 1) * fl32 (fl32 (2 * t) - 2))), abs_nonneg (fl32 (fl32 (2 * t) - 2))]
  have c5 := abs_fl32_le 4 i5
  have f5 := f32Res_of (i5.trans (by norm_num))
  have i6 : |fl32 (fl32 (fl32 (t - 1) * fl32 (fl32 (2 * t) - 2)) * fl32 (fl32 (2 * t) - 2)) + 1| ≤ 2 ^ 5 := by
    rw [abs_le] at c5 ⊢; constructor <;> linarith
  have f6 := f32Res_of (i6.trans (by norm_num))
  by_cases h : t < 1 / 2
  · simp -implicitDefEqProofs only [src, main_easeInOutCubic, h, e1, e2, e3]
  · simp -implicitDefEqProofs only [src, main_easeInOutCubic, h, f1, f2, f3, f4, f5, f6]

theorem slide_smooth (n : Nat) (t : ℚ) (h : |t| ≤ 1) : run W L (n + 2) .main_smooth [.f32 t] = .ok [.f32 (smooth false t)] := by
  rw [abs_le] at h
  rw [run_succ, smooth]
  by_cases h0 : t < 0
  · simp -implicitDefEqProofs only [src, main_smooth, h0, slide_ease W L n (-t) (by linarith) (by linarith)]
  · simp -implicitDefEqProofs only [src, main_smooth, h0, slide_ease W L n t (by linarith) (by linarith)]

/-! ### `Layout` -/

/-- The statements of a sequence from the `k`-th on. -/
def Stmt.dropSeq : Nat → Stmt → Stmt
  | k + 1, .seq _ b => b.dropSeq k
  | _, s => s

/-- The `k`-th statement of a sequence. -/
def Stmt.nth (k : Nat) (s : Stmt) : Stmt :=
  match s.dropSeq k with
  | .seq a _ => a
  | s => s

variable (R : Fn → List Val → Res (List Val))

theorem slide_start (b w wd g : Val) (rest : List Val) (s : Slider) (now : Int) (h : |(s.push : ℚ)| ≤ 2 ^ 100) :
    exec W L R (main_Slider_Layout.nth 3) (b :: sliderVal s :: w :: wd :: .int now :: g :: rest) =
      .ok (.next (b :: sliderVal (s.start now) :: w :: wd :: .int now :: g :: rest)) := by
  by_cases hp : s.push = 0
  · simp -implicitDefEqProofs [src, main_Slider_Layout, Stmt.nth, Stmt.dropSeq, sliderVal, Slider.start, hp]
  · simp -implicitDefEqProofs [src, main_Slider_Layout, Stmt.nth, Stmt.dropSeq, sliderVal, Slider.start, hp, f32Res_of h, addr]

/-- The time since the last frame. -/
def slideDelta (s : Slider) (now : Int) : Int := if s.t0 ≠ 0 then timeSub now s.t0 else 0

theorem slide_delta (b w wd g d a sh : Val) (v10 : Val) (rest : List Val) (s : Slider) (now : Int) :
    ∃ v, exec W L R (main_Slider_Layout.nth 5) (b :: sliderVal s :: w :: wd :: .int now :: g :: d :: a :: sh :: .int 0 :: v10 :: rest) =
      .ok (.next (b :: sliderVal { s with t0 := if s.t0 ≠ 0 then now else s.t0 } :: w :: wd :: .int now :: g :: d :: a :: sh ::
        .int (slideDelta s now) :: v :: rest)) := by
  by_cases ht : s.t0 = 0
  · exact ⟨v10, by simp -implicitDefEqProofs [src, main_Slider_Layout, Stmt.nth, Stmt.dropSeq, sliderVal, slideDelta, ht]⟩
  · exact ⟨.int now, by simp -implicitDefEqProofs [src, main_Slider_Layout, Stmt.nth, Stmt.dropSeq, sliderVal, slideDelta, ht]⟩

theorem seconds_small {d : Int} (h0 : 0 ≤ d) (h1 : d < 2 ^ 63) : 0 ≤ fl32 (seconds d) ∧ |seconds d| ≤ 2 ^ 64 := by
  rcases h0.eq_or_lt with rfl | h0
  · rw [seconds_zero, fl32_zero]
    norm_num
  have hd : (d : ℚ) ≤ 2 ^ 63 := by exact_mod_cast h1.le
  have hd0 : (0 : ℚ) < d := by exact_mod_cast h0
  obtain ⟨a, b⟩ := seconds_bounds h0 h1
  have ha : 0 ≤ seconds d := le_trans (mul_nonneg (by norm_num) (by positivity)) a
  refine ⟨fl32_nonneg ha, ?_⟩
  rw [abs_of_nonneg ha]
  refine b.trans ?_
  rw [show (1 + 1 / 2 ^ 50 : ℚ) * (d / 1000000000) = d * ((1 + 1 / 2 ^ 50) / 1000000000) by ring]
  calc (d : ℚ) * ((1 + 1 / 2 ^ 50) / 1000000000) ≤ 2 ^ 63 * ((1 + 1 / 2 ^ 50) / 1000000000) := mul_le_mul_of_nonneg_right hd (by norm_num)
    _ ≤ 2 ^ 64 := by norm_num

theorem seconds_lower {d : Int} (h0 : 0 < d) (h1 : d < 2 ^ 63) : (1 / 2 ^ 31 : ℚ) ≤ fl32 (seconds d) := by
  have hd : (1 : ℚ) ≤ d := by exact_mod_cast h0
  refine le_trans ?_ (seconds32_bounds h0 h1).1
  rw [show (1 - 1 / 2 ^ 23 : ℚ) * (d / 1000000000) = d * ((1 - 1 / 2 ^ 23) / 1000000000) by ring]
  calc (1 / 2 ^ 31 : ℚ) ≤ 1 * ((1 - 1 / 2 ^ 23) / 1000000000) := by norm_num
    _ ≤ d * ((1 - 1 / 2 ^ 23) / 1000000000) := mul_le_mul_of_nonneg_right hd (by norm_num)

theorem slide_step (b w wd nv g d sh v10 v11 v12 : Val) (rest : List Val) (s : Slider) (δ : Int)
    (hD0 : 0 ≤ s.duration) (hD1 : s.duration < 2 ^ 63) (h0 : 0 ≤ δ) (h1 : δ < 2 ^ 63) (ho : |s.offset| ≤ 1) :
    ∃ v v', exec W L R (main_Slider_Layout.nth 6)
        (b :: sliderVal s :: w :: wd :: nv :: g :: d :: .bool false :: sh :: .int δ :: v10 :: v11 :: v12 :: rest) =
      .ok (.next (b :: sliderVal { s with offset := stepOffset s.duration δ s.offset } :: w :: wd :: nv :: g :: d ::
        .bool (decide (s.offset ≠ 0)) :: sh :: .int δ :: v10 :: v :: v' :: rest)) := by
  by_cases hz : s.offset = 0
  · refine ⟨v11, v12, ?_⟩
    simp -implicitDefEqProofs [src, main_Slider_Layout, Stmt.nth, Stmt.dropSeq, sliderVal, hz, stepOffset_zero]
  · have hE0 : 0 < effDuration s.duration := by unfold effDuration defaultDuration; split <;> omega
    have hE1 : effDuration s.duration < 2 ^ 63 := by unfold effDuration defaultDuration; split <;> omega
    have q1 := f32Res_of ((seconds_small h0 h1).2.trans (by norm_num))
    have q2 := f32Res_of ((seconds_small hE0.le hE1).2.trans (by norm_num))
    have l2 := seconds_lower hE0 hE1
    have z2 : fl32 (seconds (effDuration s.duration)) ≠ 0 := fun h => by rw [h] at l2; norm_num at l2
    have q3 : f32Res (fl32 (seconds δ) / fl32 (seconds (effDuration s.duration))) =
        .ok (.f32 (fl32 (fl32 (seconds δ) / fl32 (seconds (effDuration s.duration))))) := by
      apply f32Res_of
      have h2 : |fl32 (seconds δ)| ≤ 2 ^ 64 := abs_fl32_le 64 (seconds_small h0 h1).2
      rw [abs_div, abs_of_nonneg (le_trans (by norm_num) l2), div_le_iff₀ (lt_of_lt_of_le (by norm_num) l2)]
      calc |fl32 (seconds δ)| ≤ 2 ^ 64 := h2
        _ ≤ 2 ^ 100 * (1 / 2 ^ 31) := by norm_num
        _ ≤ 2 ^ 100 * fl32 (seconds (effDuration s.duration)) := mul_le_mul_of_nonneg_left l2 (by norm_num)
    obtain ⟨m0, m1⟩ := C79_in_range hD0 hD1 h0 h1
    have em : movement s.duration δ = fl32 (fl32 (seconds δ) / fl32 (seconds (effDuration s.duration))) := rfl
    rw [← em] at q3
    rw [abs_le] at ho
    have q4 := f32Res_of (q := s.offset + movement s.duration δ) (by rw [abs_le]; constructor <;> linarith)
    have q5 := f32Res_of (q := s.offset - movement s.duration δ) (by rw [abs_le]; constructor <;> linarith)
    generalize hm : movement s.duration δ = m at *
    refine ⟨.int (effDuration s.duration), .f32 m, ?_⟩
    rcases lt_trichotomy s.offset 0 with hs | hs | hs
    · rw [show stepOffset s.duration δ s.offset = if 0 ≤ fl32 (s.offset + m) then 0 else fl32 (s.offset + m) by
        rw [stepOffset_of_neg _ _ hs, hm]]
      by_cases hd : s.duration = 0
      · have he : effDuration s.duration = 300000000 := by rw [effDuration, if_pos hd]; rfl
        rw [he] at q2 q3 z2 ⊢
        split <;> rename_i hc <;>
          simp -implicitDefEqProofs [src, main_Slider_Layout, Stmt.nth, Stmt.dropSeq, sliderVal, hz, hd, hs, q1, q2, q3, q4, z2, hc]
      · have he : effDuration s.duration = s.duration := by rw [effDuration, if_neg hd]
        rw [he] at q2 q3 z2 ⊢
        split <;> rename_i hc <;>
          simp -implicitDefEqProofs [src, main_Slider_Layout, Stmt.nth, Stmt.dropSeq, sliderVal, hz, hd, hs, q1, q2, q3, q4, z2, hc]
    · exact absurd hs hz
    · rw [show stepOffset s.duration δ s.offset = if fl32 (s.offset - m) ≤ 0 then 0 else fl32 (s.offset - m) by
        rw [stepOffset_of_pos _ _ hs, hm]]
      have hs' : ¬ s.offset < 0 := by linarith
      by_cases hd : s.duration = 0
      · have he : effDuration s.duration = 300000000 := by rw [effDuration, if_pos hd]; rfl
        rw [he] at q2 q3 z2 ⊢
        split <;> rename_i hc <;>
          simp -implicitDefEqProofs [src, main_Slider_Layout, Stmt.nth, Stmt.dropSeq, sliderVal, hz, hd, hs', q1, q2, q3, q5, z2, hc]
      · have he : effDuration s.duration = s.duration := by rw [effDuration, if_neg hd]
        rw [he] at q2 q3 z2 ⊢
        split <;> rename_i hc <;>
          simp -implicitDefEqProofs [src, main_Slider_Layout, Stmt.nth, Stmt.dropSeq, sliderVal, hz, hd, hs', q1, q2, q3, q5, z2, hc]

theorem slide_record (w wd nv g d a sh de v10 v11 v12 v13 v14 v15 v16 : Val) (s : Slider) (bufs : List Val) (hn : ∀ i, s.next = some i → i < bufs.length) :
    ∃ u u', exec W L R (main_Slider_Layout.dropSeq 7)
        [.list bufs, sliderVal s, w, wd, nv, g, d, a, sh, de, v10, v11, v12, v13, v14, v15, v16] =
      exec W L R (main_Slider_Layout.dropSeq 16)
        [.list (s.record bufs w).2, sliderVal (s.record bufs w).1, w, wd, nv, g, d, a, sh, de, v10, v11, v12, wd, u, u', v16] := by
  have e : main_Slider_Layout.dropSeq 7 = (main_Slider_Layout.nth 7 ;; main_Slider_Layout.nth 8 ;; main_Slider_Layout.nth 9 ;; main_Slider_Layout.nth 10 ;;
    main_Slider_Layout.nth 11 ;; main_Slider_Layout.nth 12 ;; main_Slider_Layout.nth 13 ;; main_Slider_Layout.nth 14 ;; main_Slider_Layout.nth 15 ;;
    main_Slider_Layout.dropSeq 16) := rfl
  rw [e]
  generalize main_Slider_Layout.dropSeq 16 = K
  rw [Slider.record]
  cases h : s.next with
  | none =>
    refine ⟨.int bufs.length, .int bufs.length, ?_⟩
    simp -implicitDefEqProofs [src, main_Slider_Layout, Stmt.nth, Stmt.dropSeq, sliderVal, h, addr, setIndexSem]
  | some i =>
    have := hn i h
    refine ⟨.int i, .int i, ?_⟩
    simp -implicitDefEqProofs [src, main_Slider_Layout, Stmt.nth, Stmt.dropSeq, sliderVal, h, addr, setIndexSem, this]

/-- What is drawn, as a value: the shift and the content. -/
def drawVal (d : Int × Val) : Val := .list [.int d.1, d.2]

theorem smooth_le {o : ℚ} (h : |o| ≤ 1) : |smooth false o| ≤ 1 := by
  obtain ⟨s0, -, s1, sn, sm⟩ := C79_easing false
  have pos : ∀ o : ℚ, 0 ≤ o → o ≤ 1 → |smooth false o| ≤ 1 := fun o h0 h1 => by
    have := sm o o h0 le_rfl h1
    rw [abs_of_nonneg this.1]
    exact this.2.2
  rw [abs_le] at h
  rcases le_total 0 o with h0 | h0
  · exact pos o h0 h.2
  · have := pos (-o) (by linarith) (by linarith)
    rwa [sn, abs_neg] at this

theorem truncate_le {q : ℚ} (k : Int) (h : |q| ≤ k) : -k ≤ truncate q ∧ truncate q ≤ k := by
  rw [abs_le] at h
  have h1 := truncate_mono h.1
  have h2 := truncate_mono h.2
  rw [show -(k : ℚ) = ((-k : ℤ) : ℚ) by push_cast; rfl, truncate_int] at h1
  rw [truncate_int] at h2
  exact ⟨h1, h2⟩

theorem slide_draw (w nv g a de v10 v11 v12 v14 v15 v16 : Val) (wd : Int) (s : Slider) (bufs : List Val)
    (hn : ∀ i, s.nextCall = some i → i < bufs.length) (hl : ∀ i, s.lastCall = some i → i < bufs.length) (ho : |s.offset| ≤ 1)
    (hw : |wd| ≤ 2 ^ 60) (hR : R .main_smooth [.f32 s.offset] = .ok [.f32 (smooth false s.offset)]) :
    exec W L R (main_Slider_Layout.dropSeq 16)
        [.list bufs, sliderVal s, w, .int wd, nv, g, .list [], a, .int 0, de, v10, v11, v12, .int wd, v14, v15, v16] =
      .ok (.ret [.list bufs, sliderVal s, .list ((if s.offset = 0 then drawCall bufs 0 s.nextCall else
        drawCall bufs (shift false s.offset wd) s.lastCall ++ drawCall bufs
          (if 0 < s.offset then shift false s.offset wd + wd else shift false s.offset wd - wd) s.nextCall).map drawVal), a, .int wd]) := by
  have hi : ∀ i, (h : i < bufs.length) → indexSem (.list bufs) i = .ok bufs[i] := fun i h => index_list h
  by_cases hz : s.offset = 0
  · rw [if_pos hz]
    cases h : s.nextCall with
    | none => simp -implicitDefEqProofs [src, main_Slider_Layout, Stmt.dropSeq, sliderVal, h, addr, hz, drawCall]
    | some i =>
      simp -implicitDefEqProofs [src, main_Slider_Layout, Stmt.dropSeq, sliderVal, h, addr, hz, drawCall, drawVal, hi i (hn i h), List.getElem?_eq_getElem (hn i h)]
  · rw [if_neg hz]
    have hwq : |(wd : ℚ)| ≤ 2 ^ 60 := by exact_mod_cast hw
    have hf := abs_fl32_le 60 hwq
    have q1 := f32Res_of (hwq.trans (by norm_num))
    have hs := smooth_le ho
    have key : ∀ c : ℚ, |c| ≤ 1 → f32Res (smooth false s.offset + c) = .ok (.f32 (fl32 (smooth false s.offset + c))) ∧
        f32Res (fl32 wd * fl32 (smooth false s.offset + c)) = .ok (.f32 (fl32 (fl32 wd * fl32 (smooth false s.offset + c)))) ∧
        |fl32 (fl32 wd * fl32 (smooth false s.offset + c))| ≤ 2 ^ 61 := by
      intro c hc
      have h1 : |smooth false s.offset + c| ≤ 2 ^ 1 := (abs_add_le _ _).trans (by linarith)
      have h2 := abs_fl32_le 1 h1
      have h3 : |fl32 wd * fl32 (smooth false s.offset + c)| ≤ 2 ^ 61 := by
        rw [abs_mul]
        calc _ ≤ (2 : ℚ) ^ 60 * 2 ^ 1 := mul_le_mul hf h2 (abs_nonneg _) (by norm_num)
          _ ≤ 2 ^ 61 := by norm_num
      exact ⟨f32Res_of (h1.trans (by norm_num)), f32Res_of (h3.trans (by norm_num)), abs_fl32_le 61 h3⟩
    rw [abs_le] at hw
    by_cases hp : 0 < s.offset
    · obtain ⟨k1, k2, k3⟩ := key (-1) (by norm_num)
      rw [← sub_eq_add_neg] at k1 k2 k3
      have kt := truncate_le (2 ^ 61) (by push_cast; exact k3)
      have kl := lib_truncF W (fl32 (fl32 wd * fl32 (smooth false s.offset - 1))) (by
        rw [abs_le] at k3
        constructor <;> linarith)
      rw [if_pos hp, shift, if_pos hp]
      generalize truncate (fl32 (fl32 wd * fl32 (smooth false s.offset - 1))) = x at *
      have w1 : wrapInt x = x := by rw [wrapInt_of] <;> omega
      have w2 : wrapInt (x + wd) = x + wd := by rw [wrapInt_of] <;> omega
      cases h : s.nextCall with
      | none =>
        cases h' : s.lastCall with
        | none => simp -implicitDefEqProofs [src, main_Slider_Layout, Stmt.dropSeq, sliderVal, h, h', addr, hz, hp, drawCall, drawVal, hR, q1, k1, k2, kl, w1, w2]
        | some j => simp -implicitDefEqProofs [src, main_Slider_Layout, Stmt.dropSeq, sliderVal, h, h', addr, hz, hp, drawCall, drawVal, hR, q1, k1, k2, kl, w1, w2, hi j (hl j h'), List.getElem?_eq_getElem (hl j h')]
      | some i =>
        cases h' : s.lastCall with
        | none => simp -implicitDefEqProofs [src, main_Slider_Layout, Stmt.dropSeq, sliderVal, h, h', addr, hz, hp, drawCall, drawVal, hR, q1, k1, k2, kl, w1, w2, hi i (hn i h), List.getElem?_eq_getElem (hn i h)]
        | some j => simp -implicitDefEqProofs [src, main_Slider_Layout, Stmt.dropSeq, sliderVal, h, h', addr, hz, hp, drawCall, drawVal, hR, q1, k1, k2, kl, w1, w2, hi i (hn i h), List.getElem?_eq_getElem (hn i h), hi j (hl j h'), List.getElem?_eq_getElem (hl j h')]
    · obtain ⟨k1, k2, k3⟩ := key 1 (by norm_num)
      have kt := truncate_le (2 ^ 61) (by push_cast; exact k3)
      have kl := lib_truncF W (fl32 (fl32 wd * fl32 (smooth false s.offset + 1))) (by
        rw [abs_le] at k3
        constructor <;> linarith)
      rw [if_neg hp, shift, if_neg hp]
      generalize truncate (fl32 (fl32 wd * fl32 (smooth false s.offset + 1))) = x at *
      have w1 : wrapInt x = x := by rw [wrapInt_of] <;> omega
      have w2 : wrapInt (x + wrapInt (-wd)) = x - wd := by rw [wrapInt_of (i := -wd), wrapInt_of] <;> omega
      cases h : s.nextCall with
      | none =>
        cases h' : s.lastCall with
        | none => simp -implicitDefEqProofs [src, main_Slider_Layout, Stmt.dropSeq, sliderVal, h, h', addr, hz, hp, drawCall, drawVal, hR, q1, k1, k2, kl, w1, w2]
        | some j => simp -implicitDefEqProofs [src, main_Slider_Layout, Stmt.dropSeq, sliderVal, h, h', addr, hz, hp, drawCall, drawVal, hR, q1, k1, k2, kl, w1, w2, hi j (hl j h'), List.getElem?_eq_getElem (hl j h')]
      | some i =>
        cases h' : s.lastCall with
        | none => simp -implicitDefEqProofs [src, main_Slider_Layout, Stmt.dropSeq, sliderVal, h, h', addr, hz, hp, drawCall, drawVal, hR, q1, k1, k2, kl, w1, w2, hi i (hn i h), List.getElem?_eq_getElem (hn i h)]
        | some j => simp -implicitDefEqProofs [src, main_Slider_Layout, Stmt.dropSeq, sliderVal, h, h', addr, hz, hp, drawCall, drawVal, hR, q1, k1, k2, kl, w1, w2, hi i (hn i h), List.getElem?_eq_getElem (hn i h), hi j (hl j h'), List.getElem?_eq_getElem (hl j h')]

theorem seq_next {W : World} {L : Nat} {R : Fn → List Val → Res (List Val)} {a b : Stmt} {e e' : Env} (h : exec W L R a e = .ok (.next e')) : exec W L R (a ;; b) e = exec W L R b e' := by
  rw [exec, h, bind_ok, andThen_next]

theorem slide_set0 (b s w wd nv g v6 : Val) (rest : List Val) :
    exec W L R (main_Slider_Layout.nth 0) (b :: s :: w :: wd :: nv :: g :: v6 :: rest) =
      .ok (.next (b :: s :: w :: wd :: nv :: g :: .list [] :: rest)) := rfl

theorem slide_set1 (b s w wd nv g v6 v7 : Val) (rest : List Val) :
    exec W L R (main_Slider_Layout.nth 1) (b :: s :: w :: wd :: nv :: g :: v6 :: v7 :: rest) =
      .ok (.next (b :: s :: w :: wd :: nv :: g :: v6 :: .bool false :: rest)) := rfl

theorem slide_set2 (b s w wd nv g v6 v7 v8 : Val) (rest : List Val) :
    exec W L R (main_Slider_Layout.nth 2) (b :: s :: w :: wd :: nv :: g :: v6 :: v7 :: v8 :: rest) =
      .ok (.next (b :: s :: w :: wd :: nv :: g :: v6 :: v7 :: .int 0 :: rest)) := rfl

theorem slide_set4 (b s w wd nv g v6 v7 v8 v9 : Val) (rest : List Val) :
    exec W L R (main_Slider_Layout.nth 4) (b :: s :: w :: wd :: nv :: g :: v6 :: v7 :: v8 :: v9 :: rest) =
      .ok (.next (b :: s :: w :: wd :: nv :: g :: v6 :: v7 :: v8 :: .int 0 :: rest)) := rfl

theorem slide_split : main_Slider_Layout = (main_Slider_Layout.nth 0 ;; main_Slider_Layout.nth 1 ;; main_Slider_Layout.nth 2 ;;
    main_Slider_Layout.nth 3 ;; main_Slider_Layout.nth 4 ;; main_Slider_Layout.nth 5 ;; main_Slider_Layout.nth 6 ;;
    main_Slider_Layout.dropSeq 7) := rfl

/-- `Layout` in a state that meets the invariant. -/
theorem slide_layout (W : World) (L n : Nat) {D c : Int} {s : Slider} {bufs : List Val} (hD0 : 0 ≤ D) (hD1 : D < 2 ^ 63)
    (h : SlideInv D c s bufs.length) {now : Int} (h1 : c ≤ now) (h2 : 0 < now) (w g : Val) (wd : Int) (hw : |wd| ≤ 2 ^ 60) :
    run W L (n + 3) .main_Slider_Layout [.list bufs, sliderVal s, w, .int wd, .int now, g] =
      .ok [.list (s.layout false bufs now wd w).bufs, sliderVal (s.layout false bufs now wd w).slider,
        .list ((s.layout false bufs now wd w).draws.map drawVal), .bool (s.layout false bufs now wd w).again, .int wd] := by
  obtain ⟨d, lo, hi, hf, nx, ls, t0, t1, -⟩ := h.start h1 h2
  have hδ : 0 ≤ slideDelta (s.start now) now ∧ slideDelta (s.start now) now < 2 ^ 63 := by
    unfold slideDelta
    split
    · exact ⟨(timeSub_range t1).1, (timeSub_range t1).2.1⟩
    · norm_num
  have hp : |(s.push : ℚ)| ≤ 2 ^ 100 := by rcases h.push with e | e | e <;> rw [e] <;> norm_num
  have hstep := stepOffset_spec hD0 hD1 hδ.1 hδ.2 lo hi hf
  rw [run_succ]
  rw [show code .main_Slider_Layout = (main_Slider_Layout, 17) from rfl]
  dsimp only [pad, List.length_cons, List.length_nil, Nat.reduceAdd, Nat.reduceSub, List.replicate, List.cons_append, List.nil_append]
  rw [slide_split, seq_next (slide_set0 ..), seq_next (slide_set1 ..), seq_next (slide_set2 ..), seq_next (slide_start _ _ _ _ _ _ _ _ _ _ hp),
    seq_next (slide_set4 ..)]
  obtain ⟨v, ev⟩ := slide_delta (W := W) (L := L) (R := run W L (n + 2)) (.list bufs) w (.int wd) g (.list []) (.bool false) (.int 0) .nil
    [.nil, .nil, .nil, .nil, .nil, .nil] (s.start now) now
  rw [seq_next ev]
  obtain ⟨v', v'', es⟩ := slide_step (W := W) (L := L) (R := run W L (n + 2)) (.list bufs) w (.int wd) (.int now) g (.list []) (.int 0) v .nil .nil
    [.nil, .nil, .nil, .nil] { s.start now with t0 := if (s.start now).t0 ≠ 0 then now else (s.start now).t0 } (slideDelta (s.start now) now)
    (d ▸ hD0) (d ▸ hD1) hδ.1 hδ.2 (abs_le.2 ⟨lo, hi⟩)
  replace es : _ = Res.ok (Flow.next [.list bufs, sliderVal ((s.start now).tick now), w, .int wd, .int now, g, .list [],
    .bool (decide ((s.start now).offset ≠ 0)), .int 0, .int (slideDelta (s.start now) now), v, v', v'', .nil, .nil, .nil, .nil]) := es
  rw [seq_next es]
  have tn : ((s.start now).tick now).next = (s.start now).next := rfl
  have tof : |((s.start now).tick now).offset| ≤ 1 := by
    rw [show ((s.start now).tick now).offset = stepOffset (s.start now).duration (slideDelta (s.start now) now) (s.start now).offset from rfl, d, abs_le]
    rcases le_total 0 (s.start now).offset with h | h
    · have := hstep.2.1 h
      constructor <;> linarith
    · have := hstep.2.2 h
      constructor <;> linarith
  obtain ⟨u, u', er⟩ := slide_record W L (run W L (n + 2)) w (.int wd) (.int now) g (.list []) (.bool (decide ((s.start now).offset ≠ 0)))
    (.int 0) (.int (slideDelta (s.start now) now)) v v' v'' .nil .nil .nil .nil ((s.start now).tick now) bufs (by rw [tn]; exact nx)
  rw [er]
  have rb := record_bufs ((s.start now).tick now) bufs w (by rw [tn]; exact nx)
  have rs := record_slider ((s.start now).tick now) bufs w
  have ro : (((s.start now).tick now).record bufs w).1.offset = ((s.start now).tick now).offset := by rw [rs]
  rw [slide_draw]
  · have ld := layout_draws false s bufs now wd w
    dsimp only at ld
    rw [layout_slider, layout_bufs] at ld
    rw [bind_ok, layout_slider, layout_bufs, layout_again]
    by_cases hz : (((s.start now).tick now).record bufs w).1.offset = 0
    · rw [if_pos hz, ld.1 hz]; rfl
    · rw [if_neg hz, ld.2 hz]; rfl
  · intro i hi
    rw [rs] at hi
    cases hi
    exact rb.2.2.2
  · intro i hi
    rw [rs] at hi
    exact ((ls i hi).1).trans_le rb.2.2.1
  · rw [ro]; exact tof
  · exact hw
  · exact slide_smooth W L n _ (by rw [ro]; exact tof)

end Bips.Src
