import Verif.Props.Slider
import Verif.Model.UiSlider

/-!
# C79: the slide goes where the user goes
-/

namespace Bips
open Ui hiding Frame

variable {α : Type}

/-- The three kinds of clicks. -/
inductive TabClick
  | left
  | right
  | tab (i : Nat)

/-- What a click does to the window. -/
def TabClick.apply (k : TabClick) (w : UiS) : UiS :=
  match k with
  | left => w.clickLeft
  | right => w.clickRight
  | tab i => w.clickTab i

/-- **C79.** A click that selects another tab pushes the slider: to the left if the new tab is right of the old one, else to the
right. A click that leaves the selection as it was leaves the slider as it was. -/
theorem C79_push (k : TabClick) (w : UiS) :
    let v := k.apply w
    (w.ui.selected < v.ui.selected → v.slider = w.slider.pushLeft) ∧
    (v.ui.selected < w.ui.selected → v.slider = w.slider.pushRight) ∧
    (v.ui.selected = w.ui.selected → v.slider = w.slider) := by
  cases k <;> simp only [TabClick.apply, UiS.clickLeft, UiS.clickRight, UiS.clickTab, Ui.clickLeft, Ui.clickRight, Ui.clickTab]
  · split <;> simp
  · split <;> simp
  · split
    · refine ⟨fun h => ?_, fun h => ?_, fun h => ?_⟩ <;> dsimp only at h
      · rw [if_pos h]
      · rw [if_neg (by omega), if_pos h]
      · rw [if_neg (by omega), if_neg (by omega)]
    · simp

/-- The first frame after a push has the offset 1 or -1. -/
theorem first_offset {fma : Bool} {D c : ℤ} {s : Slider} {bufs : List α} (hD0 : 0 ≤ D) (hD1 : D < 2 ^ 63)
    (h : Slides fma D c s bufs) (hp : s.push ≠ 0) {t : ℤ} (h2 : 0 < t) (w : ℤ) (a : α) :
    (s.layout fma bufs t w a).slider.offset = s.push := by
  have inv := slides_inv hD0 hD1 h
  obtain ⟨f1, f2, f3, f4, f5, f6, f7⟩ := slider_layout_fields fma s bufs t w a
  rw [start_of_push hp] at f6 f7
  dsimp only at f6 f7
  rw [if_pos h2.ne'] at f6 f7
  have ht : timeSub t t = 0 := by unfold timeSub; omega
  have hone : ∀ o : ℚ, o = 1 ∨ o = -1 → stepOffset D 0 o = o := by
    rintro o (rfl | rfl)
    · rw [stepOffset_of_pos _ _ (by norm_num), movement_zero, sub_zero, fl32_one, if_neg (by norm_num)]
    · rw [stepOffset_of_neg _ _ (by norm_num), movement_zero, add_zero, fl32_neg_one, if_neg (by norm_num)]
  rw [f7, ht, fl32_push inv.push, inv.duration]
  apply hone
  rcases inv.push with e | e | e
  · right; rw [e]; norm_num
  · exact absurd e hp
  · left; rw [e]; norm_num

/-- With offset 1 the old picture is at its place. -/
theorem shift_one (fma : Bool) (w : ℤ) : shift fma 1 w = 0 := by
  have : smooth fma 1 = 1 := by
    unfold smooth
    rw [if_neg (by norm_num), ease_eq, if_neg (by norm_num), easeHigh_one]
  unfold shift
  rw [if_pos one_pos, this, sub_self, fl32_zero, mul_zero, fl32_zero]
  simp [truncate]

theorem shift_neg_one (fma : Bool) (w : ℤ) : shift fma (-1) w = 0 := by
  rw [shift_neg fma one_pos, shift_one, neg_zero]

/-- **C79.** From the click to the picture: when a frame has shown `old`, a click selects another tab and frames follow, then each of
them shows the new tab at its place, or both side by side, the new one on the side where its tab lies. The first of them shows the old
one alone in the window. -/
theorem C79_direction {fma : Bool} {D c : ℤ} {bufs : List α} (hD0 : 0 ≤ D) (hD1 : D < 2 ^ 63) (u : Ui) (s : Slider)
    (h : Slides fma D c s bufs) (t w : ℤ) (old : α) (h1 : c ≤ t) (h2 : 0 < t) (k : TabClick)
    (fs : List (ℤ × ℤ × α)) (now w' : ℤ) (new : α) (ho : Ordered t (fs ++ [(now, w', new)])) (hw : 0 ≤ w') (hw2 : w' ≤ 2 ^ 24) :
    let r := s.layout fma bufs t w old
    let v := k.apply ⟨u, r.slider⟩
    let q := runFrames fma (v.slider, r.bufs) fs
    let z := q.1.layout fma q.2 now w' new
    v.ui.selected ≠ u.selected →
    ((z.slider.offset = 0 ∧ z.draws = [(0, new)]) ∨
     (z.slider.offset ≠ 0 ∧ ∃ x, 0 ≤ x ∧ x ≤ w' ∧
      z.draws = if u.selected < v.ui.selected then [(x - w', old), (x, new)] else [(w' - x, old), (-x, new)])) ∧
    (fs = [] → z.draws = if u.selected < v.ui.selected then [(0, old), (w', new)] else [(0, old), (-w', new)]) := by
  intro r v q z hne
  obtain ⟨p1, p2, -⟩ := C79_push k ⟨u, r.slider⟩
  have hv : v.slider = if decide (u.selected < v.ui.selected) then r.slider.pushLeft else r.slider.pushRight := by
    by_cases hlt : u.selected < v.ui.selected
    · rw [decide_eq_true hlt, if_pos rfl]; exact p1 hlt
    · rw [decide_eq_false hlt, if_neg (by simp)]; exact p2 (by show v.ui.selected < u.selected; omega)
  have hold := C79_old_picture hD0 hD1 h t w old h1 h2 (decide (u.selected < v.ui.selected)) fs now w' new ho hw hw2
  dsimp only at hold
  rw [← hv] at hold
  simp only [decide_eq_true_eq] at hold
  refine ⟨hold, fun hfs => ?_⟩
  subst hfs
  have hr := Slides.frame t w old h h1 h2
  have hvs : Slides fma D t v.slider r.bufs := by
    rw [hv]; split
    · exact hr.left
    · exact hr.right
  have hp : v.slider.push = if u.selected < v.ui.selected then 1 else -1 := by
    rw [hv]
    simp only [decide_eq_true_eq]
    split <;> rfl
  obtain ⟨o1, o2, -⟩ := ho
  have hz : z = v.slider.layout fma r.bufs now w' new := rfl
  have hoff : z.slider.offset = if u.selected < v.ui.selected then 1 else -1 := by
    rw [hz]
    exact first_offset hD0 hD1 hvs (by rw [hp]; split <;> decide) o2 w' new |>.trans (by rw [hp]; split <;> simp)
  have hoff0 : z.slider.offset ≠ 0 := by rw [hoff]; split <;> norm_num
  rcases hold with ⟨e, -⟩ | ⟨-, x, -, -, hx⟩
  · exact absurd e hoff0
  have hd := (layout_draws fma v.slider r.bufs now w' new).2 hoff0
  have hx' : z.draws = _ := hx
  have hlast : ∀ x, drawCall z.bufs x z.slider.nextCall = [(x, new)] := (frame_draws hD0 hD1 hvs o1 o2 w' new).2.1
  rw [← hz, hlast, hx', hoff] at hd
  rw [hx']
  split at hd
  · rename_i hlt
    have := congrArg List.getLast? hd
    rw [if_pos one_pos, shift_one] at this
    simp at this
    rw [if_pos hlt, if_pos hlt, this]; simp
  · rename_i hlt
    have := congrArg List.getLast? hd
    rw [if_neg (by norm_num), shift_neg_one] at this
    simp at this
    rw [if_neg hlt, if_neg hlt, this]; simp
/-- The hypotheses of `C79_direction` are met, and the slide goes both ways: from tab 1 of 3, by a click on tab 2 and by one on the
left arrow. -/
example : ∃ u : Ui, u.selected = 1 ∧ (TabClick.apply (.tab 2) ⟨u, Slider.zero⟩).ui.selected = 2 ∧
    (TabClick.apply .left ⟨u, Slider.zero⟩).ui.selected = 0 ∧
    Ordered (α := ℕ) 1000 [(2000, 600, 1), (150000000, 600, 2)] ∧
    Slides (α := ℕ) true 0 0 { Slider.zero with duration := 0 } [] := by
  refine ⟨{ tabs := List.replicate 3 ⟨str "m", Key.zero⟩, selected := 1 }, rfl, ?_, ?_, by simp [Ordered], .init⟩ <;> decide

end Bips
