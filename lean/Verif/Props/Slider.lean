import Verif.Lemmas.Slider

/-!
# C79: the slide between two tabs
-/

namespace Bips
open Ui

variable {α : Type}

/-- The states a slider with the field `Duration` set to `D` comes to, with the time of the last frame. Frames come in the order of
their times, which are after the zero time. -/
inductive Slides (fma : Bool) (D : ℤ) : ℤ → Slider → List α → Prop
  | init : Slides fma D 0 { Slider.zero with duration := D } []
  | left {c s bufs} : Slides fma D c s bufs → Slides fma D c s.pushLeft bufs
  | right {c s bufs} : Slides fma D c s bufs → Slides fma D c s.pushRight bufs
  | frame {c s bufs} (now w : ℤ) (a : α) : Slides fma D c s bufs → c ≤ now → 0 < now →
      Slides fma D now (s.layout fma bufs now w a).slider (s.layout fma bufs now w a).bufs

/-! ### The parts of `Layout` -/

theorem record_slider (s : Slider) (bufs : List α) (a : α) :
    (s.record bufs a).1 = { s with next := some (s.next.getD bufs.length), nextCall := some (s.next.getD bufs.length) } := by
  unfold Slider.record
  cases h : s.next <;> simp

theorem record_bufs (s : Slider) (bufs : List α) (a : α) (h : ∀ i, s.next = some i → i < bufs.length) :
    (s.record bufs a).2[s.next.getD bufs.length]? = some a ∧
    (∀ j, j < bufs.length → some j ≠ s.next → (s.record bufs a).2[j]? = bufs[j]?) ∧
    bufs.length ≤ (s.record bufs a).2.length ∧ s.next.getD bufs.length < (s.record bufs a).2.length := by
  unfold Slider.record
  cases hn : s.next with
  | none => exact ⟨by simp, fun j hj _ => by simp [List.getElem?_append_left hj], by simp, by simp⟩
  | some i =>
    have := h i hn
    refine ⟨by simp [this], fun j _ hne => ?_, by simp, by simpa using this⟩
    have : i ≠ j := fun e => hne (by rw [e])
    simp [this]

/-- The slider after `Layout`. -/
theorem layout_slider (fma : Bool) (s : Slider) (bufs : List α) (now w : ℤ) (a : α) :
    (s.layout fma bufs now w a).slider = (((s.start now).tick now).record bufs a).1 := by
  unfold Slider.layout
  dsimp only
  split <;> rfl

theorem layout_bufs (fma : Bool) (s : Slider) (bufs : List α) (now w : ℤ) (a : α) :
    (s.layout fma bufs now w a).bufs = (((s.start now).tick now).record bufs a).2 := by
  unfold Slider.layout
  dsimp only
  split <;> rfl

theorem layout_again (fma : Bool) (s : Slider) (bufs : List α) (now w : ℤ) (a : α) :
    (s.layout fma bufs now w a).again = decide ((s.start now).offset ≠ 0) := by
  unfold Slider.layout
  dsimp only
  split <;> rfl

/-- The fields after `Layout`. -/
theorem slider_layout_fields (fma : Bool) (s : Slider) (bufs : List α) (now w : ℤ) (a : α) :
    let r := (s.layout fma bufs now w a).slider
    let δ := if (s.start now).t0 ≠ 0 then timeSub now (s.start now).t0 else 0
    r.duration = s.duration ∧ r.push = 0 ∧ r.next = some ((s.start now).next.getD bufs.length) ∧ r.nextCall = r.next ∧
    r.lastCall = (s.start now).lastCall ∧ r.t0 = (if (s.start now).t0 ≠ 0 then now else (s.start now).t0) ∧
    r.offset = stepOffset s.duration δ (s.start now).offset := by
  intro r δ
  have hr : r = _ := layout_slider fma s bufs now w a
  rw [hr, record_slider]
  unfold Slider.tick
  refine ⟨?_, ?_, rfl, rfl, rfl, rfl, ?_⟩
  · unfold Slider.start; dsimp only; split <;> rfl
  · unfold Slider.start; dsimp only; split
    · rfl
    · rename_i h; exact not_not.1 h
  · have : (s.start now).duration = s.duration := by unfold Slider.start; split <;> rfl
    dsimp only
    rw [this]

/-- What is drawn. -/
theorem layout_draws (fma : Bool) (s : Slider) (bufs : List α) (now w : ℤ) (a : α) :
    let r := s.layout fma bufs now w a
    (r.slider.offset = 0 → r.draws = drawCall r.bufs 0 r.slider.nextCall) ∧
    (r.slider.offset ≠ 0 → r.draws = drawCall r.bufs (shift fma r.slider.offset w) r.slider.lastCall ++
      drawCall r.bufs (if 0 < r.slider.offset then shift fma r.slider.offset w + w else shift fma r.slider.offset w - w)
        r.slider.nextCall) := by
  intro r
  have hs : r.slider = _ := layout_slider fma s bufs now w a
  have hb : r.bufs = _ := layout_bufs fma s bufs now w a
  rw [hs, hb]
  constructor <;> intro h
  · show (s.layout fma bufs now w a).draws = _
    unfold Slider.layout
    dsimp only
    rw [if_pos h]
  · show (s.layout fma bufs now w a).draws = _
    unfold Slider.layout
    dsimp only
    rw [if_neg h]

/-! ### Invariant -/

/-- What holds in all these states. -/
structure SlideInv (D c : ℤ) (s : Slider) (n : ℕ) : Prop where
  duration : s.duration = D
  push : s.push = -1 ∨ s.push = 0 ∨ s.push = 1
  lo : -1 ≤ s.offset
  hi : s.offset ≤ 1
  float : fl32 s.offset = s.offset
  call : s.nextCall = s.next
  next : ∀ i, s.next = some i → i < n
  last : ∀ i, s.lastCall = some i → i < n ∧ s.next ≠ some i
  t0 : 0 ≤ s.t0 ∧ s.t0 ≤ c
  moving : s.offset ≠ 0 → 0 < s.t0

theorem timeSub_range {a b : ℤ} (h : b ≤ a) : 0 ≤ timeSub a b ∧ timeSub a b < 2 ^ 63 ∧ (a - b < 2 ^ 63 → timeSub a b = a - b) := by
  unfold timeSub; omega

/-- One step, whatever the direction. -/
theorem stepOffset_spec {D δ : ℤ} {o : ℚ} (hD0 : 0 ≤ D) (hD1 : D < 2 ^ 63) (h0 : 0 ≤ δ) (h1 : δ < 2 ^ 63)
    (lo : -1 ≤ o) (hi : o ≤ 1) (hf : fl32 o = o) :
    fl32 (stepOffset D δ o) = stepOffset D δ o ∧ (0 ≤ o → 0 ≤ stepOffset D δ o ∧ stepOffset D δ o ≤ o) ∧
    (o ≤ 0 → o ≤ stepOffset D δ o ∧ stepOffset D δ o ≤ 0) := by
  have hm := movement_nonneg hD0 hD1 h0 h1
  rcases lt_trichotomy o 0 with h | rfl | h
  · obtain ⟨a, b, c, -⟩ := stepOffset_pos (o := -o) (δ := δ) (by linarith) (by linarith) (by rw [fl32_neg, hf]) hm
    rw [stepOffset_neg] at a b c
    refine ⟨?_, fun hh => by linarith, fun _ => ⟨by linarith, by linarith⟩⟩
    rw [fl32_neg] at c
    linarith
  · rw [stepOffset_zero]
    exact ⟨fl32_zero, fun _ => ⟨le_rfl, le_rfl⟩, fun _ => ⟨le_rfl, le_rfl⟩⟩
  · obtain ⟨a, b, c, -⟩ := stepOffset_pos (δ := δ) h hi hf hm
    exact ⟨c, fun _ => ⟨a, b⟩, fun hh => by linarith⟩

theorem fl32_push {p : ℤ} (h : p = -1 ∨ p = 0 ∨ p = 1) : fl32 p = p := by
  exact fl32_int p (by rcases h with rfl | rfl | rfl <;> decide)

theorem start_of_push_zero {s : Slider} (h : s.push = 0) (now : ℤ) : s.start now = s := by unfold Slider.start; simp [h]

theorem start_of_push {s : Slider} (h : s.push ≠ 0) (now : ℤ) : s.start now =
    { s with next := none, lastCall := s.nextCall, offset := fl32 s.push, t0 := now, push := 0 } := by
  unfold Slider.start; simp [h]

theorem SlideInv.start {D c : ℤ} {s : Slider} {n : ℕ} (h : SlideInv D c s n) {now : ℤ} (h1 : c ≤ now) (h2 : 0 < now) :
    let s := s.start now
    s.duration = D ∧ -1 ≤ s.offset ∧ s.offset ≤ 1 ∧ fl32 s.offset = s.offset ∧ (∀ i, s.next = some i → i < n) ∧
    (∀ i, s.lastCall = some i → i < n ∧ s.next ≠ some i) ∧ 0 ≤ s.t0 ∧ s.t0 ≤ now ∧ (s.offset ≠ 0 → 0 < s.t0) := by
  by_cases hp : s.push = 0
  · rw [start_of_push_zero hp]
    exact ⟨h.duration, h.lo, h.hi, h.float, h.next, h.last, h.t0.1, h.t0.2.trans h1, h.moving⟩
  · rw [start_of_push hp]
    dsimp only
    rw [fl32_push h.push]
    refine ⟨h.duration, ?_, ?_, fl32_push h.push, by simp, ?_, h2.le, le_rfl, fun _ => h2⟩
    · rcases h.push with e | e | e <;> rw [e] <;> norm_num
    · rcases h.push with e | e | e <;> rw [e] <;> norm_num
    · intro i hi
      exact ⟨h.next i (by rw [← h.call]; exact hi), by simp⟩

theorem slides_inv {fma : Bool} {D c : ℤ} {s : Slider} {bufs : List α} (hD0 : 0 ≤ D) (hD1 : D < 2 ^ 63)
    (h : Slides fma D c s bufs) : SlideInv D c s bufs.length := by
  induction h with
  | init => exact ⟨rfl, by simp [Slider.zero], by simp [Slider.zero], by simp [Slider.zero], by simp [Slider.zero, fl32_zero],
      rfl, by simp [Slider.zero], by simp [Slider.zero], by simp [Slider.zero], by simp [Slider.zero]⟩
  | left _ ih => exact { ih with push := .inr (.inr rfl) }
  | right _ ih => exact { ih with push := .inl rfl }
  | @frame c s bufs now w a _ h1 h2 ih =>
    obtain ⟨f1, f2, f3, f4, f5, f6, f7⟩ := slider_layout_fields fma s bufs now w a
    obtain ⟨s1, s2, s3, s4, s5, s6, s7, s8, s9⟩ := ih.start h1 h2
    have hb := layout_bufs fma s bufs now w a
    have hrec := record_bufs ((s.start now).tick now) bufs a s5
    have hn : ((s.start now).tick now).next = (s.start now).next := rfl
    rw [hn] at hrec
    have hδ : 0 ≤ (if (s.start now).t0 ≠ 0 then timeSub now (s.start now).t0 else 0) ∧
        (if (s.start now).t0 ≠ 0 then timeSub now (s.start now).t0 else 0) < 2 ^ 63 := by
      split
      · exact ⟨(timeSub_range s8).1, (timeSub_range s8).2.1⟩
      · norm_num
    have hst := stepOffset_spec (D := s.duration) (o := (s.start now).offset) (by rw [ih.duration]; exact hD0)
      (by rw [ih.duration]; exact hD1) hδ.1 hδ.2 s2 s3 s4
    rw [← f7] at hst
    obtain ⟨t1, t2, t3⟩ := hst
    refine ⟨f1.trans ih.duration, .inr (.inl f2), ?_, ?_, t1, f4, ?_, ?_, ?_, ?_⟩
    · rcases le_total 0 (s.start now).offset with h | h
      · linarith [t2 h]
      · linarith [t3 h]
    · rcases le_total 0 (s.start now).offset with h | h
      · linarith [t2 h]
      · linarith [t3 h]
    · intro i hi
      rw [f3] at hi
      obtain rfl := Option.some.inj hi
      rw [hb]
      exact hrec.2.2.2
    · intro i hi
      rw [f5] at hi
      obtain ⟨j1, j2⟩ := s6 i hi
      rw [hb]
      refine ⟨lt_of_lt_of_le j1 hrec.2.2.1, ?_⟩
      rw [f3]
      cases hnx : (s.start now).next with
      | none => simp; omega
      | some k => rw [hnx] at j2; simpa using j2
    · rw [f6]
      split
      · exact ⟨h2.le, le_rfl⟩
      · exact ⟨s7, s8⟩
    · intro hne
      have : (s.start now).offset ≠ 0 := by
        intro e
        apply hne
        rw [f7, e, stepOffset_zero]
      rw [f6, if_pos (s9 this).ne']
      exact h2

/-- The contents drawn by a frame. -/
theorem frame_draws {fma : Bool} {D c : ℤ} {s : Slider} {bufs : List α} (hD0 : 0 ≤ D) (hD1 : D < 2 ^ 63)
    (h : Slides fma D c s bufs) {now : ℤ} (h1 : c ≤ now) (h2 : 0 < now) (w : ℤ) (a : α) :
    let r := s.layout fma bufs now w a
    drawCall r.bufs 0 r.slider.nextCall = [(0, a)] ∧ (∀ x, drawCall r.bufs x r.slider.nextCall = [(x, a)]) ∧
    (∀ x, drawCall r.bufs x r.slider.lastCall = drawCall bufs x (s.start now).lastCall) := by
  intro r
  obtain ⟨f1, f2, f3, f4, f5, f6, f7⟩ := slider_layout_fields fma s bufs now w a
  have ih := slides_inv hD0 hD1 h
  obtain ⟨s1, s2, s3, s4, s5, s6, s7, s8, s9⟩ := ih.start h1 h2
  have hb : r.bufs = _ := layout_bufs fma s bufs now w a
  have hrec := record_bufs ((s.start now).tick now) bufs a s5
  have hn : ((s.start now).tick now).next = (s.start now).next := rfl
  rw [hn] at hrec
  have e : ∀ x, drawCall r.bufs x r.slider.nextCall = [(x, a)] := by
    intro x
    show drawCall _ x (s.layout fma bufs now w a).slider.nextCall = _
    rw [f4, f3, hb, drawCall, hrec.1]; rfl
  refine ⟨e 0, e, fun x => ?_⟩
  show drawCall _ x (s.layout fma bufs now w a).slider.lastCall = _
  rw [f5, hb]
  cases hl : (s.start now).lastCall with
  | none => rfl
  | some i =>
    obtain ⟨j1, j2⟩ := s6 i hl
    rw [drawCall, drawCall, hrec.2.1 i j1 (fun e => j2 e.symm)]

/-! ### The theorems -/

/-- **C79.** The offset never leaves [-1, 1], and the next frame moves it towards 0 without passing it; the widget rests there. -/
theorem C79_towards_zero {fma : Bool} {D c : ℤ} {s : Slider} {bufs : List α} (hD0 : 0 ≤ D) (hD1 : D < 2 ^ 63)
    (h : Slides fma D c s bufs) (hp : s.push = 0) {now : ℤ} (h1 : c ≤ now) (w : ℤ) (a : α) :
    let r := s.layout fma bufs now w a
    (-1 ≤ s.offset) ∧ s.offset ≤ 1 ∧
    (0 ≤ s.offset → 0 ≤ r.slider.offset ∧ r.slider.offset ≤ s.offset) ∧
    (s.offset ≤ 0 → s.offset ≤ r.slider.offset ∧ r.slider.offset ≤ 0) ∧ (r.again = true ↔ s.offset ≠ 0) := by
  intro r
  obtain ⟨f1, f2, f3, f4, f5, f6, f7⟩ := slider_layout_fields fma s bufs now w a
  have ih := slides_inv hD0 hD1 h
  rw [start_of_push_zero hp] at f7
  have hδ : 0 ≤ (if s.t0 ≠ 0 then timeSub now s.t0 else 0) ∧ (if s.t0 ≠ 0 then timeSub now s.t0 else 0) < 2 ^ 63 := by
    split
    · exact ⟨(timeSub_range (ih.t0.2.trans h1)).1, (timeSub_range (ih.t0.2.trans h1)).2.1⟩
    · norm_num
  have hst := stepOffset_spec (D := s.duration) (by rw [ih.duration]; exact hD0)
    (by rw [ih.duration]; exact hD1) hδ.1 hδ.2 ih.lo ih.hi ih.float
  rw [← f7] at hst
  refine ⟨ih.lo, ih.hi, hst.2.1, hst.2.2, ?_⟩
  show (s.layout fma bufs now w a).again = true ↔ _
  rw [layout_again, start_of_push_zero hp]
  simp

/-- **C79.** What a frame shows. At rest: the widget at its place. In a slide: the old picture and the widget side by side, the
widget coming from the right (`PushLeft`, offset above 0) or from the left, the seam inside the window. -/
theorem C79_picture {fma : Bool} {D c : ℤ} {s : Slider} {bufs : List α} (hD0 : 0 ≤ D) (hD1 : D < 2 ^ 63)
    (h : Slides fma D c s bufs) {now : ℤ} (h1 : c ≤ now) (h2 : 0 < now) {w : ℤ} (hw : 0 ≤ w) (hw2 : w ≤ 2 ^ 24) (a : α) :
    let r := s.layout fma bufs now w a
    (r.slider.offset = 0 → r.draws = [(0, a)]) ∧
    (0 < r.slider.offset → ∃ x, 0 ≤ x ∧ x ≤ w ∧
      r.draws = drawCall bufs (x - w) (s.start now).lastCall ++ [(x, a)]) ∧
    (r.slider.offset < 0 → ∃ x, 0 ≤ x ∧ x ≤ w ∧
      r.draws = drawCall bufs (w - x) (s.start now).lastCall ++ [(-x, a)]) := by
  intro r
  obtain ⟨d1, d2⟩ := layout_draws fma s bufs now w a
  obtain ⟨e0, e1, e2⟩ := frame_draws hD0 hD1 h h1 h2 w a
  have inv := slides_inv hD0 hD1 (Slides.frame now w a h h1 h2)
  refine ⟨fun hz => ?_, fun hpos => ?_, fun hneg => ?_⟩
  · rw [← e0]; exact d1 hz
  · have hr := shift_range fma hpos inv.hi hw hw2
    refine ⟨shift fma r.slider.offset w + w, by linarith, by linarith, ?_⟩
    have := d2 hpos.ne'
    rw [if_pos hpos, e1, e2] at this
    rw [add_sub_cancel_right]
    exact this
  · have hr := shift_range fma (o := -r.slider.offset) (by linarith) (by linarith [inv.lo]) hw hw2
    have hs := shift_neg fma (o := -r.slider.offset) (by linarith) w
    rw [neg_neg] at hs
    refine ⟨w - shift fma r.slider.offset w, by rw [hs]; linarith, by rw [hs]; linarith, ?_⟩
    have := d2 hneg.ne
    rw [if_neg (by linarith), e1, e2] at this
    rw [sub_sub_cancel, neg_sub]
    exact this

/-- The place of the widget on the way in, as in `C79_picture`: `x` or `-x` for a given offset. -/
def widgetAt (fma : Bool) (offset : ℚ) (w : ℤ) : ℤ :=
  if offset = 0 then 0 else if 0 < offset then shift fma offset w + w else shift fma offset w - w

/-- **C79.** The widget only moves inwards: from frame to frame it comes nearer to its place, on the same side. -/
theorem C79_inwards {fma : Bool} {D c : ℤ} {s : Slider} {bufs : List α} (hD0 : 0 ≤ D) (hD1 : D < 2 ^ 63)
    (h : Slides fma D c s bufs) (hp : s.push = 0) {now : ℤ} (h1 : c ≤ now) (h2 : 0 < now) {w : ℤ} (hw : 0 ≤ w) (hw2 : w ≤ 2 ^ 24)
    (a : α) :
    let r := s.layout fma bufs now w a
    (∃ pre, r.draws = pre ++ [(widgetAt fma r.slider.offset w, a)]) ∧
    (0 ≤ s.offset → 0 ≤ widgetAt fma r.slider.offset w ∧ widgetAt fma r.slider.offset w ≤ widgetAt fma s.offset w) ∧
    (s.offset ≤ 0 → widgetAt fma s.offset w ≤ widgetAt fma r.slider.offset w ∧ widgetAt fma r.slider.offset w ≤ 0) := by
  intro r
  obtain ⟨lo, hi, m1, m2, -⟩ := C79_towards_zero hD0 hD1 h hp h1 w a
  obtain ⟨d1, d2⟩ := layout_draws fma s bufs now w a
  obtain ⟨e0, e1, e2⟩ := frame_draws hD0 hD1 h h1 h2 w a
  refine ⟨?_, fun h0 => ?_, fun h0 => ?_⟩
  · by_cases hz : r.slider.offset = 0
    · refine ⟨[], ?_⟩
      have := d1 hz
      rw [e1] at this
      rw [widgetAt, if_pos hz]
      exact this
    · have := d2 hz
      rw [e1] at this
      rw [widgetAt, if_neg hz]
      exact ⟨_, this⟩
  · obtain ⟨n1, n2⟩ := m1 h0
    rcases n1.eq_or_lt with hz | hpos
    · have e : widgetAt fma r.slider.offset w = 0 := by rw [widgetAt, if_pos hz.symm]
      rw [e]
      refine ⟨le_rfl, ?_⟩
      unfold widgetAt
      split
      · exact le_rfl
      · rename_i hne
        have hpos : 0 < s.offset := lt_of_le_of_ne h0 (Ne.symm hne)
        rw [if_pos hpos]
        linarith [(shift_range fma hpos hi hw hw2).1]
    · have hpos' : 0 < s.offset := lt_of_lt_of_le hpos n2
      have e : widgetAt fma r.slider.offset w = shift fma r.slider.offset w + w := by
        rw [widgetAt, if_neg hpos.ne', if_pos hpos]
      rw [e, widgetAt, if_neg hpos'.ne', if_pos hpos']
      have := shift_mono fma hpos n2 hi hw
      have := (shift_range fma hpos (n2.trans hi) hw hw2).1
      constructor <;> linarith
  · obtain ⟨n1, n2⟩ := m2 h0
    rcases n2.eq_or_lt with hz | hneg
    · have e : widgetAt fma r.slider.offset w = 0 := by rw [widgetAt, if_pos hz]
      rw [e]
      refine ⟨?_, le_rfl⟩
      unfold widgetAt
      split
      · exact le_rfl
      · rename_i hne
        have hneg : s.offset < 0 := lt_of_le_of_ne h0 hne
        rw [if_neg (by linarith)]
        have hs := shift_neg fma (o := -s.offset) (by linarith) w
        rw [neg_neg] at hs
        linarith [(shift_range fma (o := -s.offset) (by linarith) (by linarith) hw hw2).1]
    · have hneg' : s.offset < 0 := lt_of_le_of_lt n1 hneg
      have e : widgetAt fma r.slider.offset w = shift fma r.slider.offset w - w := by
        rw [widgetAt, if_neg hneg.ne, if_neg (by linarith)]
      rw [e, widgetAt, if_neg hneg'.ne, if_neg (by linarith)]
      have hs := shift_neg fma (o := -s.offset) (by linarith) w
      have hs' := shift_neg fma (o := -r.slider.offset) (by linarith) w
      rw [neg_neg] at hs hs'
      have := shift_mono fma (a := -r.slider.offset) (b := -s.offset) (by linarith) (by linarith) (by linarith) hw
      have := (shift_range fma (o := -r.slider.offset) (by linarith) (by linarith) hw hw2).1
      constructor <;> linarith

/-- Frames one after the other. -/
def runFrames (fma : Bool) : Slider × List α → List (ℤ × ℤ × α) → Slider × List α
  | s, [] => s
  | (s, bufs), (now, w, a) :: fs => runFrames fma ((s.layout fma bufs now w a).slider, (s.layout fma bufs now w a).bufs) fs

/-- The frames come in order, after time `c`. -/
def Ordered (c : ℤ) : List (ℤ × ℤ × α) → Prop
  | [] => True
  | (now, _, _) :: fs => c ≤ now ∧ 0 < now ∧ Ordered now fs

/-- The time of the last frame. -/
def lastTime (c : ℤ) : List (ℤ × ℤ × α) → ℤ
  | [] => c
  | (now, _, _) :: fs => lastTime now fs

theorem slides_run {fma : Bool} {D c : ℤ} {s : Slider} {bufs : List α} (h : Slides fma D c s bufs) (fs : List (ℤ × ℤ × α))
    (ho : Ordered c fs) :
    Slides fma D (lastTime c fs) (runFrames fma (s, bufs) fs).1 (runFrames fma (s, bufs) fs).2 := by
  induction fs generalizing c s bufs with
  | nil => exact h
  | cons f fs ih =>
    obtain ⟨now, w, a⟩ := f
    exact ih (Slides.frame now w a h ho.1 ho.2.1) ho.2.2

/-- **C79.** The old picture is the one of the last frame before the push, for the whole slide, whatever the widget draws
meanwhile: frame, push, any number of frames, and then one more, which shows the picture of the first frame and its own. -/
theorem C79_old_picture {fma : Bool} {D c : ℤ} {s : Slider} {bufs : List α} (hD0 : 0 ≤ D) (hD1 : D < 2 ^ 63)
    (h : Slides fma D c s bufs) (t w : ℤ) (old : α) (h1 : c ≤ t) (h2 : 0 < t) (left : Bool)
    (fs : List (ℤ × ℤ × α)) (now w' : ℤ) (new : α) (ho : Ordered t (fs ++ [(now, w', new)])) (hw : 0 ≤ w') (hw2 : w' ≤ 2 ^ 24) :
    let r := s.layout fma bufs t w old
    let q := runFrames fma (if left then r.slider.pushLeft else r.slider.pushRight, r.bufs) fs
    let z := q.1.layout fma q.2 now w' new
    (z.slider.offset = 0 ∧ z.draws = [(0, new)]) ∨
    (z.slider.offset ≠ 0 ∧ ∃ x, 0 ≤ x ∧ x ≤ w' ∧
      z.draws = if left then [(x - w', old), (x, new)] else [(w' - x, old), (-x, new)]) := by
  intro r q z
  -- after the push and at least one frame, the old picture is in the buffer of the last call
  have key : ∀ (fs : List (ℤ × ℤ × α)) (c : ℤ) (s : Slider) (bufs : List α), Slides fma D c s bufs →
      (s.push = 0 ∧ (∀ x, drawCall bufs x s.lastCall = [(x, old)]) ∧ (if left then 0 ≤ s.offset else s.offset ≤ 0) ∨
        s.push = (if left then 1 else -1) ∧ (∀ x, drawCall bufs x s.nextCall = [(x, old)])) →
      Ordered c fs →
      let q := runFrames fma (s, bufs) fs
      (q.1.push = 0 ∧ (∀ x, drawCall q.2 x q.1.lastCall = [(x, old)]) ∧ (if left then 0 ≤ q.1.offset else q.1.offset ≤ 0) ∨
        q.1.push = (if left then 1 else -1) ∧ (∀ x, drawCall q.2 x q.1.nextCall = [(x, old)])) := by
    intro fs
    induction fs with
    | nil => intro c s bufs _ h _; exact h
    | cons f fs ih =>
      obtain ⟨now, w, a⟩ := f
      intro c s bufs hs hst ho
      refine ih now _ _ (Slides.frame now w a hs ho.1 ho.2.1) (.inl ?_) ho.2.2
      obtain ⟨e0, e1, e2⟩ := frame_draws hD0 hD1 hs ho.1 ho.2.1 w a
      obtain ⟨f1, f2, f3, f4, f5, f6, f7⟩ := slider_layout_fields fma s bufs now w a
      have inv := slides_inv hD0 hD1 hs
      obtain ⟨s1, s2, s3, s4, s5, s6, s7, s8, s9⟩ := inv.start ho.1 ho.2.1
      have hδ : 0 ≤ (if (s.start now).t0 ≠ 0 then timeSub now (s.start now).t0 else 0) ∧
          (if (s.start now).t0 ≠ 0 then timeSub now (s.start now).t0 else 0) < 2 ^ 63 := by
        split
        · exact ⟨(timeSub_range s8).1, (timeSub_range s8).2.1⟩
        · norm_num
      have hstep := stepOffset_spec (D := s.duration) (o := (s.start now).offset) (by rw [inv.duration]; exact hD0)
        (by rw [inv.duration]; exact hD1) hδ.1 hδ.2 s2 s3 s4
      rw [← f7] at hstep
      refine ⟨f2, fun x => ?_, ?_⟩
      · rw [e2]
        rcases hst with ⟨hp, hl, -⟩ | ⟨hp, hl⟩
        · rw [start_of_push_zero hp]; exact hl x
        · rw [start_of_push (by rw [hp]; cases left <;> simp)]; exact hl x
      · rcases hst with ⟨hp, -, hsg⟩ | ⟨hp, -⟩
        · rw [start_of_push_zero hp] at hstep
          cases left
          · simp only [Bool.false_eq_true, if_false] at hsg ⊢; exact (hstep.2.2 hsg).2
          · simp only [if_true] at hsg ⊢; exact (hstep.2.1 hsg).1
        · rw [start_of_push (by rw [hp]; cases left <;> simp)] at hstep
          dsimp only at hstep
          rw [hp] at hstep
          cases left
          · simp only [Bool.false_eq_true, if_false] at hstep ⊢
            exact (hstep.2.2 (fl32_nonpos (by norm_num))).2
          · simp only [if_true] at hstep ⊢
            exact (hstep.2.1 (fl32_nonneg (by norm_num))).1
  have hr := Slides.frame t w old h h1 h2
  have hp : Slides fma D t (if left then r.slider.pushLeft else r.slider.pushRight) r.bufs := by
    cases left
    · exact hr.right
    · exact hr.left
  have hfs : ∀ (fs : List (ℤ × ℤ × α)) (c : ℤ), Ordered c (fs ++ [(now, w', new)]) →
      Ordered c fs ∧ lastTime c fs ≤ now ∧ 0 < now := by
    intro fs
    induction fs with
    | nil => intro c ho; exact ⟨trivial, ho.1, ho.2.1⟩
    | cons f fs ih =>
      intro c ho
      obtain ⟨n, w, a⟩ := f
      obtain ⟨i1, i2, i3⟩ := ih n ho.2.2
      exact ⟨⟨ho.1, ho.2.1, i1⟩, i2, i3⟩
  obtain ⟨o1, o2, o3⟩ := hfs fs t ho
  have hq := slides_run hp fs o1
  have hk := key fs t _ _ hp (.inr ⟨by cases left <;> rfl, fun x => by
    have := (frame_draws hD0 hD1 h h1 h2 w old).2.1 x
    cases left <;> exact this⟩) o1
  have hz := slides_inv hD0 hD1 (Slides.frame now w' new hq o2 o3)
  have hk2 := key [(now, w', new)] _ _ _ hq hk ⟨o2, o3, trivial⟩
  have hpic := C79_picture hD0 hD1 hq o2 o3 hw hw2 new
  have hlast : ∀ x, drawCall q.2 x (q.1.start now).lastCall = [(x, old)] := by
    intro x
    rcases hk with ⟨hp, hl, -⟩ | ⟨hp, hl⟩
    · rw [start_of_push_zero hp]; exact hl x
    · rw [start_of_push (by rw [hp]; cases left <;> simp)]; exact hl x
  have hsign : if left then 0 ≤ z.slider.offset else z.slider.offset ≤ 0 := by
    rcases hk2 with ⟨-, -, h⟩ | ⟨hp, -⟩
    · exact h
    · have : z.slider.push = 0 := (slider_layout_fields fma q.1 q.2 now w' new).2.1
      exact absurd (this.symm.trans hp) (by cases left <;> simp)
  by_cases h0 : z.slider.offset = 0
  · exact .inl ⟨h0, hpic.1 h0⟩
  · refine .inr ⟨h0, ?_⟩
    cases left
    · obtain ⟨x, x0, x1, hx⟩ := hpic.2.2 (lt_of_le_of_ne hsign h0)
      exact ⟨x, x0, x1, by rw [hx, hlast]; rfl⟩
    · obtain ⟨x, x0, x1, hx⟩ := hpic.2.1 (lt_of_le_of_ne hsign (Ne.symm h0))
      exact ⟨x, x0, x1, by rw [hx, hlast]; rfl⟩

/-! ### Time -/

/-- The offset after steps of the given lengths. -/
def runSteps (D : ℤ) (o : ℚ) (δs : List ℤ) : ℚ := δs.foldl (fun o δ => stepOffset D δ o) o

theorem runSteps_zero (D : ℤ) (δs : List ℤ) : runSteps D 0 δs = 0 := by
  induction δs with
  | nil => rfl
  | cons δ δs ih => show runSteps D (stepOffset D δ 0) δs = 0; rw [stepOffset_zero]; exact ih

theorem runSteps_neg (D : ℤ) (o : ℚ) (δs : List ℤ) : runSteps D (-o) δs = -runSteps D o δs := by
  induction δs generalizing o with
  | nil => rfl
  | cons δ δs ih =>
    show runSteps D (stepOffset D δ (-o)) δs = -runSteps D (stepOffset D δ o) δs
    rw [stepOffset_neg]; exact ih _

theorem runSteps_bounds {D : ℤ} (hD0 : 0 ≤ D) (hD1 : D < 2 ^ 63) (δs : List ℤ) (hδ : ∀ δ ∈ δs, 0 ≤ δ ∧ δ < 2 ^ 63) {o : ℚ}
    (h0 : 0 < o) (h1 : o ≤ 1) (hf : fl32 o = o) :
    (runSteps D o δs ≠ 0 → |runSteps D o δs - (o - (δs.map (movement D)).sum)| ≤ δs.length / 2 ^ 25 ∧ 0 < runSteps D o δs) ∧
    (runSteps D o δs = 0 → o - δs.length / 2 ^ 25 ≤ (δs.map (movement D)).sum) := by
  induction δs generalizing o with
  | nil => exact ⟨fun _ => by simp [runSteps, h0], fun h => by simp only [runSteps, List.foldl_nil] at h; linarith⟩
  | cons δ δs ih =>
    have hm := movement_nonneg hD0 hD1 (hδ δ (by simp)).1 (hδ δ (by simp)).2
    have hsum : 0 ≤ (δs.map (movement D)).sum := by
      apply List.sum_nonneg
      intro x hx
      obtain ⟨d, hd, rfl⟩ := List.mem_map.1 hx
      exact movement_nonneg hD0 hD1 (hδ d (by simp [hd])).1 (hδ d (by simp [hd])).2
    obtain ⟨a, b, c, d, e⟩ := stepOffset_pos h0 h1 hf hm
    have hr : runSteps D o (δ :: δs) = runSteps D (stepOffset D δ o) δs := rfl
    rw [hr, List.map_cons, List.sum_cons, List.length_cons]
    push_cast
    have hlen : (0 : ℚ) ≤ δs.length / 2 ^ 25 := by positivity
    by_cases hz : stepOffset D δ o = 0
    · rw [hz, runSteps_zero]
      refine ⟨fun h => absurd rfl h, fun _ => ?_⟩
      have := d hz
      rw [add_div]
      linarith
    · obtain ⟨i1, i2⟩ := ih (fun x hx => hδ x (by simp [hx])) (lt_of_le_of_ne a (Ne.symm hz)) (b.trans h1) c
      have he := abs_le.1 (e hz)
      refine ⟨fun h => ⟨?_, (i1 h).2⟩, fun h => ?_⟩
      · have := abs_le.1 (i1 h).1
        rw [abs_le, add_div]
        constructor <;> linarith
      · have := i2 h
        rw [add_div]
        linarith

theorem sum_movement {D : ℤ} (hD0 : 0 ≤ D) (hD1 : D < 2 ^ 63) (δs : List ℤ) (hδ : ∀ δ ∈ δs, 0 ≤ δ ∧ δ < 2 ^ 63) :
    (1 - 1 / 2 ^ 21) * ((δs.sum : ℚ) / effDuration D) ≤ (δs.map (movement D)).sum ∧
    (δs.map (movement D)).sum ≤ (1 + 1 / 2 ^ 21) * ((δs.sum : ℚ) / effDuration D) := by
  induction δs with
  | nil => simp
  | cons δ δs ih =>
    obtain ⟨a, b⟩ := movement_bounds hD0 hD1 (hδ δ (by simp)).1 (hδ δ (by simp)).2
    obtain ⟨c, d⟩ := ih fun x hx => hδ x (by simp [hx])
    rw [List.map_cons, List.sum_cons, List.sum_cons]
    push_cast
    rw [add_div, mul_add, mul_add]
    exact ⟨add_le_add a c, add_le_add b d⟩

/-- The times between the frames. -/
def gaps (c : ℤ) : List (ℤ × ℤ × α) → List ℤ
  | [] => []
  | (now, _, _) :: fs => (now - c) :: gaps now fs

theorem gaps_sum (c : ℤ) (fs : List (ℤ × ℤ × α)) : (gaps c fs).sum = lastTime c fs - c := by
  induction fs generalizing c with
  | nil => simp [gaps, lastTime]
  | cons f fs ih => obtain ⟨n, w, a⟩ := f; simp [gaps, lastTime, ih]

theorem gaps_length (c : ℤ) (fs : List (ℤ × ℤ × α)) : (gaps c fs).length = fs.length := by
  induction fs generalizing c with
  | nil => rfl
  | cons f fs ih => obtain ⟨n, w, a⟩ := f; simp [gaps, ih]

theorem gaps_range {c : ℤ} {fs : List (ℤ × ℤ × α)} (ho : Ordered c fs) (h : lastTime c fs - c < 2 ^ 63) :
    c ≤ lastTime c fs ∧ ∀ δ ∈ gaps c fs, 0 ≤ δ ∧ δ < 2 ^ 63 := by
  induction fs generalizing c with
  | nil => exact ⟨le_rfl, by simp [gaps]⟩
  | cons f fs ih =>
    obtain ⟨n, w, a⟩ := f
    have h' : lastTime n fs - c < 2 ^ 63 := h
    obtain ⟨i1, i2⟩ := ih ho.2.2 (by have := ho.1; omega)
    have := ho.1
    refine ⟨by show c ≤ lastTime n fs; omega, ?_⟩
    intro δ hδ
    rcases List.mem_cons.1 hδ with rfl | hδ
    · omega
    · exact i2 δ hδ

/-- The offset after frames without a push. -/
theorem run_offset {fma : Bool} {s : Slider} {bufs : List α} {fs : List (ℤ × ℤ × α)} (hp : s.push = 0) (ht : 0 < s.t0)
    (ho : Ordered s.t0 fs) (h : lastTime s.t0 fs - s.t0 < 2 ^ 63) :
    (runFrames fma (s, bufs) fs).1.offset = runSteps s.duration s.offset (gaps s.t0 fs) := by
  induction fs generalizing s bufs with
  | nil => rfl
  | cons f fs ih =>
    obtain ⟨n, w, a⟩ := f
    obtain ⟨f1, f2, f3, f4, f5, f6, f7⟩ := slider_layout_fields fma s bufs n w a
    rw [start_of_push_zero hp] at f6 f7
    rw [if_pos ht.ne'] at f6 f7
    have h' : lastTime n fs - s.t0 < 2 ^ 63 := h
    have hr := (gaps_range (c := s.t0) (fs := (n, w, a) :: fs) ho h).2 (n - s.t0) (by simp [gaps])
    rw [(timeSub_range ho.1).2.2 hr.2] at f7
    have := ho.1
    have := ih (s := (s.layout fma bufs n w a).slider) (bufs := (s.layout fma bufs n w a).bufs) f2 (by rw [f6]; exact ho.2.1)
      (by rw [f6]; exact ho.2.2) (by rw [f6]; omega)
    rw [f1, f6, f7] at this
    exact this

/-- **C79.** How long a slide lasts. After a push, a frame at time `t` starts it; let `k` frames follow, the last at time `T`. With
the duration `d` (300 ms when the field is 0), the slide is over if `T - t` is at least `d`, and not over if it is less, up to the
rounding of the numbers: a part in 2^21 of the time, and a part in 2^25 of the way for each frame. -/
theorem C79_duration {fma : Bool} {D c : ℤ} {s : Slider} {bufs : List α} (hD0 : 0 ≤ D) (hD1 : D < 2 ^ 63)
    (h : Slides fma D c s bufs) (hp : s.push ≠ 0) {t : ℤ} (h2 : 0 < t) (w : ℤ) (a : α)
    (fs : List (ℤ × ℤ × α)) (ho : Ordered t fs) (hT : lastTime t fs - t < 2 ^ 63) :
    let r := s.layout fma bufs t w a
    let z := (runFrames fma (r.slider, r.bufs) fs).1
    let d : ℚ := if D = 0 then 300000000 else D
    let elapsed : ℚ := lastTime t fs - t
    (d * (1 + fs.length / 2 ^ 25) ≤ elapsed * (1 - 1 / 2 ^ 21) → z.offset = 0) ∧
    (elapsed * (1 + 1 / 2 ^ 21) < d * (1 - fs.length / 2 ^ 25) → z.offset ≠ 0) := by
  intro r z d elapsed
  have inv := slides_inv hD0 hD1 h
  obtain ⟨f1, f2, f3, f4, f5, f6, f7⟩ := slider_layout_fields fma s bufs t w a
  rw [start_of_push hp] at f6 f7
  dsimp only at f6 f7
  rw [if_pos h2.ne'] at f6 f7
  have ht : timeSub t t = 0 := by unfold timeSub; omega
  have hd : d = effDuration D := by
    show (if D = 0 then (300000000 : ℚ) else D) = _
    unfold effDuration defaultDuration
    split <;> norm_num
  have hE0 : 0 < effDuration D := by unfold effDuration defaultDuration; split <;> omega
  have hdpos : 0 < d := by rw [hd]; exact_mod_cast hE0
  have hone : ∀ o : ℚ, o = 1 ∨ o = -1 → stepOffset D 0 o = o := by
    rintro o (rfl | rfl)
    · rw [stepOffset_of_pos _ _ (by norm_num), movement_zero, sub_zero, fl32_one, if_neg (by norm_num)]
    · rw [stepOffset_of_neg _ _ (by norm_num), movement_zero, add_zero, fl32_neg_one, if_neg (by norm_num)]
  rw [ht, fl32_push inv.push, inv.duration] at f7
  have hz : z.offset = runSteps D s.push (gaps t fs) := by
    have := run_offset (fma := fma) (s := r.slider) (bufs := r.bufs) (fs := fs) f2 (by show 0 < r.slider.t0; rw [f6]; exact h2)
      (by rw [f6]; exact ho) (by rw [f6]; exact hT)
    rw [f1, f6, f7, inv.duration, hone _ (by
      rcases inv.push with e | e | e
      · right; rw [e]; norm_num
      · exact absurd e hp
      · left; rw [e]; norm_num)] at this
    exact this
  have hgr := (gaps_range ho hT).2
  obtain ⟨b1, b2⟩ := runSteps_bounds hD0 hD1 (gaps t fs) hgr (o := 1) one_pos le_rfl fl32_one
  obtain ⟨m1, m2⟩ := sum_movement hD0 hD1 (gaps t fs) hgr
  rw [gaps_length] at b1 b2
  have hel : ((gaps t fs).sum : ℚ) = elapsed := by rw [gaps_sum]; push_cast; rfl
  rw [hel, ← hd] at m1 m2
  have hiff : z.offset = 0 ↔ runSteps D 1 (gaps t fs) = 0 := by
    rw [hz]
    rcases inv.push with e | e | e
    · rw [e]; push_cast; rw [runSteps_neg, neg_eq_zero]
    · exact absurd e hp
    · rw [e]; push_cast; rfl
  constructor
  · intro hle
    rw [hiff]
    by_contra hne
    obtain ⟨c1, c2⟩ := b1 hne
    have := abs_le.1 c1
    have hlt : (1 - 1 / 2 ^ 21) * (elapsed / d) < 1 + fs.length / 2 ^ 25 := by linarith
    have h3 : (1 - 1 / 2 ^ 21) * (elapsed / d) * d < (1 + fs.length / 2 ^ 25) * d := mul_lt_mul_of_pos_right hlt hdpos
    have h4 : (1 - 1 / 2 ^ 21) * (elapsed / d) * d = elapsed * (1 - 1 / 2 ^ 21) := by field_simp
    rw [h4] at h3
    linarith
  · intro hlt heq
    rw [hiff] at heq
    have hle : 1 - fs.length / 2 ^ 25 ≤ (1 + 1 / 2 ^ 21) * (elapsed / d) := (b2 heq).trans m2
    have h3 : (1 - fs.length / 2 ^ 25) * d ≤ (1 + 1 / 2 ^ 21) * (elapsed / d) * d := mul_le_mul_of_nonneg_right hle hdpos.le
    have h4 : (1 + 1 / 2 ^ 21) * (elapsed / d) * d = elapsed * (1 + 1 / 2 ^ 21) := by field_simp
    rw [h4] at h3
    linarith

/-- **C79.** The part for each frame is needed: a slide of 20 days with 60 frames a second never moves, because the way of one
frame is lost in rounding. -/
theorem C79_stuck (n : ℕ) : runSteps (20 * 86400 * 1000000000) 1 (List.replicate n 16666667) = 1 := by
  have h : stepOffset (20 * 86400 * 1000000000) 16666667 1 = 1 := by
    rw [stepOffset_of_pos _ _ (by norm_num)]
    have hm := (movement_bounds (duration := 20 * 86400 * 1000000000) (δ := 16666667) (by norm_num) (by norm_num) (by norm_num)
      (by norm_num))
    have h0 : 0 ≤ movement (20 * 86400 * 1000000000) 16666667 :=
      movement_nonneg (by norm_num) (by norm_num) (by norm_num) (by norm_num)
    have h2 : movement (20 * 86400 * 1000000000) 16666667 ≤ 1 / 2 ^ 26 := by
      refine hm.2.trans ?_
      norm_num [effDuration]
    have e : fl32 (1 - 1 / 2 ^ 26) = 1 := by decide +kernel
    have h3 := fl32_mono (show 1 - 1 / 2 ^ 26 ≤ 1 - movement (20 * 86400 * 1000000000) 16666667 by linarith)
    have h4 := fl32_mono (show 1 - movement (20 * 86400 * 1000000000) 16666667 ≤ 1 by linarith)
    rw [e] at h3
    rw [fl32_one] at h4
    rw [if_neg (by linarith)]
    linarith
  induction n with
  | zero => rfl
  | succ n ih => rw [List.replicate_succ]; show runSteps _ (stepOffset _ _ 1) _ = 1; rw [h]; exact ih

/-- **C79.** The easing: from 0 to 1 without going back, the middle in the middle, the same on both sides. -/
theorem C79_easing (fma : Bool) :
    smooth fma 0 = 0 ∧ smooth fma (1 / 2) = 1 / 2 ∧ smooth fma 1 = 1 ∧ (∀ t, smooth fma (-t) = -smooth fma t) ∧
    (∀ s t, 0 ≤ s → s ≤ t → t ≤ 1 → 0 ≤ smooth fma s ∧ smooth fma s ≤ smooth fma t ∧ smooth fma t ≤ 1) := by
  have hs : ∀ t, 0 ≤ t → smooth fma t = easeInOutCubic fma t := fun t h => if_neg (by linarith)
  refine ⟨by rw [hs 0 le_rfl, ease_zero], by rw [hs _ (by norm_num), ease_half], by rw [hs _ (by norm_num), ease_one], ?_, ?_⟩
  · intro t
    rcases lt_trichotomy t 0 with h | rfl | h
    · unfold smooth; rw [if_neg (by linarith), if_pos h, neg_neg]
    · rw [neg_zero, hs 0 le_rfl, ease_zero, neg_zero]
    · unfold smooth; rw [if_pos (by linarith), if_neg (by linarith), neg_neg]
  · intro s t h0 h1 h2
    rw [hs s h0, hs t (h0.trans h1)]
    refine ⟨?_, ease_mono fma h0 h1 h2, ?_⟩
    · rw [← ease_zero fma]; exact ease_mono fma le_rfl h0 (h1.trans h2)
    · have := ease_mono fma (h0.trans h1) h2 le_rfl
      rwa [ease_one] at this

/-- **C79.** No number is too large for its type: the largest is `movement`, far below the 2^127 of `float32`. -/
theorem C79_in_range {D δ : ℤ} (hD0 : 0 ≤ D) (hD1 : D < 2 ^ 63) (h0 : 0 ≤ δ) (h1 : δ < 2 ^ 63) :
    0 ≤ movement D δ ∧ movement D δ < 2 ^ 64 := by
  refine ⟨movement_nonneg hD0 hD1 h0 h1, lt_of_le_of_lt (movement_bounds hD0 hD1 h0 h1).2 ?_⟩
  have hE0 : 0 < effDuration D := by unfold effDuration defaultDuration; split <;> omega
  have hE : (1 : ℚ) ≤ effDuration D := by exact_mod_cast hE0
  have hδ : (δ : ℚ) ≤ 2 ^ 63 := by exact_mod_cast h1.le
  have hδ0 : (0 : ℚ) ≤ δ := by exact_mod_cast h0
  have : (δ : ℚ) / effDuration D ≤ 2 ^ 63 := by
    rw [div_le_iff₀ (by linarith)]
    nlinarith
  nlinarith

/-! ### Examples -/

/-- A slide to the left in a window 1000 pixels wide: a frame at 1 s, push, then a frame every 100 ms. The widget draws another
number each time. After exactly 300 ms the rounding has left a rest of the way, too small to see. -/
def sampleSlide : List (List (ℤ × ℕ)) :=
  let f0 := Slider.zero.layout false [] 1000000000 1000 7
  let f1 := f0.slider.pushLeft.layout false f0.bufs 1100000000 1000 10
  let f2 := f1.slider.layout false f1.bufs 1200000000 1000 11
  let f3 := f2.slider.layout false f2.bufs 1300000000 1000 12
  let f4 := f3.slider.layout false f3.bufs 1400000000 1000 13
  let f5 := f4.slider.layout false f4.bufs 1400000020 1000 14
  [f0.draws, f1.draws, f2.draws, f3.draws, f4.draws, f5.draws]

example : sampleSlide = [[(0, 7)], [(0, 7), (1000, 10)], [(-148, 7), (852, 11)], [(-851, 7), (149, 12)], [(-1000, 7), (0, 13)],
    [(0, 14)]] := by decide +kernel

/-- The hypotheses of the theorems are met by it. -/
example : ∃ s bufs, Slides false 0 1000000000 s bufs ∧ s.push ≠ 0 ∧
    Ordered 1100000000 [(1200000000, 1000, 11), (1300000000, 1000, 12), (1400000000, 1000, 13), (1400001000, 1000, 14)] ∧
    bufs = [7] ∧
    (300000000 * (1 + 4 / 2 ^ 25) : ℚ) ≤ (1400001000 - 1100000000) * (1 - 1 / 2 ^ 21) :=
  ⟨_, _, (Slides.frame 1000000000 1000 7 Slides.init (by norm_num) (by norm_num)).left, by decide,
    by norm_num [Ordered], rfl, by norm_num⟩

end Bips
