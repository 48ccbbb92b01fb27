import Verif.Src.Slide
import Verif.Props.SourceWindow
import Verif.Props.SourceClaims

/-!
# C118: the text of the slider, and the window with it

The same as C113 for examples/ui/one/slider.go. Products and sums are rounded one by one (`fma` is false).
-/

namespace Bips

open Src Ui

variable (W : World)

/-- **C118**, the easing. -/
theorem C118_easing (t : ℚ) :
    (0 ≤ t → t ≤ 1 → Ends W .main_easeInOutCubic [.f32 t] (.ok [.f32 (easeInOutCubic false t)])) ∧
    (|t| ≤ 1 → Ends W .main_smooth [.f32 t] (.ok [.f32 (smooth false t)])) :=
  ⟨fun h0 h1 => .of 1 0 fun L n _ => slide_ease W L n t h0 h1, fun h => .of 2 0 fun L n _ => slide_smooth W L n t h⟩

/-- **C118**, `PushLeft` and `PushRight`. -/
theorem C118_push (s : Slider) : Ends W .main_Slider_PushLeft [sliderVal s] (.ok [sliderVal s.pushLeft]) ∧
    Ends W .main_Slider_PushRight [sliderVal s] (.ok [sliderVal s.pushRight]) :=
  ⟨.of 1 0 fun L n _ => slider_PushLeft W L n s, .of 1 0 fun L n _ => slider_PushRight W L n s⟩

/-- **C118**, `Layout`: in every state a slider comes to, at every time from that of the last frame on, whatever the content is: the text of the
function leaves the slider and the buffers, draws, and asks for a frame as the model does. -/
theorem C118_layout {D c : ℤ} {s : Slider} {bufs : List Val} (hD0 : 0 ≤ D) (hD1 : D < 2 ^ 63) (h : Slides false D c s bufs) {now : ℤ}
    (h1 : c ≤ now) (h2 : 0 < now) (content ops : Val) (w : ℤ) (hw : |w| ≤ 2 ^ 60) :
    Ends W .main_Slider_Layout [.list bufs, sliderVal s, content, .int w, .int now, ops]
      (.ok [.list (s.layout false bufs now w content).bufs, sliderVal (s.layout false bufs now w content).slider,
        .list ((s.layout false bufs now w content).draws.map drawVal), .bool (s.layout false bufs now w content).again, .int w]) :=
  .of 3 0 fun L n _ => slide_layout W L n hD0 hD1 (slides_inv hD0 hD1 h) h1 h2 content ops w hw

/-- **C118**, the picture: what the text of `Layout` draws is the content alone at its place, or the content on its way in from the right or from the
left beside the recording of what was there before, without a gap between them. -/
theorem C118_picture {D c : ℤ} {s : Slider} {bufs : List Val} (hD0 : 0 ≤ D) (hD1 : D < 2 ^ 63) (h : Slides false D c s bufs) {now : ℤ}
    (h1 : c ≤ now) (h2 : 0 < now) (content ops : Val) (w : ℤ) (hw : 0 ≤ w) (hw2 : w ≤ 2 ^ 24) :
    ∃ bufs' s' draws again, Ends W .main_Slider_Layout [.list bufs, sliderVal s, content, .int w, .int now, ops]
        (.ok [.list bufs', sliderVal s', .list draws, .bool again, .int w]) ∧ Slides false D now s' bufs' ∧
      (s'.offset = 0 → draws = [.list [.int 0, content]]) ∧
      (s'.offset ≠ 0 → again = true ∧ ∃ x : ℤ, |x| ≤ w ∧ ∃ old, old.length ≤ 1 ∧
        (∀ d ∈ old, ∃ v ∈ bufs, d = .list [.int (if 0 < s'.offset then x - w else x + w), v]) ∧
        draws = old ++ [.list [.int x, content]] ∧ (0 < s'.offset → 0 ≤ x) ∧ (s'.offset < 0 → x ≤ 0)) := by
  refine ⟨_, _, _, _, C118_layout W hD0 hD1 h h1 h2 content ops w (by rw [abs_of_nonneg hw]; exact hw2.trans (by norm_num)),
    .frame now w content h h1 h2, fun hz => ?_, fun hz => ⟨?_, ?_⟩⟩
  · rw [(C79_picture hD0 hD1 h h1 h2 hw hw2 content).1 hz]
    rfl
  · rw [layout_again]
    refine decide_eq_true fun h0 => hz ?_
    rw [(slider_layout_fields false s bufs now w content).2.2.2.2.2.2, h0, stepOffset_zero]
  · have one : ∀ x, ((drawCall bufs x (s.start now).lastCall).map drawVal).length ≤ 1 ∧
        ∀ d ∈ (drawCall bufs x (s.start now).lastCall).map drawVal, ∃ v ∈ bufs, d = .list [.int x, v] := by
      intro x
      unfold drawCall
      cases (s.start now).lastCall with
      | none => simp
      | some i =>
        cases hb : bufs[i]? with
        | none => simp [hb]
        | some v => simpa [hb, drawVal] using List.mem_of_getElem? hb
    rcases lt_or_gt_of_ne hz with hn | hp
    · obtain ⟨x, x0, x1, hx⟩ := (C79_picture hD0 hD1 h h1 h2 hw hw2 content).2.2 hn
      refine ⟨-x, by rw [abs_neg, abs_of_nonneg x0]; exact x1, _, (one (w - x)).1, ?_, by rw [hx, List.map_append]; rfl,
        fun h => absurd h (not_lt.2 hn.le), fun _ => by omega⟩
      rw [if_neg (not_lt.2 hn.le), show -x + w = w - x by ring]
      exact (one (w - x)).2
    · obtain ⟨x, x0, x1, hx⟩ := (C79_picture hD0 hD1 h h1 h2 hw hw2 content).2.1 hp
      refine ⟨x, by rw [abs_of_nonneg x0]; exact x1, _, (one (x - w)).1, ?_, by rw [hx, List.map_append]; rfl,
        fun _ => x0, fun h => absurd h (not_lt.2 (le_of_lt hp))⟩
      rw [if_pos hp]
      exact (one (x - w)).2

/-! ### The window with the slider -/

/-- One frame with the slider (examples/ui/one/main.go:180-403): `srcFrame`, the last part of which is the widget that is given to `Layout`; then `Layout` at
time `now` for the labels, `w` pixels wide. The slider is the last of the variables. -/
def srcScreen (L n : Nat) (f : Frame) (now w : ℤ) (ops : Val) (vs : List Val) (bufs : Val) : Res (List Val × List Val) :=
  (srcFrame W L n f vs).bind fun vs =>
    (run W L n .main_Slider_Layout [bufs, vs.getD 15 .nil, vs.getD 16 .nil, .int w, .int now, ops]).bind fun rs =>
      .ok (vs.take 15 ++ [rs.getD 1 .nil], rs)

theorem Slides.pushed {fma : Bool} {D c : ℤ} {s s' : Slider} {bufs : List Val} (h : Slides fma D c s bufs) (hp : Pushed s s') :
    Slides fma D c s' bufs := by
  rcases hp with rfl | rfl | rfl
  · exact h
  · exact h.left
  · exact h.right

/-- **C118**, a frame of the window: after the variables have changed as in the model, the text of `Layout` draws the texts the model shows, with the slider
unchanged since the last frame but for a push. -/
theorem C118_frame (u : Ui) {c : ℤ} {s : Slider} {bufs : List Val} (h : Slides false 0 c s bufs) (hs : Small u) (f : Frame) (hf : Frame.Ok f) {now w : ℤ}
    (h1 : c ≤ now) (h2 : 0 < now) (hw : |w| ≤ 2 ^ 60) (ops : Val) {n L : Nat} (hn : 8 ≤ n) (hL : 32 < L) :
    (∀ u', u.frame W.H W.S W.R f = .ok u' → ∃ s', Pushed s s' ∧
      let r := s'.layout false bufs now w (.list ((Ui.texts W u').map .str))
      srcScreen W L n f now w ops (uiVals u s) (.list bufs) =
        .ok (uiVals u' r.slider, [.list r.bufs, sliderVal r.slider, .list (r.draws.map drawVal), .bool r.again, .int w]) ∧
      Small u' ∧ Slides false 0 now r.slider r.bufs) ∧
    (u.frame W.H W.S W.R f = .panic → srcScreen W L n f now w ops (uiVals u s) (.list bufs) = .panic) := by
  obtain ⟨a, b⟩ := C115_frame W u s hs f hf hn hL
  refine ⟨fun u' hu => ?_, fun hu => ?_⟩
  · obtain ⟨hs', s', hp, e⟩ := a u' hu
    have hsl := h.pushed hp
    refine ⟨s', hp, ?_⟩
    intro r
    obtain ⟨m, rfl⟩ : ∃ m, n = m + 3 := ⟨n - 3, by omega⟩
    have el := slide_layout W L m (by norm_num) (by norm_num) (slides_inv (by norm_num) (by norm_num) hsl) h1 h2
      (.list ((Ui.texts W u').map .str)) ops w hw
    refine ⟨?_, hs', .frame now w _ hsl h1 h2⟩
    unfold srcScreen
    rw [e]
    change (run W L (m + 3) .main_Slider_Layout [.list bufs, sliderVal s', .list ((Ui.texts W u').map .str), .int w, .int now, ops]).bind _ = _
    rw [el]
    rfl
  · unfold srcScreen
    rw [b hu]
    rfl

/-- The frames one after the other, each with its time and width; the results are the variables, the buffers and, newest first, what was drawn. -/
def srcScreens (L n : Nat) (ops : Val) : List (Frame × ℤ × ℤ) → List Val → Val → List Val → Res (List Val × Val × List Val)
  | [], vs, bufs, ds => .ok (vs, bufs, ds)
  | (f, now, w) :: fs, vs, bufs, ds =>
    (srcScreen W L n f now w ops vs bufs).bind fun r => srcScreens L n ops fs r.1 (r.2.getD 0 .nil) (r.2.getD 2 .nil :: ds)

/-- Times that do not decrease, starting from `c`, and are positive. -/
def Timed : ℤ → List (Frame × ℤ × ℤ) → Prop
  | _, [] => True
  | c, (_, now, _) :: fs => c ≤ now ∧ 0 < now ∧ Timed now fs

/-- The last thing drawn is the content. -/
theorem draws_last {D c : ℤ} {s : Slider} {bufs : List Val} (hD0 : 0 ≤ D) (hD1 : D < 2 ^ 63) (h : Slides false D c s bufs) {now : ℤ}
    (h1 : c ≤ now) (h2 : 0 < now) (w : ℤ) (a : Val) : ∃ x old, (s.layout false bufs now w a).draws = old ++ [(x, a)] := by
  obtain ⟨d1, d2⟩ := layout_draws false s bufs now w a
  obtain ⟨e0, e1, e2⟩ := frame_draws hD0 hD1 h h1 h2 w a
  by_cases hz : (s.layout false bufs now w a).slider.offset = 0
  · exact ⟨0, [], (d1 hz).trans e0⟩
  · exact ⟨_, _, (d2 hz).trans (congrArg _ (e1 _))⟩

theorem screens_run {n L : Nat} (hn : 8 ≤ n) (hL : 32 < L) (ops : Val) (fs : List (Frame × ℤ × ℤ))
    (hf : ∀ f ∈ fs, Frame.Ok f.1 ∧ |f.2.2| ≤ 2 ^ 60) {c : ℤ} (ht : Timed c fs) (u : Ui) (hs : Small u) {s : Slider} {bufs : List Val}
    (h : Slides false 0 c s bufs) (ds : List Val) :
    (∀ u', Ui.run W.H W.S W.R u (fs.map (·.1)) = .ok u' → ∃ s' bufs' ds' c', Slides false 0 c' s' bufs' ∧ ds'.length = ds.length + fs.length ∧
      srcScreens W L n ops fs (uiVals u s) (.list bufs) ds = .ok (uiVals u' s', .list bufs', ds') ∧
      (fs ≠ [] → ∃ x old, ds'.head? = some (.list (old ++ [.list [.int x, .list ((Ui.texts W u').map .str)]])))) ∧
    (Ui.run W.H W.S W.R u (fs.map (·.1)) = .panic → srcScreens W L n ops fs (uiVals u s) (.list bufs) ds = .panic) := by
  induction fs generalizing c u s bufs ds with
  | nil =>
    refine ⟨fun u' hu => ?_, fun hu => by cases hu⟩
    cases hu
    exact ⟨s, bufs, ds, c, h, rfl, rfl, fun h => absurd rfl h⟩
  | cons f fs ih =>
    obtain ⟨f, now, w⟩ := f
    obtain ⟨t1, t2, t3⟩ := ht
    obtain ⟨hf1, hw⟩ := hf (f, now, w) (by simp)
    obtain ⟨a, b⟩ := C118_frame W u h hs f hf1 t1 t2 hw ops hn hL
    have e : Ui.run W.H W.S W.R u (((f, now, w) :: fs).map (·.1)) = (u.frame W.H W.S W.R f).bind fun u => Ui.run W.H W.S W.R u (fs.map (·.1)) := rfl
    rw [e]
    rcases h1 : u.frame W.H W.S W.R f with u1 | _
    · obtain ⟨s', hp, er, hs1, hsl⟩ := a u1 h1
      obtain ⟨x, old, hd⟩ := draws_last (by norm_num) (by norm_num) (h.pushed hp) t1 t2 w (.list ((Ui.texts W u1).map .str))
      generalize s'.layout false bufs now w (.list ((Ui.texts W u1).map .str)) = r at er hsl hd
      have es : srcScreens W L n ops ((f, now, w) :: fs) (uiVals u s) (.list bufs) ds =
          srcScreens W L n ops fs (uiVals u1 r.slider) (.list r.bufs) (.list (r.draws.map drawVal) :: ds) := by
        rw [srcScreens, er]
        rfl
      obtain ⟨i1, i2⟩ := ih (fun f h => hf f (by simp [h])) t3 u1 hs1 hsl (.list (r.draws.map drawVal) :: ds)
      rw [es]
      refine ⟨fun u' hu => ?_, i2⟩
      obtain ⟨s2, bufs2, ds2, c2, k1, k2, k3, k4⟩ := i1 u' hu
      refine ⟨s2, bufs2, ds2, c2, k1, by rw [k2, List.length_cons, List.length_cons]; omega, k3, fun _ => ?_⟩
      by_cases hfs : fs = []
      · subst hfs
        cases hu
        simp only [srcScreens, Res.ok.injEq, Prod.mk.injEq] at k3
        obtain ⟨-, -, rfl⟩ := k3
        exact ⟨x, old.map drawVal, by rw [hd, List.map_append]; rfl⟩
      · exact k4 hfs
    · refine ⟨fun u' hu => (by cases hu), fun _ => ?_⟩
      rw [srcScreens, b h1]
      rfl

/-- **C118**, the window: whatever is done to it and whenever its frames come, the text of the window with the slider leaves the variables the model
leaves, or panics where the model does; the slider stays among the states of C79, and with every frame something is drawn of which the last is the content shown. -/
theorem C118_window (fs : List (Frame × ℤ × ℤ)) (hf : ∀ f ∈ fs, Frame.Ok f.1 ∧ |f.2.2| ≤ 2 ^ 60) (ht : Timed 0 fs) (ops : Val) {n L : Nat} (hn : 8 ≤ n)
    (hL : 32 < L) :
    (∀ u, Ui.run W.H W.S W.R {} (fs.map (·.1)) = .ok u → ∃ s bufs ds c, Slides false 0 c s bufs ∧ ds.length = fs.length ∧
      srcScreens W L n ops fs (uiVals {} Slider.zero) (.list []) [] = .ok (uiVals u s, .list bufs, ds) ∧
      (fs ≠ [] → ∃ x old, ds.head? = some (.list (old ++ [.list [.int x, .list ((Ui.texts W u).map .str)]])))) ∧
    (Ui.run W.H W.S W.R {} (fs.map (·.1)) = .panic → srcScreens W L n ops fs (uiVals {} Slider.zero) (.list []) [] = .panic) := by
  have h0 : Slides false 0 0 Slider.zero ([] : List Val) := Slides.init
  have := screens_run W hn hL ops fs hf ht {} ⟨by decide, by decide, by decide, by decide, by decide⟩ h0 []
  simpa using this

/-- The hypotheses are met by three frames: nothing is done; the button is clicked, 16 ms later; the third tab, 16 ms later. -/
example : Timed 0 [({}, 1, 800), ({ generate := some fun n => List.replicate n 7 }, 16000001, 800), ({ tabClicks := [2] }, 32000001, 800)] := by
  norm_num [Timed]

/-- The hypotheses of `C118_layout` are met by a slider after its first frame and a push. -/
example : ∃ s, Slides false 0 1000000000 s [Val.int 7] ∧ s.push = 1 ∧ (s.start 1000000000).offset = 1 :=
  ⟨_, (Slides.frame 1000000000 1000 (Val.int 7) Slides.init (by norm_num) (by norm_num)).left, rfl, by decide +kernel⟩

/-- The two things drawn, from the results of `Layout`. -/
def drawn : Res (List Val) → List Int
  | .ok [_, _, .list [.list [.int x, .int a], .list [.int y, .int b]], .bool true, .int w] => [x, a, y, b, w]
  | _ => []

/-- Running the text itself, by evaluation: a push and a frame at the same time; a frame half a slide later. The content `7` was recorded before. -/
example : let W := worldOf goHashes [] [] fun _ => []
    drawn (run W 40 3 .main_Slider_Layout
      [.list [.int 7], sliderVal ⟨0, 1, some 0, some 0, none, 0, 0⟩, .int 8, .int 1000, .int 1000000000, .nil]) = [0, 7, 1000, 8, 1000] ∧
    drawn (run W 40 3 .main_Slider_Layout
      [.list [.int 7, .int 8], sliderVal ⟨0, 0, some 1, some 1, some 0, 1000000000, 1⟩, .int 9, .int 1000, .int 1150000000, .nil]) =
        [-500, 7, 500, 9, 1000] := by
  decide +kernel

end Bips
