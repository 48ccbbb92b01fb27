import Verif.Go.Float

/-!
# examples/ui/one/slider.go

`float32` and `float64` values are rational numbers, every operation rounds (`Verif.Go.Float`). A compiler may fuse `x*y + z` into
one operation with one rounding; `fma` says whether it does. A time is the number of nanoseconds since the zero time. A widget is
what it draws, a value of any type `α`, and its width in pixels; other dimensions are not modelled. The operation buffers
(`op.Ops`) are a memory: a `CallOp` draws what its buffer holds when it is drawn.
-/

namespace Bips.Ui

/-- `Slider` (examples/ui/one/slider.go:16-28). Pointers are addresses in the memory of buffers; the zero `CallOp` is `none`. -/
structure Slider where
  duration : ℤ
  push : ℤ
  next : Option ℕ
  nextCall : Option ℕ
  lastCall : Option ℕ
  t0 : ℤ
  offset : ℚ

/-- The zero `Slider` (`tabsSlider`, examples/ui/one/main.go:74). -/
def Slider.zero : Slider := ⟨0, 0, none, none, none, 0, 0⟩

/-- `defaultDuration` (examples/ui/one/slider.go:13): 300 ms. -/
def defaultDuration : ℤ := 300 * 1000000

/-- `PushLeft` (examples/ui/one/slider.go:31). -/
def Slider.pushLeft (s : Slider) : Slider := { s with push := 1 }

/-- `PushRight` (examples/ui/one/slider.go:34). -/
def Slider.pushRight (s : Slider) : Slider := { s with push := -1 }

/-- `Time.Sub` (called at examples/ui/one/slider.go:49), which saturates. -/
def timeSub (a b : ℤ) : ℤ := max (-(2 ^ 63)) (min (2 ^ 63 - 1) (a - b))

/-- `Duration.Seconds` (called at examples/ui/one/slider.go:58). -/
def seconds (d : ℤ) : ℚ :=
  fl64 (fl64 (d.tdiv 1000000000) + fl64 (fl64 (d.tmod 1000000000) / 1000000000))

/-- `movement` (examples/ui/one/slider.go:54-58). -/
def movement (duration delta : ℤ) : ℚ :=
  let duration := if duration = 0 then defaultDuration else duration
  fl32 (fl32 (seconds delta) / fl32 (seconds duration))

/-- The new `offset` (examples/ui/one/slider.go:53-70). -/
def stepOffset (duration delta : ℤ) (offset : ℚ) : ℚ :=
  if offset ≠ 0 then
    let movement := movement duration delta
    if offset < 0 then
      let offset := fl32 (offset + movement)
      if 0 ≤ offset then 0 else offset
    else
      let offset := fl32 (offset - movement)
      if offset ≤ 0 then 0 else offset
  else offset

/-- `easeInOutCubic` (examples/ui/one/slider.go:127-132). -/
def easeInOutCubic (fma : Bool) (t : ℚ) : ℚ :=
  if t < 1 / 2 then fl32 (fl32 (fl32 (4 * t) * t) * t)
  else
    let b := if fma then fl32 (2 * t - 2) else fl32 (fl32 (2 * t) - 2)
    let m := fl32 (fl32 (t - 1) * b)
    if fma then fl32 (m * b + 1) else fl32 (fl32 (m * b) + 1)

/-- `smooth` (examples/ui/one/slider.go:119-124). -/
def smooth (fma : Bool) (t : ℚ) : ℚ :=
  if t < 0 then -easeInOutCubic fma (-t) else easeInOutCubic fma t

/-- Conversion of a float to `int`: truncation. -/
def truncate (x : ℚ) : ℤ := if 0 ≤ x then ⌊x⌋ else ⌈x⌉

/-- The horizontal shift of the old widget (examples/ui/one/slider.go:98, 108). -/
def shift (fma : Bool) (offset : ℚ) (width : ℤ) : ℤ :=
  if 0 < offset then truncate (fl32 (fl32 width * fl32 (smooth fma offset - 1)))
  else truncate (fl32 (fl32 width * fl32 (smooth fma offset + 1)))

variable {α : Type}

/-- What a call draws at a position; the zero `CallOp` draws nothing. -/
def drawCall (bufs : List α) (x : ℤ) : Option ℕ → List (ℤ × α)
  | none => []
  | some a => (bufs[a]?.map fun c => (x, c)).toList

/-- Result of `Layout`: the slider and the buffers afterwards, what is drawn where, and whether another frame is asked for. -/
structure Frame (α : Type) where
  slider : Slider
  bufs : List α
  draws : List (ℤ × α)
  again : Bool

/-- The beginning of `Layout` (examples/ui/one/slider.go:38-44): a push starts a slide. -/
def Slider.start (s : Slider) (now : ℤ) : Slider :=
  if s.push ≠ 0 then { s with next := none, lastCall := s.nextCall, offset := fl32 s.push, t0 := now, push := 0 } else s

/-- The second part of `Layout` (examples/ui/one/slider.go:46-73): time passes. -/
def Slider.tick (s : Slider) (now : ℤ) : Slider :=
  let delta := if s.t0 ≠ 0 then timeSub now s.t0 else 0
  { s with t0 := if s.t0 ≠ 0 then now else s.t0, offset := stepOffset s.duration delta s.offset }

/-- The third part of `Layout` (examples/ui/one/slider.go:75-86): the widget draws `content` into the buffer `next`. -/
def Slider.record (s : Slider) (bufs : List α) (content : α) : Slider × List α :=
  match s.next with
  | none => ({ s with next := some bufs.length, nextCall := some bufs.length }, bufs ++ [content])
  | some a => ({ s with nextCall := some a }, bufs.set a content)

/-- `Layout` (examples/ui/one/slider.go:37-116) at time `now` for a widget drawing `content`, `width` pixels wide. Nested
offsets add up. -/
def Slider.layout (fma : Bool) (s : Slider) (bufs : List α) (now : ℤ) (width : ℤ) (content : α) : Frame α :=
  let s := s.start now
  let again := decide (s.offset ≠ 0)
  let s := s.tick now
  let (s, bufs) := s.record bufs content
  if s.offset = 0 then ⟨s, bufs, drawCall bufs 0 s.nextCall, again⟩
  else
    let x := shift fma s.offset width
    let y := if 0 < s.offset then x + width else x - width
    ⟨s, bufs, drawCall bufs x s.lastCall ++ drawCall bufs y s.nextCall, again⟩

end Bips.Ui
