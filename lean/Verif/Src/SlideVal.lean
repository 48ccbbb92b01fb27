import Verif.Src.Rules

/-!
# A slider as a value
-/

namespace Bips.Src

open Ui

/-- An address or nil. -/
def addr : Option Nat → Val
  | none => .nil
  | some a => .int a

/-- A slider as a value: its fields in order. -/
def sliderVal (s : Slider) : Val := .list [.int s.duration, .int s.push, addr s.next, addr s.nextCall, addr s.lastCall, .int s.t0, .f32 s.offset]

set_option linter.unusedSimpArgs false

variable (W : World) (L : Nat)

theorem slider_PushLeft (n : Nat) (s : Slider) : run W L (n + 1) .main_Slider_PushLeft [sliderVal s] = .ok [sliderVal s.pushLeft] := by
  rw [run_succ]
  simp -implicitDefEqProofs [src, main_Slider_PushLeft, sliderVal, Slider.pushLeft]

theorem slider_PushRight (n : Nat) (s : Slider) : run W L (n + 1) .main_Slider_PushRight [sliderVal s] = .ok [sliderVal s.pushRight] := by
  rw [run_succ]
  simp -implicitDefEqProofs [src, main_Slider_PushRight, sliderVal, Slider.pushRight]

/-- The second slider is the first, perhaps with a push. -/
def Pushed (s s' : Slider) : Prop := s' = s ∨ s' = s.pushLeft ∨ s' = s.pushRight

theorem Pushed.refl (s : Slider) : Pushed s s := .inl rfl

theorem Pushed.trans {a b c : Slider} (h : Pushed a b) (h' : Pushed b c) : Pushed a c := by
  rcases h with rfl | rfl | rfl <;> rcases h' with rfl | rfl | rfl <;> simp [Pushed, Slider.pushLeft, Slider.pushRight]

end Bips.Src
