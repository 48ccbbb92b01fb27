import Verif.Model.Ui
import Verif.Model.Slider

/-!
# The slider of the example window (examples/ui/one/main.go)

The clicks of `Verif.Model.Ui` again, with what they do to `tabsSlider`.
-/

namespace Bips
open Ui (Slider)

/-- The window with its slider. -/
structure UiS where
  ui : Ui
  slider : Slider

/-- The left arrow (examples/ui/one/main.go:305-311). -/
def UiS.clickLeft (w : UiS) : UiS :=
  ⟨w.ui.clickLeft, if w.ui.selected > 0 then w.slider.pushRight else w.slider⟩

/-- The right arrow (examples/ui/one/main.go:357-363). -/
def UiS.clickRight (w : UiS) : UiS :=
  ⟨w.ui.clickRight, if w.ui.selected < (w.ui.tabs.length : Int) - 1 then w.slider.pushLeft else w.slider⟩

/-- A click on a tab (examples/ui/one/main.go:320-329). -/
def UiS.clickTab (w : UiS) (tabIdx : Nat) : UiS :=
  ⟨w.ui.clickTab tabIdx,
    if tabIdx < w.ui.tabs.length then
      if w.ui.selected < tabIdx then w.slider.pushLeft
      else if w.ui.selected > tabIdx then w.slider.pushRight
      else w.slider
    else w.slider⟩

end Bips
