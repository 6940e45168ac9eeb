import Verif.Model.Plots
import Verif.Spec.Affine
import Verif.Py.Str

/-!
Specification of the units on the axes of the plots.
-/
set_option autoImplicit false
namespace Emva
namespace Spec
open Plots

/-- the unit in a label: the text in its last brackets -/
def unitOf (label : Str) : Str :=
  (((label.reverse.dropWhile (· ≠ ']')).drop 1).takeWhile (· ≠ '[')).reverse

/-- the power of the grey value in a unit: if all grey values become `g` times as large, a number with this unit is multiplied
by this power of `g` -/
def greyPower (unit : Str) : ℕ :=
  if unit = ['D', 'N'] then 1
  else if unit = ['D', 'N', '$', '^', '2', '$'] then 2
  else 0

/-- the drawing with other units on its axes -/
noncomputable def redrawn (a b : ℝ) : Drawn → Drawn
  | .line x y l => .line (x.map (scale a)) (y.map (scale b)) l
  | .vline x => .vline (scale a x)
  | .hline y => .hline (scale b y)

end Spec
end Emva
