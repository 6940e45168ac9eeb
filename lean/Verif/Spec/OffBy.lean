import Verif.Py.Rounding
import Verif.Model.Results

/-!
Numbers that differ by a fraction of a scale (C96): the error of a computation in which terms cancel is small compared with the
terms, not with the result.
-/
set_option autoImplicit false
namespace Emva.Spec

/-- `x` is computed instead of `y`; the error is at most `(g - 1) V`, where `V` is the scale of the terms and `g` the factor by
which errors have grown -/
def OffBy (g V x y : ℝ) : Prop := |x - y| ≤ (g - 1) * V ∧ |y| ≤ V

/-- two attributes have finite values, and the first one is off by the factor `g` on the scale `V` -/
def OffVal (g V : ℝ) (x y : Except PyErr (Fl ℝ)) : Prop := ∃ a b, x = .ok (.fin a) ∧ y = .ok (.fin b) ∧ OffBy g V a b

end Emva.Spec
