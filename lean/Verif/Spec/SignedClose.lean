import Verif.Spec.Close
import Verif.Spec.Solver
import Verif.Model.Results

/-!
Numbers of either sign that agree up to a factor, and the weight of the offset of a line (C101).
-/
set_option autoImplicit false
namespace Emva.Spec

/-- `a` and `b` have the same sign and differ at most by the factor `t` (`0 < t ≤ 1`), either way -/
def SignedClose (t a b : ℝ) : Prop := Close t a b ∨ Close t (-a) (-b)

/-- the sum of squares of what is left of the constant 1 when it is approximated by a multiple of the `x` values: how well the
points fix the offset of a line -/
noncomputable def lever (pts : List (ℝ × ℝ)) : ℝ :=
  (pts.map fun p => (1 - p.1 * ((pts.map (·.1)).sum / weight pts)) ^ 2).sum

/-- the relative error of a number of either sign in floating point, against its exact value; both are numbers, or both are the
object `np.nan` -/
def RelErrorNum (e : ℝ) (x y : Except PyErr (Results.PyNum ℝ)) : Prop :=
  (x = .ok .npnan ∧ y = .ok .npnan) ∨ ∃ a b, x = .ok (.num (.fin a)) ∧ y = .ok (.num (.fin b)) ∧ |a - b| ≤ e * |b|

end Emva.Spec
