import Mathlib.Analysis.Real.Sqrt
import Mathlib.Tactic.Linarith
import Mathlib.Tactic.Positivity

/-!
Numbers that agree up to a factor (C95).
-/
set_option autoImplicit false
namespace Emva.Spec

/-- `a` and `b` are not negative and differ at most by the factor `t` (`0 < t ≤ 1`), either way -/
def Close (t a b : ℝ) : Prop := 0 ≤ a ∧ 0 ≤ b ∧ t * b ≤ a ∧ t * a ≤ b

end Emva.Spec
