import Mathlib.Algebra.Order.Field.Basic
import Mathlib.Algebra.BigOperators.Group.List.Basic

/-!
Specification of least squares: the sum of squared errors of a line over a list of points `(x, y)`,
and what it means for a line to be the best one.
-/
set_option autoImplicit false
namespace Emva
namespace Spec
variable {F : Type} [Field F] [LinearOrder F]

/-- squared error of the line `y = m * x + b` over the points -/
def sqErr (pts : List (F × F)) (m b : F) : F := (pts.map fun p => (p.2 - (m * p.1 + b)) ^ 2).sum

/-- `m` is the only slope of least squared error among the lines through the origin. -/
def BestSlope (pts : List (F × F)) (m : F) : Prop :=
  ∀ m', m' ≠ m → sqErr pts m 0 < sqErr pts m' 0

/-- `(m, b)` is the only line of least squared error. -/
def BestLine (pts : List (F × F)) (m b : F) : Prop :=
  ∀ m' b', (m', b') ≠ (m, b) → sqErr pts m b < sqErr pts m' b'

/-- squared relative error of the line `y = a * x + b` over the points -/
def relErr (pts : List (F × F)) (a b : F) : F :=
  (pts.map fun p => ((p.2 - (a * p.1 + b)) / p.2) ^ 2).sum

/-- `(a, b)` is the only line of least squared relative error. -/
def BestRelLine (pts : List (F × F)) (a b : F) : Prop :=
  ∀ a' b', (a', b') ≠ (a, b) → relErr pts a b < relErr pts a' b'

/-- arrays that cannot be broadcast -/
def Mismatch {α : Type} (X Y : List α) : Prop := X.length ≠ Y.length ∧ X.length ≠ 1 ∧ Y.length ≠ 1

end Spec
end Emva
