import Mathlib.Algebra.Order.Field.Basic
import Mathlib.Algebra.BigOperators.Group.List.Basic

/-!
Specification of the limits of an axis.
-/
set_option autoImplicit false
namespace Emva
namespace Spec
variable {F : Type} [Field F] [LinearOrder F]

/-- The value is between the limits of the axis (an axis with the limits exchanged is upside down). -/
def Visible (ax : F × F) (v : F) : Prop := min ax.1 ax.2 ≤ v ∧ v ≤ max ax.1 ax.2

/-- `m` is the mean of a list with elements. -/
def Averages (m : F) (l : List F) : Prop := l ≠ [] ∧ m * l.length = l.sum

/-- The axis goes from the least of the means of the lists in `los`, reduced by a tenth, to the greatest of the
means of the lists in `his`, enlarged by a tenth; lists without elements do not count. -/
def Frames (los his : List (List F)) (ax : F × F) : Prop :=
  (∃ l ∈ los, ∃ m, Averages m l ∧ ax.1 = 9 / 10 * m) ∧ (∀ l ∈ los, ∀ m, Averages m l → ax.1 ≤ 9 / 10 * m) ∧
  (∃ l ∈ his, ∃ m, Averages m l ∧ ax.2 = 11 / 10 * m) ∧ (∀ l ∈ his, ∀ m, Averages m l → 11 / 10 * m ≤ ax.2)

end Spec
end Emva
