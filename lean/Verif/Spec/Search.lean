import Mathlib.Data.List.Basic
import Mathlib.Data.Rat.Defs
import Mathlib.Algebra.Field.Rat
import Mathlib.Algebra.BigOperators.Group.Finset.Basic
import Mathlib.Algebra.Order.Ring.Rat

/-!
Specification of a search through a list of settings.
-/
set_option autoImplicit false
namespace Emva
namespace Spec
variable {α : Type}

/-- `x` is the `m`-th setting; all earlier ones fail the test, and it passes or is the last one. -/
def FirstPassing (settings : List α) (pass : ℕ → α → Prop) (m : ℕ) (x : α) : Prop :=
  settings[m]? = some x ∧ (∀ i y, i < m → settings[i]? = some y → ¬ pass i y) ∧
  (pass m x ∨ m + 1 = settings.length)

/-- standard deviation of the difference of two images above ½: the variance is above ¼ -/
def NoisyDifference (h w : ℕ) (a b : ℕ → ℕ → ℤ) : Prop :=
  let n : ℚ := h * w
  let m : ℚ := (∑ i ∈ Finset.range h, ∑ j ∈ Finset.range w, ((a i j : ℚ) - b i j)) / n
  n ≠ 0 ∧ (1 / 2 : ℚ) ^ 2 < (∑ i ∈ Finset.range h, ∑ j ∈ Finset.range w, ((a i j : ℚ) - b i j - m) ^ 2) / n

end Spec
end Emva
