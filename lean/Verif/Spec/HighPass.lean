import Mathlib.Algebra.BigOperators.Group.Finset.Basic
import Mathlib.Algebra.BigOperators.Intervals
import Mathlib.Data.Int.Basic

/-!
Specification of the high-pass filter: sums over the `d x d` window whose upper left corner is
`(i, j)`.
-/
set_option autoImplicit false
namespace Emva
namespace Spec
open Finset

/-- sum of `f` over the window -/
def winSum (d : ℕ) (f : ℕ → ℕ → ℤ) (i j : ℕ) : ℤ :=
  ∑ a ∈ range d, ∑ b ∈ range d, f (i + a) (j + b)

/-- number of unmasked elements of the window -/
def winCount (d : ℕ) (m : ℕ → ℕ → Bool) (i j : ℕ) : ℤ := winSum d (fun i j => if m i j then 0 else 1) i j

/-- sum of the unmasked elements of the window -/
def winSumUnmasked (d : ℕ) (m : ℕ → ℕ → Bool) (f : ℕ → ℕ → ℤ) (i j : ℕ) : ℤ :=
  winSum d (fun i j => if m i j then 0 else f i j) i j

end Spec
end Emva
