import Mathlib.Data.List.Basic
import Mathlib.Data.Int.Basic

/-!
Specification of the row-wise compression, without any order of evaluation.
-/
set_option autoImplicit false
namespace Emva
namespace Spec

/-- unmasked values of row `i` -/
def rowVals (w : ℕ) (mask : ℕ → ℕ → Bool) (px : ℕ → ℕ → ℤ) (i : ℕ) : List ℤ :=
  ((List.range w).filter fun j => !mask i j).map (px i)

/-- the rows that have unmasked values, in order -/
def liveRows (h w : ℕ) (mask : ℕ → ℕ → Bool) (px : ℕ → ℕ → ℤ) : List (List ℤ) :=
  ((List.range h).map (rowVals w mask px)).filter fun l => !l.isEmpty

end Spec
end Emva
