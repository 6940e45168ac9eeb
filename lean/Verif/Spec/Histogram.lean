import Mathlib.Data.Int.Basic
import Mathlib.Data.List.Count

/-!
Specification of the histogram: the slow reference loop quoted in a comment of routines.py (lines
286-297) and the counting statement.
-/
set_option autoImplicit false
namespace Emva
namespace Spec

/-- `m` is the least element of `l`. -/
def IsMin (l : List ℤ) (m : ℤ) : Prop := m ∈ l ∧ ∀ v ∈ l, m ≤ v

/-- `m` is the greatest element of `l`. -/
def IsMax (l : List ℤ) (m : ℤ) : Prop := m ∈ l ∧ ∀ v ∈ l, v ≤ m

/-- The reference loop: `H = zeros(Q); for yi in y: H[(yi - ymin) / W] += 1`. -/
def referenceLoop (ymin : ℤ) (W Q : ℕ) (y : List ℤ) : List ℕ :=
  y.foldl (fun H yi => H.modify ((yi - ymin) / (W : ℤ)).toNat (· + 1)) (List.replicate Q 0)

end Spec
end Emva
