import Mathlib.Data.Nat.Notation

/-!
Specification of a periodic image.
-/
set_option autoImplicit false
namespace Emva
namespace Spec
variable {α : Type}

/-- `rows` has `height` rows and `width` columns and repeats `pattern` in both directions. -/
def Periodic (pattern rows : List (List α)) (patternWidth height width : ℕ) : Prop :=
  rows.length = height ∧ (∀ r ∈ rows, r.length = width) ∧
  ∀ i j, i < height → j < width → (rows[i]?.bind (·[j]?)) =
    (pattern[i % pattern.length]?.bind (·[j % patternWidth]?))

end Spec
end Emva
