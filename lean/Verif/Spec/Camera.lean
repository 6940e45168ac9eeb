import Verif.Model.Camera

/-!
Specifications for the camera settings and the grabbed images.
-/
set_option autoImplicit false
set_option linter.unusedSectionVars false
namespace Emva
namespace Spec
variable {F : Type} [Field F] [LinearOrder F]

/-- `x` is an element of `grid` with minimal distance to `v`, the first one of those -/
def NearestFirst (grid : List F) (v x : F) : Prop :=
  ∃ i, grid[i]? = some x ∧ (∀ y ∈ grid, |x - v| ≤ |y - v|) ∧
    ∀ (j : ℕ) (y : F), j < i → grid[j]? = some y → |x - v| < |y - v|

end Spec
end Emva
