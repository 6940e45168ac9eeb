import Verif.Spec.FromImages
import Verif.Spec.SignedClose

/-!
Specification for C108: the points of the two fits against the exposure time, computed from the dark images, and the condition that
rounding and the tolerance of the solver are small against the lines.
-/
set_option autoImplicit false
namespace Emva.Spec

/-- exposure time and mean of the dark images -/
noncomputable def darkMeans (h w : ℕ) (l : List Shot) : List (ℝ × ℝ) := l.map fun s => (s.texp, imagesMean h w s.dark₁ s.dark₂)

/-- exposure time and temporal variance of the dark images -/
noncomputable def darkVars (h w : ℕ) (l : List Shot) : List (ℝ × ℝ) := l.map fun s => (s.texp, imagesVar h w s.dark₁ s.dark₂)

/-- the sum of the squares of the errors of the dark means -/
noncomputable def darkMeansErr (u : ℝ) (h w : ℕ) (l : List Shot) : ℝ := (l.map fun s => (u * imagesMean h w s.dark₁ s.dark₂) ^ 2).sum

/-- the sum of the squares of the errors of the dark variances -/
noncomputable def darkVarsErr (u : ℝ) (h w : ℕ) (l : List Shot) : ℝ := (l.map fun s => pairErr u h w s.dark₁ s.dark₂ ^ 2).sum

/-- how far (sum of squares over the points) a line can be from the best line `m, b` through the points, if the points have errors
(sum of squares `E`) and the solver has the tolerances `τ` and `δ` -/
noncomputable def lineErr (τ δ E : ℝ) (pts : List (ℝ × ℝ)) (m b : ℝ) : ℝ := 4 * τ * (sqErr pts m b + E) + 2 * (δ + E)

end Emva.Spec
