import Verif.Model.Fit
import Verif.Spec.Fit

/-!
A solver of least squares problems with tolerances (C94): what `scipy.optimize.leastsq` promises is not a minimiser but a sum of
squares that is close to the least one.
-/
set_option autoImplicit false
set_option linter.unusedSectionVars false
namespace Emva
variable {F : Type} [Field F] [LinearOrder F]

/-- The sum of squares of the solution is at most `1 + τ` times the one of any other choice, plus `δ` (`ftol` of leastsq and the
rounding of its arithmetic). -/
structure LSQ.Near (τ δ : F) (q : LSQ F) : Prop where
  b0 : ∀ X Y : List F, X.length = Y.length → 1 ≤ X.length →
    ∃ m, q.b0 (X.map .fin) (Y.map .fin) = .fin m ∧
      ∀ m', sumSq (residB0 m X Y) ≤ (1 + τ) * sumSq (residB0 m' X Y) + δ
  b : ∀ X Y : List F, X.length = Y.length → 2 ≤ X.length →
    ∃ m c, q.b (X.map .fin) (Y.map .fin) = (.fin m, .fin c) ∧
      ∀ m' c', sumSq (residB m c X Y) ≤ (1 + τ) * sumSq (residB m' c' X Y) + δ

namespace Spec

/-- the sum of squares of the `x` values -/
def weight (pts : List (F × F)) : F := (pts.map fun p => p.1 ^ 2).sum

/-- the sum of squares of the distances of the `x` values from their mean -/
def spread (pts : List (F × F)) : F :=
  (pts.map fun p => (p.1 - (pts.map (·.1)).sum / pts.length) ^ 2).sum

/-- `m` is near the best slope `m0` -/
def NearSlope (τ δ : F) (pts : List (F × F)) (m m0 : F) : Prop :=
  BestSlope pts m0 ∧ (m - m0) ^ 2 * weight pts ≤ τ * sqErr pts m0 0 + δ

/-- `(m, b)` is near the best line `(m0, b0)`: over the points, and in the slope -/
def NearLine (τ δ : F) (pts : List (F × F)) (m b m0 b0 : F) : Prop :=
  BestLine pts m0 b0 ∧ (pts.map fun p => ((m * p.1 + b) - (m0 * p.1 + b0)) ^ 2).sum ≤ τ * sqErr pts m0 b0 + δ ∧
  (m - m0) ^ 2 * spread pts ≤ τ * sqErr pts m0 b0 + δ

end Spec
end Emva
