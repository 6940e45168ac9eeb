import Mathlib.Analysis.SpecialFunctions.Log.Base
import Mathlib.Algebra.BigOperators.Group.List.Basic

/-!
Scales of the errors of the linearity fit (C97). The line of least squared relative error through points is found from five sums;
the scales are those of the terms that cancel in its offset, its slope and in the deviations from it.
-/
set_option autoImplicit false
namespace Emva.Spec

/-- sums over points: photons over signal, photons over squared signal, ... -/
noncomputable def sumXY (pts : List (ℝ × ℝ)) : ℝ := (pts.map fun p => p.1 / p.2).sum
noncomputable def sumXYY (pts : List (ℝ × ℝ)) : ℝ := (pts.map fun p => p.1 / (p.2 * p.2)).sum
noncomputable def sumXXYY (pts : List (ℝ × ℝ)) : ℝ := (pts.map fun p => p.1 / p.2 * (p.1 / p.2)).sum
noncomputable def sumY (pts : List (ℝ × ℝ)) : ℝ := (pts.map fun p => 1 / p.2).sum
noncomputable def sumYY (pts : List (ℝ × ℝ)) : ℝ := (pts.map fun p => 1 / (p.2 * p.2)).sum

/-- the determinant of the fit and the scale of its terms; their quotient is the condition of the fit -/
noncomputable def fitDet (pts : List (ℝ × ℝ)) : ℝ := sumXXYY pts * sumYY pts - sumXYY pts * sumXYY pts
noncomputable def fitTerms (pts : List (ℝ × ℝ)) : ℝ := sumXYY pts * sumXYY pts + sumXXYY pts * sumYY pts

/-- scale of the error of the offset -/
noncomputable def offsetScale (pts : List (ℝ × ℝ)) : ℝ :=
  4 * (sumXY pts * sumXYY pts + sumXXYY pts * sumY pts) * fitTerms pts / fitDet pts ^ 2

/-- scale of the error of the slope -/
noncomputable def slopeScale (pts : List (ℝ × ℝ)) : ℝ := (sumXY pts + offsetScale pts * sumXYY pts) / sumXXYY pts

/-- scale of the error of the line at `x` -/
noncomputable def lineScale (pts : List (ℝ × ℝ)) (x : ℝ) : ℝ := slopeScale pts * |x| + offsetScale pts

/-- scale of the error of the deviation (in per cent) of a point from the line `a x + b` -/
noncomputable def deviationScale (pts : List (ℝ × ℝ)) (a b : ℝ) (p : ℝ × ℝ) : ℝ :=
  4 * (100 * (|p.2| + lineScale pts p.1)) * lineScale pts p.1 / (a * p.1 + b) ^ 2

/-- the error factor `g` leaves at least half of the line at `p` -/
def WellOn (g : ℝ) (pts : List (ℝ × ℝ)) (a b : ℝ) (p : ℝ × ℝ) : Prop :=
  a * p.1 + b ≠ 0 ∧ (g - 1) * lineScale pts p.1 ≤ |a * p.1 + b| / 2

end Emva.Spec
