import Verif.Model.RoundedMeasurement
import Verif.Props.C83

/-!
Specification for C102: signal and noise of the points of a measurement, computed from the images, and the errors that the rounding
of the floating point operations can cause.
-/
set_option autoImplicit false
namespace Emva.Spec
open Finset

/-- mean of a pair of images -/
noncomputable def imagesMean (h w : ℕ) (a b : Img) : ℝ :=
  (imgMean h w (fun i j => (a.px i j : ℝ)) + imgMean h w (fun i j => (b.px i j : ℝ))) / 2

/-- temporal variance of a pair of images -/
noncomputable def imagesVar (h w : ℕ) (a b : Img) : ℝ := imgPopVar h w (fun i j => (b.px i j : ℝ) - a.px i j) / 2

open Classical in
/-- the error of the temporal variance of a pair of images (C83); none for identical images -/
noncomputable def pairErr (u : ℝ) (h w : ℕ) (a b : Img) : ℝ :=
  if a = b then 0 else
    let ma := imgMean h w fun i j => (a.px i j : ℝ)
    let mb := imgMean h w fun i j => (b.px i j : ℝ)
    4 * u * halfMeanSq h w (fun i j => (b.px i j : ℝ) - a.px i j) + 6 * u * ((mb - ma) ^ 2 / 2)
      + 2 * u * ((ma + mb) * |mb - ma|) + 2 * u ^ 2 * (ma + mb) ^ 2

/-- the signal of a point, its dark value subtracted -/
noncomputable def signalOf (h w : ℕ) (s : Shot) : ℝ := imagesMean h w s.bright₁ s.bright₂ - imagesMean h w s.dark₁ s.dark₂

/-- the temporal noise of a point, that of the dark images subtracted -/
noncomputable def noiseOf (h w : ℕ) (s : Shot) : ℝ := imagesVar h w s.bright₁ s.bright₂ - imagesVar h w s.dark₁ s.dark₂

/-- the error of the signal of a point -/
noncomputable def signalErr (u : ℝ) (h w : ℕ) (s : Shot) : ℝ :=
  u * |signalOf h w s| + (1 + u) * (u * imagesMean h w s.bright₁ s.bright₂ + u * imagesMean h w s.dark₁ s.dark₂)

/-- the error of the noise of a point -/
noncomputable def noiseErr (u : ℝ) (h w : ℕ) (s : Shot) : ℝ :=
  u * |noiseOf h w s| + (1 + u) * (pairErr u h w s.bright₁ s.bright₂ + pairErr u h w s.dark₁ s.dark₂)

/-- two numbers with errors that cannot change their order: they are far enough from each other, or there are no errors -/
def Apart (x ex y ey : ℝ) : Prop := ex + ey < |x - y| ∨ ex = 0 ∧ ey = 0

/-- the saturation point is not a matter of rounding: it is given, or the order of the variances (and of 0) is safe -/
def SafeSaturation (u : ℝ) (h w : ℕ) (l : List Shot) (given : Option ℤ) : Prop :=
  (∃ i, given = some i ∧ i ≠ 0) ∨
    (l.Pairwise fun s t => Apart (imagesVar h w s.bright₁ s.bright₂) (pairErr u h w s.bright₁ s.bright₂)
      (imagesVar h w t.bright₁ t.bright₂) (pairErr u h w t.bright₁ t.bright₂)) ∧
    ∀ s ∈ l, Apart (imagesVar h w s.bright₁ s.bright₂) (pairErr u h w s.bright₁ s.bright₂) 0 0

/-- no signal is so near to 70 % of the signal `s₀` at saturation that rounding could move it to the other side -/
def SafeRange (u : ℝ) (h w : ℕ) (l : List Shot) (s₀ : Shot) : Prop := ∀ s ∈ l,
  signalErr u h w s + 7 / 10 * (signalErr u h w s₀ + (2 * u + u ^ 2) * (|signalOf h w s₀| + signalErr u h w s₀)) <
    |signalOf h w s - 7 / 10 * signalOf h w s₀|

/-- the errors of the points of the sensitivity range are small against the points: they change the sums of the regressions of gain
and responsivity by at most the part `η` -/
structure SlopeErrors (u η : ℝ) (h w : ℕ) (l : List Shot) : Prop where
  xy : (l.map fun s => signalErr u h w s * |noiseOf h w s| + noiseErr u h w s * |signalOf h w s|
    + signalErr u h w s * noiseErr u h w s).sum ≤ η * (l.map fun s => signalOf h w s * noiseOf h w s).sum
  xx : (l.map fun s => 2 * signalErr u h w s * |signalOf h w s| + signalErr u h w s ^ 2).sum ≤
    η * (l.map fun s => signalOf h w s ^ 2).sum
  py : (l.map fun s => signalErr u h w s * |s.photons|).sum ≤ η * (l.map fun s => s.photons * signalOf h w s).sum

/-- they change the dark variance of the first point by at most this part, too -/
structure SmallErrors (u η : ℝ) (h w : ℕ) (l : List Shot) : Prop extends SlopeErrors u η h w l where
  dark : ∀ s ∈ l.head?, pairErr u h w s.dark₁ s.dark₂ ≤ η * imagesVar h w s.dark₁ s.dark₂

/-- the tolerance of the solver (`τ` relative to the sum of squares, `δ` absolute) moves the slopes `k` (gain) and `m` (responsivity) by
at most the part `ρ` -/
structure SmallTolerance (u η τ δ ρ k m : ℝ) (h w : ℕ) (l : List Shot) : Prop where
  gain : τ * (l.map fun s => (|noiseOf h w s| + noiseErr u h w s) ^ 2).sum + δ ≤
    ρ ^ 2 * (1 - η) ^ 5 * (k ^ 2 * (l.map fun s => signalOf h w s ^ 2).sum)
  resp : τ * (l.map fun s => (|signalOf h w s| + signalErr u h w s) ^ 2).sum + δ ≤
    ρ ^ 2 * (1 - η) ^ 5 * (m ^ 2 * (l.map fun s => s.photons ^ 2).sum)

end Emva.Spec
