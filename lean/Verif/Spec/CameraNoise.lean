import Verif.Spec.Noise
import Verif.Model.Camera
import Mathlib.Probability.HasLaw
import Mathlib.Probability.Distributions.Poisson.Basic
import Mathlib.Probability.Distributions.Gaussian.Real

/-!
Specification for C86: the distribution of the draws of `Camera.grab`.
-/
set_option autoImplicit false
namespace Emva.Spec
open MeasureTheory ProbabilityTheory Set
open scoped NNReal
variable {Ω : Type*} [MeasurableSpace Ω]

/-- The law of `rng.uniform(-0.5, 0.5)`. -/
noncomputable def uniformLaw : Measure ℝ := volume.restrict (Ico (-1 / 2) (1 / 2))

instance : IsProbabilityMeasure uniformLaw := ⟨by
  simp [uniformLaw]
  norm_num⟩

/-- The draws of one pixel in one image, camera.py lines 301-325: thermal electrons (Poisson with mean `lt`), electrons of
the light (Poisson with mean `ll`), electrons of the electronics (normal with mean `d0` and variance `s2`), quantisation
noise (uniform); all independent. -/
structure Draws (μ : Measure Ω) (T L : Ω → ℕ) (D Q : Ω → ℝ) (lt ll : ℝ≥0) (d0 : ℝ) (s2 : ℝ≥0) : Prop where
  therm : HasLaw T (poissonMeasure lt) μ
  light : HasLaw L (poissonMeasure ll) μ
  dark : HasLaw D (gaussianReal d0 s2) μ
  quant : HasLaw Q uniformLaw μ
  indep_light : IndepFun T L μ
  indep_dark : IndepFun (fun ω => (T ω, L ω)) D μ
  indep_quant : IndepFun (fun ω => (T ω, L ω, D ω)) Q μ

/-- The draws of pixel `(i, j)` as one random quadruple. -/
def quad (n : Ω → Cam.Noise ℝ) (i j : ℕ) (ω : Ω) : ℕ × ℕ × ℝ × ℝ :=
  ((n ω).therm i j, (n ω).light i j, (n ω).dark i j, (n ω).quant i j)

/-- The draws of `K` images of `M x N` pixels: those of a pixel as in `Draws`, where the mean number of electrons of the
light depends on the pixel, those of different pixels or different images independent. -/
structure GrabNoise (μ : Measure Ω) (K M N : ℕ) (n : ℕ → Ω → Cam.Noise ℝ) (lt : ℝ≥0) (ll : ℕ → ℕ → ℝ≥0) (d0 : ℝ) (s2 : ℝ≥0) :
    Prop where
  meas : ∀ l < K, ∀ i < M, ∀ j < N, Measurable (quad (n l) i j)
  draws : ∀ l < K, ∀ i < M, ∀ j < N, Draws μ (fun ω => (n l ω).therm i j) (fun ω => (n l ω).light i j)
    (fun ω => (n l ω).dark i j) (fun ω => (n l ω).quant i j) lt (ll i j) d0 s2
  indep : ∀ l < K, ∀ i < M, ∀ j < N, ∀ l' < K, ∀ i' < M, ∀ j' < N, (l, i, j) ≠ (l', i', j') →
    IndepFun (quad (n l) i j) (quad (n l') i' j') μ

end Emva.Spec
