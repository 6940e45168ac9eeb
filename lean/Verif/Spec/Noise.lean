import Verif.Py.Img
import Verif.Spec.Stats
import Mathlib.Probability.Moments.Variance

/-!
Specification for C81: images with random noise.
-/
set_option autoImplicit false
namespace Emva.Spec
open MeasureTheory ProbabilityTheory
variable {Ω : Type*} [MeasurableSpace Ω]

/-- Pixel `(i, j)` of the `l`-th image as a random number. -/
def pixel (I : ℕ → Ω → Img) (l i j : ℕ) (ω : Ω) : ℝ := ((I l ω).px i j : ℝ)

/-- `L` random images of `M x N` pixels: the grey values are measurable, lie in `[0, B]`, have in the `l`-th image the
expected values `m l i j` and in every image the variances `v i j`; different grey values (of different pixels or
different images) are uncorrelated. -/
structure Noisy (μ : Measure Ω) (L M N : ℕ) (B : ℤ) (I : ℕ → Ω → Img) (m : ℕ → ℕ → ℕ → ℝ) (v : ℕ → ℕ → ℝ) : Prop where
  shape : ∀ l < L, ∀ ω, (I l ω).h = M ∧ (I l ω).w = N
  bound : ∀ l < L, ∀ ω, ∀ i < M, ∀ j < N, 0 ≤ (I l ω).px i j ∧ (I l ω).px i j ≤ B
  meas : ∀ l < L, ∀ i < M, ∀ j < N, Measurable fun ω => (I l ω).px i j
  mean : ∀ l < L, ∀ i < M, ∀ j < N, ∫ ω, pixel I l i j ω ∂μ = m l i j
  var : ∀ l < L, ∀ i < M, ∀ j < N, Var[pixel I l i j; μ] = v i j
  uncorrelated : ∀ l < L, ∀ i < M, ∀ j < N, ∀ l' < L, ∀ i' < M, ∀ j' < N, (l, i, j) ≠ (l', i', j') →
    cov[pixel I l i j, pixel I l' i' j'; μ] = 0

/-- Variance of the column means of an `M x N` array. -/
noncomputable def columnVar (M N : ℕ) (f : ℕ → ℕ → ℝ) : ℝ :=
  (∑ j ∈ Finset.range N, ((∑ i ∈ Finset.range M, f i j) / M - imgMean M N f) ^ 2) / N

/-- Variance of the row means of an `M x N` array. -/
noncomputable def rowVar (M N : ℕ) (f : ℕ → ℕ → ℝ) : ℝ :=
  (∑ i ∈ Finset.range M, ((∑ j ∈ Finset.range N, f i j) / N - imgMean M N f) ^ 2) / M

end Emva.Spec
