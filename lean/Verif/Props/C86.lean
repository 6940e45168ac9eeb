import Verif.Lemmas.ClipNoise
import Verif.Props.C49
import Verif.Props.C81
import Verif.Model.Radiance

/-!
C86: the expected value and the noise of the images of the simulated camera.
-/
set_option autoImplicit false
namespace Emva
open Cam Spec MeasureTheory ProbabilityTheory
open scoped NNReal
variable {Ω : Type*} [MeasurableSpace Ω] {μ : Measure Ω}

section
variable (c : Camera ℝ) (n : Ω → Noise ℝ) (i j : ℕ)

/-- a pixel of a grabbed image, as a random number -/
theorem px_digital (hb : c.bitDepth ≤ 64) (ω : Ω) :
    ((grabImg c (n ω)).px i j : ℝ) = clip (digital
      (rawElectrons (fun ω => (n ω).therm i j) (fun ω => (n ω).light i j) (fun ω => (n ω).dark i j) (c.dsnu i j))
      (fun ω => (n ω).quant i j) c.K c.blackoffset c.uEsat ω) 0 (2 ^ c.bitDepth - 1) := by
  rw [((C49_range c (n ω) hb).2.2 i j).2.2, greyValue, clip_int, digital]
  have : c.K * electrons c (n ω) i j + (n ω).quant i j + c.blackoffset =
      (c.K * electrons c (n ω) i j + c.blackoffset) + (n ω).quant i j := by ring
  rw [this]
  simp [imgMax, electrons, rawElectrons]

end

/-- C86, one pixel: its grey value in an image of a camera of any settings.  With `e0` the expected number of electrons and
`ve` its variance, the noise is never larger than `K² ve + 1/4`; and when the expected numbers keep a distance `δe` from
the ends of the full well and `δy` from the ends of the grey values, the expected grey value is `K e0 + blackoffset` and
the noise is at least `K² ve`, up to what the clipping takes away. -/
theorem C86_pixel (c : Camera ℝ) (hb : c.bitDepth ≤ 64) (n : Ω → Noise ℝ) (i j : ℕ) (lt ll : ℝ≥0) (d0 : ℝ) (s2 : ℝ≥0)
    (h : Draws μ (fun ω => (n ω).therm i j) (fun ω => (n ω).light i j) (fun ω => (n ω).dark i j)
      (fun ω => (n ω).quant i j) lt ll d0 s2) :
    let y : Ω → ℝ := fun ω => ((grabImg c (n ω)).px i j : ℝ)
    let e0 : ℝ := lt + ll + (c.dsnu i j + d0)
    let ve : ℝ := lt + ll + s2
    let κ : ℝ := 3 * ve ^ 2 + (lt + ll)
    let a : ℝ := c.K * e0 + c.blackoffset
    Var[y; μ] ≤ c.K ^ 2 * ve + 1 / 4 ∧
    ∀ δe δy : ℝ, 0 < δe → 0 < δy → δe ≤ e0 → e0 + δe ≤ c.uEsat → δy ≤ a → a + δy ≤ 2 ^ c.bitDepth - 1 →
      |∫ ω, y ω ∂μ - a| ≤ |c.K| * ve / (4 * δe) + (c.K ^ 2 * ve + 1 / 4) / (4 * δy) ∧
      |c.K| * √ve ≤ √(Var[y; μ]) + |c.K| * √κ / (4 * δe) + √(8 * (c.K ^ 4 * κ + 1)) / (4 * δy) := by
  intro y e0 ve κ a
  have : IsProbabilityMeasure μ := h.quant.isProbabilityMeasure
  obtain ⟨hX, mX, vX, iX4, vX4, indX⟩ := raw_moments h (c.dsnu i j)
  have hy : y = _ := funext (px_digital c n i j hb)
  rw [hy]
  refine ⟨clipped_var hX h.quant indX _ _ _ _ vX, fun δe δy hδe hδy e1 e2 a1 a2 => ⟨?_, ?_⟩⟩
  · exact clipped_mean hX h.quant indX _ _ _ _ hδe hδy e1 e2 a1 a2 mX vX
  · exact clipped_noise hX h.quant indX _ _ _ _ hδe hδy e1 e2 a1 a2 vX iX4 vX4

end Emva
