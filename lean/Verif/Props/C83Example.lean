import Verif.Props.C83

/-!
C83, float64 on two images: a drift of the light gives a negative temporal variance.
-/
set_option autoImplicit false
namespace Emva
open Finset Rounded

/-- the images of 3 pixels: 1, 1, 2 and 2, 2, 3 -/
def dim : Img := ⟨1, 3, fun _ j => if j = 2 then 2 else 1⟩
def brighter : Img := ⟨1, 3, fun _ j => if j = 2 then 3 else 2⟩

theorem drift_ok : PairOK 1 3 255 dim brighter := by
  refine ⟨by decide, rfl, rfl, rfl, rfl, ?_, ?_, by norm_num⟩
  · intro r _ c _
    simp only [dim]
    split <;> omega
  · intro r _ c _
    simp only [brighter]
    split <;> omega

/-- C83: the temporal variance can be negative in float64 (it cannot be without rounding, C05). Two images without noise, the
second one brighter by 1, with the pixels 1, 1, 2: the variance is `-2^-52`, for every order of the additions. -/
theorem C83_negative (S : RSum Rounding.binary64) :
    (Rounded.seriesPoint Rounding.binary64 (1 * 3) (Rounded.entry Rounding.binary64 S [dim, brighter])).2 = -2 ^ (-52 : ℤ) := by
  rw [series_eq Rounding.binary64 S 1 3 255 dim brighter drift_ok (by norm_num) (by norm_num)]
  have ma : (Spec.imgMean 1 3 fun i j => (dim.px i j : ℝ)) = 4 / 3 := by
    simp [Spec.imgMean, dim, Finset.sum_range_succ]
    norm_num
  have mb : (Spec.imgMean 1 3 fun i j => (brighter.px i j : ℝ)) = 7 / 3 := by
    simp [Spec.imgMean, brighter, Finset.sum_range_succ]
    norm_num
  have hP : (∑ i ∈ range 1, ∑ j ∈ range 3, 2 * (dim.px i j - brighter.px i j) ^ 2 : ℤ) = 6 := by decide +kernel
  simp only [ma, mb, hP]
  show Rounding.b64 (Rounding.b64 (Rounding.b64 ((6 : ℤ) : ℝ) / (4 * ((1 * 3 : ℕ) : ℝ)))
    - Rounding.b64 (Rounding.b64 (Rounding.b64 (Rounding.b64 (7 / 3) - Rounding.b64 (4 / 3))
      * Rounding.b64 (Rounding.b64 (7 / 3) - Rounding.b64 (4 / 3))) / 2)) = _
  have z52 : (2 : ℝ) ^ (0 - 52 : ℤ) = 1 / 4503599627370496 := by norm_num
  have z51 : (2 : ℝ) ^ (1 - 52 : ℤ) = 1 / 2251799813685248 := by norm_num
  have e1 : Rounding.b64 (4 / 3) = 6004799503160661 / 4503599627370496 := by
    rw [Rounding.b64_eq (x := 4 / 3) 0 6004799503160661 (by norm_num) (by norm_num)
      (by rw [z52, abs_lt]; constructor <;> norm_num), z52]
    norm_num
  have e2 : Rounding.b64 (7 / 3) = 5254199565265579 / 2251799813685248 := by
    rw [Rounding.b64_eq (x := 7 / 3) 1 5254199565265579 (by norm_num) (by norm_num)
      (by rw [z51, abs_lt]; constructor <;> norm_num), z51]
    norm_num
  have e3 : Rounding.b64 (5254199565265579 / 2251799813685248 - 6004799503160661 / 4503599627370496)
      = 4503599627370497 / 4503599627370496 := by
    have := Rounding.b64_digits 4503599627370497 (0 - 52) (by norm_num)
    rw [z52] at this
    rw [show (5254199565265579 / 2251799813685248 - 6004799503160661 / 4503599627370496 : ℝ)
      = ((4503599627370497 : ℤ) : ℝ) * (1 / 4503599627370496) by norm_num, this]
    norm_num
  have e4 : Rounding.b64 (4503599627370497 / 4503599627370496 * (4503599627370497 / 4503599627370496))
      = 4503599627370498 / 4503599627370496 := by
    rw [Rounding.b64_eq (x := 4503599627370497 / 4503599627370496 * (4503599627370497 / 4503599627370496)) 0 4503599627370498
      (by rw [abs_of_pos (by norm_num)]; norm_num) (by rw [abs_of_pos (by norm_num)]; norm_num)
      (by rw [z52, abs_lt]; constructor <;> norm_num), z52]
    norm_num
  have e5 : Rounding.b64 (4503599627370498 / 4503599627370496 / 2) = 2251799813685249 / 4503599627370496 := by
    have := Rounding.b64_digits 2251799813685249 (0 - 52) (by norm_num)
    rw [z52] at this
    rw [show (4503599627370498 / 4503599627370496 / 2 : ℝ) = ((2251799813685249 : ℤ) : ℝ) * (1 / 4503599627370496) by norm_num,
      this]
    norm_num
  have e6 : Rounding.b64 ((6 : ℤ) : ℝ) = 6 := by
    have := Rounding.b64_digits 6 0 (by norm_num)
    simpa using this
  have e7 : Rounding.b64 (6 / (4 * ((1 * 3 : ℕ) : ℝ))) = 1 / 2 := by
    have := Rounding.b64_digits 1 (-1) (by norm_num)
    have e : ((1 : ℤ) : ℝ) * 2 ^ (-1 : ℤ) = 1 / 2 := by norm_num
    rw [e] at this
    rw [show (6 / (4 * ((1 * 3 : ℕ) : ℝ)) : ℝ) = 1 / 2 by norm_num, this]
  have e8 : Rounding.b64 (1 / 2 - 2251799813685249 / 4503599627370496) = -2 ^ (-52 : ℤ) := by
    have := Rounding.b64_digits (-1) (-52) (by norm_num)
    have e : ((-1 : ℤ) : ℝ) * 2 ^ (-52 : ℤ) = -2 ^ (-52 : ℤ) := by norm_num
    rw [e] at this
    rw [show (1 / 2 - 2251799813685249 / 4503599627370496 : ℝ) = -2 ^ (-52 : ℤ) by norm_num, this]
  rw [e1, e2, e3, e4, e5, e6, e7, e8]

/-- the statement for these images in float64, summed from left to right -/
example := C83_temporal Rounding.binary64 (RSum.left _) (by norm_num) 1 3 255 dim brighter drift_ok (by norm_num) (by norm_num)

/-- the bound for 16 bit images of 2^35 pixels: the sums remain exact -/
example : (2 ^ 17 : ℤ) * 2 ^ 18 ≤ 2 ^ 51 ∧ (2 ^ 17 : ℤ) * 2 ^ 18 * 65535 ≤ 2 ^ 52 := by norm_num

end Emva
