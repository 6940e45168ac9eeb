import Verif.Props.C105

/-!
Cases that meet the hypotheses of C105, and numbers at the limits of float64.
-/
set_option autoImplicit false
namespace Emva
open Rounding

theorem log_two_zpow (e : ℤ) : Int.log 2 |(2 : ℝ) ^ e| = e := by
  rw [abs_of_pos (two_pos_zpow e)]
  have := Int.log_zpow (R := ℝ) (b := 2) one_lt_two e
  push_cast at this
  exact this

/-- `2^1024` is too large -/
example : f64 (2 ^ (1024 : ℤ)) = .inf false := by
  have e : ulp64 (2 ^ (1024 : ℤ)) = 2 ^ (972 : ℤ) := by
    unfold ulp64 ulp
    rw [log_two_zpow]
    exact max_eq_left (two_zpow_mono (by norm_num))
  have q : (2 : ℝ) ^ (1024 : ℤ) / 2 ^ (972 : ℤ) = ((2 ^ 52 : ℤ) : ℝ) := by
    rw [← zpow_sub₀ (by norm_num)]; norm_num
  unfold f64
  rw [e, q, nearestEven_int, ← q, div_mul_cancel₀ _ (two_pos_zpow _).ne', if_pos (le_abs_self _)]
  congr 1
  exact decide_eq_false (not_lt.2 (two_pos_zpow _).le)

/-- `2^-1075` is too small: the arithmetic without limits keeps it, float64 does not -/
example : f64 (2 ^ (-1075 : ℤ)) = .fin 0 ∧ b64 (2 ^ (-1075 : ℤ)) ≠ 0 := by
  constructor
  · have e : ulp64 (2 ^ (-1075 : ℤ)) = 2 ^ (-1074 : ℤ) := by
      unfold ulp64 ulp
      rw [log_two_zpow]
      exact max_eq_right (two_zpow_mono (by norm_num))
    have q : (2 : ℝ) ^ (-1075 : ℤ) / 2 ^ (-1074 : ℤ) = 1 / 2 := by
      rw [← zpow_sub₀ (by norm_num)]; norm_num
    have n : nearestEven (1 / 2) = 0 := by
      have hf : ⌊(1 / 2 : ℝ)⌋ = 0 := by norm_num
      have hr : Int.fract (1 / 2 : ℝ) = 1 / 2 := by rw [Int.fract, hf]; norm_num
      unfold nearestEven
      rw [hr, hf]
      norm_num
    unfold f64
    rw [e, q, n]
    rw [Int.cast_zero, zero_mul, abs_zero, if_neg (not_le.2 (two_pos_zpow _))]
  · have := b64_digits 1 (-1075) (by norm_num)
    rw [Int.cast_one, one_mul] at this
    rw [this]
    exact (two_pos_zpow _).ne'

/-- images of one pixel with the largest and the smallest number of int64 -/
def extremeImg (n : ℤ) : Img := ⟨1, 1, fun _ _ => n⟩

example := C105_temporal ISum.left (extremeImg (2 ^ 63 - 1)) (extremeImg (-2 ^ 63)) 1 (by decide) (by decide) (by decide) (by decide)
  (by decide) (by decide) (by decide) (by norm_num)

example := C105_spatial ISum.left [⟨4, 5, fun i j => 100 + i * j⟩, ⟨4, 5, fun i _ => 104 - i⟩, ⟨4, 5, fun _ j => 90 + j⟩] 4 5
  (by decide) (by simp) (by norm_num) (by norm_num) (by norm_num) (by norm_num) (by norm_num) (by decide) (by decide) (by decide)

example (a b : Img) (ok : PairOK 2000 3000 65535 a b) := C105_temporal_accuracy ISum.left 2000 3000 65535 a b ok (by norm_num) (by norm_num)
  (by show 2000 * 3000 - 1 ≤ 2 ^ 52; norm_num)

example : PairOK 2000 3000 65535 ⟨2000, 3000, fun i _ => i⟩ ⟨2000, 3000, fun _ j => j⟩ := by
  constructor <;> first | (intro r hr c hc; simp only; omega) | norm_num

example (h : ∀ i < 4, ∀ j < 5, Fits [⟨4, 5, fun i j => 100 + i * j⟩, ⟨4, 5, fun i _ => 104 - i⟩] 255 i j) :=
  C105_spatial_accuracy ISum.left [⟨4, 5, fun i j => 100 + i * j⟩, ⟨4, 5, fun i _ => 104 - i⟩] 4 5
    (by decide) (by simp) 255 h (by norm_num) (by norm_num) (by norm_num) (by norm_num) (by norm_num) (by norm_num) (by decide) (by decide)
    (by decide)

example : ∀ i < 4, ∀ j < 5, Fits [⟨4, 5, fun i j => 100 + i * j⟩, ⟨4, 5, fun i _ => 104 - i⟩] 255 i j := by
  intro i hi j hj
  refine ⟨fun a ha => ?_, by norm_num⟩
  simp only [List.mem_cons, List.not_mem_nil, or_false] at ha
  have : i * j ≤ 3 * 4 := Nat.mul_le_mul (by omega) (by omega)
  rcases ha with rfl | rfl <;> simp only <;> constructor <;> first | positivity | (push_cast; norm_cast; omega) | omega

end Emva
