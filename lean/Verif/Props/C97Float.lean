import Verif.Props.C97Decibel
import Verif.Props.C95Example

/-!
C97: float64, and measurements that meet the hypotheses.
-/
set_option autoImplicit false
namespace Emva
open Spec Data Results Fit

/-- C97: the factor of `C97_linearity` for float64, up to 128 points and any summation in which no term takes part in more than
127 additions, such as numpy's. -/
theorem C97_float64 (S' : RSum Rounding.binary64) (n : ℕ) (hn : S'.depth n ≤ 127) :
    (1 : ℝ) ≤ (1 - 2 ^ (-53 : ℤ)) ^ (31 + 4 * S'.depth n) * (1 + 2 ^ (-43 : ℤ)) := by
  have h1 : (1 - 2 ^ (-53 : ℤ) : ℝ) ^ 539 ≤ (1 - 2 ^ (-53 : ℤ)) ^ (31 + 4 * S'.depth n) :=
    pow_le_pow_of_le_one (by norm_num) (by norm_num) (by omega)
  have h2 := one_add_mul_le_pow (a := (-(2 ^ (-53 : ℤ)) : ℝ)) (by norm_num) 539
  refine le_trans ?_ (mul_le_mul_of_nonneg_right h1 (by norm_num))
  rw [← sub_eq_add_neg] at h2
  refine le_trans ?_ (mul_le_mul_of_nonneg_right h2 (by norm_num))
  norm_num

/-- C97: numpy adds up to 128 terms so. -/
theorem C97_pairwise (n : ℕ) (h : n ≤ 128) : (RSum.pairwise Rounding.binary64).depth n ≤ 127 := pairDepth_le 0 n (by omega)

/-- signals 0, 5, 11, 15, 21, 20: not linear -/
noncomputable def sampleCurved : Res ℝ := { sampleReal with
  temporal := { sampleReal.temporal with
    u_p := [0, 100, 200, 300, 400, 500]
    u_y := [10, 15, 21, 25, 31, 30].map .fin
    u_ydark := [10, 10, 10, 10, 10, 10].map .fin }
  index_u_ysat := some 4 }

theorem sampleCurved_diff : diff [10, 15, 21, 25, 31, 30] [10, 10, 10, 10, 10, (10 : ℝ)] = [0, 5, 11, 15, 21, 20] := by
  norm_num [diff]

theorem sampleCurved_at : AtIndex (diff [10, 15, 21, 25, 31, 30] [10, 10, 10, 10, 10, (10 : ℝ)]) 4 21 := by
  rw [sampleCurved_diff]; exact .inl ⟨by norm_num, rfl⟩

theorem sampleCurved_max : val indexLinearityMax sampleCurved = .ok 3 := by
  refine (((C26_linearity_max sampleCurved _ _ rfl rfl rfl 4 rfl).1 21 sampleCurved_at).1 3).2 ?_
  rw [sampleCurved_diff]
  refine ⟨⟨15, rfl, by norm_num⟩, fun j x hj hx => ?_⟩
  match j, hj with
  | 4, _ => cases hx; norm_num
  | 5, _ => cases hx; norm_num
  | j + 6, _ => simp at hx

theorem sampleCurved_min : val indexLinearityMin sampleCurved = .ok 1 := by
  refine (((C26_linearity_min sampleCurved _ _ rfl rfl rfl 4 rfl).1 21 sampleCurved_at).1 1).2 ?_
  rw [sampleCurved_diff]
  refine ⟨⟨5, rfl, by norm_num⟩, fun j x hj hx => ?_⟩
  match j, hj with
  | 0, _ => cases hx; norm_num

/-- the hypotheses of `C97_linearity` are met; numpy's linearity errors of this measurement are right to 10⁻⁴ per cent -/
theorem sampleCurved_accurate : ∃ lo lo' hi hi', val LEMin sampleCurved = .ok (.fin lo) ∧
    val (Rounded.LEMin Rounding.binary64 (RSum.pairwise _)) sampleCurved = .ok (.fin lo') ∧
    val LEMax sampleCurved = .ok (.fin hi) ∧
    val (Rounded.LEMax Rounding.binary64 (RSum.pairwise _)) sampleCurved = .ok (.fin hi') ∧
    |lo' - lo| ≤ 1 / 10 ^ 4 ∧ |hi' - hi| ≤ 1 / 10 ^ 4 := by
  have hp : [(100, 5), (200, 11), (300, (15 : ℝ))] =
      ((sampleCurved.temporal.u_p.zip (diff [10, 15, 21, 25, 31, 30] [10, 10, 10, 10, 10, (10 : ℝ)])).take (3 + 1)).drop 1 := by
    rw [sampleCurved_diff]; rfl
  have eA : sumXY [(100, 5), (200, 11), (300, (15 : ℝ))] = 640 / 11 := by norm_num [sumXY]
  have eB : sumXYY [(100, 5), (200, 11), (300, (15 : ℝ))] = 2536 / 363 := by norm_num [sumXYY]
  have eC : sumXXYY [(100, 5), (200, 11), (300, (15 : ℝ))] = 136800 / 121 := by norm_num [sumXXYY]
  have eD : sumY [(100, 5), (200, 11), (300, (15 : ℝ))] = 59 / 165 := by norm_num [sumY]
  have eE : sumYY [(100, 5), (200, 11), (300, (15 : ℝ))] = 287 / 5445 := by norm_num [sumYY]
  have eT : fitTerms [(100, 5), (200, 11), (300, (15 : ℝ))] = 14283616 / 131769 := by rw [fitTerms, eB, eC, eE]; norm_num
  have eF : fitDet [(100, 5), (200, 11), (300, (15 : ℝ))] = 11744 / 1089 := by rw [fitDet, eB, eC, eE]; norm_num
  have hWell : ∀ p ∈ [(100, 5), (200, 11), (300, (15 : ℝ))],
      WellOn (1 + 2 ^ (-43 : ℤ)) [(100, 5), (200, 11), (300, (15 : ℝ))] (387 / 7340) (-75 / 367) p := by
    intro p hp
    simp only [List.mem_cons, List.not_mem_nil, or_false] at hp
    rcases hp with rfl | rfl | rfl <;>
      simp only [WellOn, lineScale, slopeScale, offsetScale, eA, eB, eC, eD, eT, eF] <;> norm_num [abs_of_pos]
  have main := C97_linearity Rounding.binary64 (RSum.pairwise _) (by norm_num) sampleCurved _ _ rfl rfl rfl rfl 4 rfl 21 sampleCurved_at
      (by norm_num) ?_ ?_ 1 3 sampleCurved_min sampleCurved_max _ hp ?_ ?_ (1 + 2 ^ (-43 : ℤ))
      (C97_float64 _ _ (C97_pairwise _ (by simp))) ?_ (387 / 7340) (-75 / 367) ?_ hWell
  · obtain ⟨l, l', a', b', -, -, -, -, -, -, -, -, -, lo, lo', hi, hi', h1, h2, h3, h4, h5⟩ := main
    refine ⟨lo, lo', hi, hi', h1, h2, h3, h4, ?_⟩
    have k := h5 400000000 ?_
    · exact ⟨k.1.trans (by norm_num), k.2.trans (by norm_num)⟩
    · intro p hp
      simp only [List.mem_cons, List.not_mem_nil, or_false] at hp
      rcases hp with rfl | rfl | rfl <;>
        simp only [deviationScale, lineScale, slopeScale, offsetScale, eA, eB, eC, eD, eT, eF] <;> norm_num [abs_of_pos]
  · rw [sampleCurved_diff]
    intro y hy
    simp only [List.mem_cons, List.not_mem_nil, or_false] at hy
    rcases hy with rfl | rfl | rfl | rfl | rfl | rfl <;> norm_num
  · rw [sampleCurved_diff]
    intro y hy
    simp only [List.mem_cons, List.not_mem_nil, or_false] at hy
    rcases hy with rfl | rfl | rfl | rfl | rfl | rfl <;> norm_num
  · intro p hp
    simp only [List.mem_cons, List.not_mem_nil, or_false] at hp
    rcases hp with rfl | rfl | rfl <;> norm_num
  · exact ⟨(100, 5), by simp, (200, 11), by simp, by norm_num⟩
  · rw [eT, eF]; norm_num
  · refine Lin.best_of_normal ?_ ⟨(100, 5), by simp, (200, 11), by simp, by norm_num⟩ ?_ ?_
    · intro p hp
      simp only [List.mem_cons, List.not_mem_nil, or_false] at hp
      rcases hp with rfl | rfl | rfl <;> norm_num
    · show 387 / 7340 * sumXXYY _ + -75 / 367 * sumXYY _ = sumXY _
      rw [eA, eB, eC]; norm_num
    · show 387 / 7340 * sumXYY _ + -75 / 367 * sumYY _ = sumY _
      rw [eB, eD, eE]; norm_num

/-- the hypotheses of the theorems on decibel are met: `SNR_max_dB` of this measurement is right to 10⁻¹² dB if the logarithm is
right to 10⁻¹⁵ -/
theorem sampleFew_db (sp : Spatial ℝ) (w : ℝ) (hw : 0 ≤ w) (hw1 : w ≤ 1 / 10 ^ 15) (lg : RLog w) :
    let r := { sampleFew with spatial := sp }
    ∃ v', val (SNRMaxDB (exactLSQ ℝ)) r = .ok (.fin (20 * Real.logb 10 (Real.sqrt 150))) ∧
      val (Rounded.SNRMaxDB Rounding.binary64 (exactLSQ ℝ) lg) r = .ok (.fin v') ∧
      |v' - 20 * Real.logb 10 (Real.sqrt 150)| ≤ 1 / 10 ^ 12 := by
  intro r
  obtain ⟨hK, hR⟩ := sampleReal_KR (exactLSQ ℝ) exactLSQ_good
  rw [← sampleFew_K _ sp] at hK
  rw [← sampleFew_R _ sp] at hR
  obtain ⟨-, -, -, -, ⟨-, σ, -, hσ, hσ0, -⟩, hrel⟩ := sampleFew_accurate sp
  obtain ⟨qe, pm, em, es, dr, snr, -, -, -, -, -, hsnr, rfl, -, -, -, -, rfl, -, -, h0, hsq, -⟩ :=
    C30_consistency (exactLSQ ℝ) r (1 / 10) (1 / 10 * (1 / 2)) σ 300 (by norm_num) (by norm_num) hσ0 (by norm_num) hK hR hσ rfl
  have hs : snr = Real.sqrt 150 := by
    rw [← Real.sqrt_sq h0, hsq]; norm_num
  rw [hs] at hsnr
  obtain ⟨v', h1, h2, h3⟩ := C97_snr_db Rounding.binary64 lg (exactLSQ ℝ) (exactLSQ ℝ) r _ hrel (by norm_num) _ hsnr
    (Real.sqrt_pos.2 (by norm_num)) hw
  refine ⟨v', h1, h2, h3.trans ?_⟩
  have hl : Real.logb 10 (Real.sqrt 150) = Real.logb 10 150 / 2 := by
    rw [Real.sqrt_eq_rpow, Real.logb_rpow_eq_mul_logb_of_pos (by norm_num)]; ring
  have hl0 : 0 ≤ Real.logb 10 150 := Real.logb_nonneg (by norm_num) (by norm_num)
  have hl3 : Real.logb 10 150 ≤ 3 := by
    rw [Real.logb_le_iff_le_rpow (by norm_num) (by norm_num)]; norm_num
  have habs : |20 * Real.logb 10 (Real.sqrt 150)| ≤ 30 := by
    rw [hl, abs_of_nonneg (by linarith)]; linarith
  have hG : (1 + 2 ^ (-53 : ℤ)) * (1 + w) ≤ (1 + 2 ^ (-53 : ℤ)) * (1 + 1 / 10 ^ 15) :=
    mul_le_mul_of_nonneg_left (by linarith) (by norm_num)
  have hG0 : 0 ≤ (1 + 2 ^ (-53 : ℤ)) * (1 + w) - 1 := by
    have : (1 : ℝ) ≤ 1 + 2 ^ (-53 : ℤ) := by norm_num
    nlinarith
  have t1 := mul_le_mul_of_nonneg_right hG (by norm_num : (0 : ℝ) ≤ 9 * (1 / 10 ^ 14 / (1 - 1 / 10 ^ 14)))
  have t2 := mul_le_mul (sub_le_sub_right hG 1) habs (abs_nonneg _) (by norm_num)
  refine (add_le_add t1 t2).trans ?_
  norm_num

end Emva
