import Verif.Props.C95Data
import Verif.Props.C59Example

/-!
C95: float64, and a measurement that meets the hypotheses.
-/
set_option autoImplicit false
namespace Emva
open Spec Data Results Fit

/-- C95: the bounds of `C95_measurement` for float64: with an exact solver all results have a relative error of at most 10⁻¹⁴, and
with a solver whose slopes are good to four digits (`ρ`) at most 10⁻³. -/
theorem C95_float64 : (3 : ℝ) / 4 ≤ (1 - 0) ^ 2 * (1 - 2 ^ (-53 : ℤ)) ^ 13 ∧
    (1 : ℝ) ≤ ((1 - 0) ^ 7 * (1 - 2 ^ (-53 : ℤ)) ^ 46) * (1 + 1 / 10 ^ 14) ∧
    ∀ ρ : ℝ, ρ ≤ 1 / 10 ^ 4 → 3 / 4 ≤ (1 - ρ) ^ 2 * (1 - 2 ^ (-53 : ℤ)) ^ 13 ∧
      1 ≤ ((1 - ρ) ^ 7 * (1 - 2 ^ (-53 : ℤ)) ^ 46) * (1 + 1 / 10 ^ 3) := by
  refine ⟨by norm_num, by norm_num, fun ρ h => ?_⟩
  have hc : 1 - 1 / 10 ^ 4 ≤ 1 - ρ := by linarith
  have h2 := pow_le_pow_left₀ (by norm_num) hc 2
  have h7 := pow_le_pow_left₀ (by norm_num) hc 7
  constructor
  · refine le_trans ?_ (mul_le_mul_of_nonneg_right h2 (by norm_num))
    norm_num
  · refine le_trans ?_ (mul_le_mul_of_nonneg_right (mul_le_mul_of_nonneg_right h7 (by norm_num)) (by norm_num))
    norm_num

/-- the measurement of `sampleReal` with one exposure time -/
noncomputable def sampleFew : Res ℝ := { sampleReal with temporal := { sampleReal.temporal with texp := [1, 1, 1, 1, 1] } }

theorem sampleFew_K (q : LSQ ℝ) (sp : Spatial ℝ) : val (K q) { sampleFew with spatial := sp } = val (K q) sampleReal := by
  rw [val_K, val_K]; rfl
theorem sampleFew_R (q : LSQ ℝ) (sp : Spatial ℝ) : val (R q) { sampleFew with spatial := sp } = val (R q) sampleReal := by
  rw [val_R, val_R]; rfl

/-- the hypotheses of `C95_measurement` are met, whatever the spatial data are -/
theorem sampleFew_accurate (sp : Spatial ℝ) : let r := { sampleFew with spatial := sp }
    RelError (1 / 10 ^ 14) (val (Rounded.gain Rounding.binary64 (exactLSQ ℝ)) r) (val (K (exactLSQ ℝ)) r) ∧
    val (K (exactLSQ ℝ)) r = .ok (.fin (1 / 10)) ∧
    RelError (1 / 10 ^ 14) (val (Rounded.QE Rounding.binary64 (exactLSQ ℝ)) r) (val (QE (exactLSQ ℝ)) r) ∧
    RelError (1 / 10 ^ 14) (val (Rounded.DR Rounding.binary64 (exactLSQ ℝ)) r) (val (DR (exactLSQ ℝ)) r) ∧
    RelError (1 / 10 ^ 14) (val (Rounded.sigmaYDark Rounding.binary64 (exactLSQ ℝ)) r) (val (sigmaYDark (exactLSQ ℝ)) r) ∧
    RelError (1 / 10 ^ 14) (val (Rounded.SNRMax Rounding.binary64 (exactLSQ ℝ)) r) (val (SNRMax (exactLSQ ℝ)) r) := by
  intro r
  have hq : (exactLSQ ℝ).Good := exactLSQ_good
  obtain ⟨hK, hR⟩ := sampleReal_KR (exactLSQ ℝ) hq
  rw [← sampleFew_K _ sp] at hK
  rw [← sampleFew_R _ sp] at hR
  obtain ⟨n1, n2, -⟩ := C95_float64
  have hz : ((diff [10, 15, 20, 25, 27] [10, 10, 10, 10, (10 : ℝ)]).zip
      (diff [1, 1 + 1 / 2, 2, 2 + 1 / 2, 1] [1, 1, 1, 1, (1 : ℝ)])).take (2 + 1) = [(0, 0), (5, 1 / 2), (10, 1)] := by
    norm_num [diff]
  have hz' : (sampleFew.temporal.u_p.zip (diff [10, 15, 20, 25, 27] [10, 10, 10, 10, (10 : ℝ)])).take (2 + 1) =
      [(0, 0), (100, 5), (200, 10)] := by
    rw [sampleReal_diff]; rfl
  have main := C95_measurement Rounding.binary64 (by norm_num) (exactLSQ ℝ) (exactLSQ ℝ) hq 0 0 0 ((C94_exact _).2 hq) le_rfl le_rfl
    le_rfl r [10, 15, 20, 25, 27] [10, 10, 10, 10, 10] [1, 1 + 1 / 2, 2, 2 + 1 / 2, 1] [1, 1, 1, 1, 1] n1 (by norm_num)
    rfl rfl rfl rfl rfl rfl rfl rfl ?_ ?_ 3 rfl 15 sampleReal_at (by norm_num) ?_ 2 ?_ ?_ ?_ ?_ ?_ (1 / 10) (1 / 10 * (1 / 2)) 300
    hK (by norm_num) hR (by norm_num) rfl (by norm_num) ?_ ?_ _ n2
  · exact ⟨main.1, hK, main.2.2.2.1, main.2.2.2.2.2.2.2.2.2.2.2, main.2.2.2.2.1, main.2.2.2.2.2.2.2.2.2.1⟩
  · intro x hx
    have : x ∈ [(0 : ℝ), 100, 200, 300, 400] := hx
    simp only [List.mem_cons, List.not_mem_nil, or_false] at this
    have key : ∀ n : ℕ, n ≤ 2 ^ 53 → Rounding.binary64.rnd (n : ℝ) = n := Rounding.binary64.nat
    rcases this with rfl | rfl | rfl | rfl | rfl
    · exact_mod_cast key 0 (by norm_num)
    · exact_mod_cast key 100 (by norm_num)
    · exact_mod_cast key 200 (by norm_num)
    · exact_mod_cast key 300 (by norm_num)
    · exact_mod_cast key 400 (by norm_num)
  · show ([1, 1, 1, 1, (1 : ℝ)]).toFinset.card ≤ 2
    simp
  · rw [sampleReal_diff]
    intro y hy
    simp only [List.mem_cons, List.not_mem_nil, or_false] at hy
    rcases hy with rfl | rfl | rfl | rfl | rfl <;> norm_num
  · exact sampleReal_sens
  · rw [hz]
    intro p hp
    simp only [List.mem_cons, List.not_mem_nil, or_false] at hp
    rcases hp with rfl | rfl | rfl <;> norm_num
  · rw [hz']
    intro p hp
    simp only [List.mem_cons, List.not_mem_nil, or_false] at hp
    rcases hp with rfl | rfl | rfl <;> norm_num
  · rw [sampleReal_diff]
    exact ⟨1, by norm_num, 5, rfl, by norm_num⟩
  · exact ⟨1, by norm_num, 100, rfl, by norm_num⟩
  · simp
  · simp

end Emva
