import Verif.Props.C100
import Verif.Props.C99Example

/-!
Examples for C100: the sample measurement, the same with constant variances, with falling variances, and without signal.
-/
set_option autoImplicit false
namespace Emva
open Results Spec

example (q : LSQ ℝ) (hq : q.Good) : Plausible q sampleReal := by
  obtain ⟨hK, hR⟩ := sampleReal_KR q hq
  exact (C100_plausible q hq sampleReal [1, 1, 1, 1, 1] rfl rfl (by simp) _ _ _ hK hR sampleReal_psat).2
    ⟨by norm_num, by norm_num, by norm_num⟩

/-- the sample with other variances of the bright images -/
noncomputable def sampleVaried (a b : ℝ) : Res ℝ :=
  { sampleReal with temporal := { sampleReal.temporal with s2_y := ([1, 1 + a, 1 + b, 1, 1] : List ℝ).map .fin } }

theorem sampleVaried_sens (a b : ℝ) : val indexSensitivityMax (sampleVaried a b) = .ok 2 := by
  refine (((C25_sensitivity_max (sampleVaried a b) _ _ rfl rfl rfl 3 rfl).1 15 sampleReal_at).1 2).2 ?_
  exact (((C25_sensitivity_max sampleReal _ _ rfl rfl rfl 3 sampleReal_sat).1 15 sampleReal_at).1 2).1 sampleReal_sens

theorem sampleVaried_K (q : LSQ ℝ) (hq : q.Good) (a b : ℝ) :
    val (K q) (sampleVaried a b) = .ok (.fin ((5 * a + 10 * b) / 125)) := by
  rw [val_K, signal_fin (sampleVaried a b) [10, 15, 20, 25, 27] [10, 10, 10, 10, 10] rfl rfl rfl,
    show (sampleVaried a b).temporal.s2_y = ([1, 1 + a, 1 + b, 1, 1] : List ℝ).map .fin from rfl,
    show (sampleVaried a b).temporal.s2_ydark = ([1, 1, 1, 1, 1] : List ℝ).map .fin from rfl, bin_sub_fin [1, 1 + a, 1 + b, 1, 1] [1, 1, 1, 1, 1] rfl,
    sampleVaried_sens]
  simp only [except_bind_ok, Np.slice_zero, ← List.map_take, sampleReal_diff]
  obtain ⟨m, e1, -, e2⟩ := Fit.linearB0_fin hq ([0, 5, 10, 15, 17].take (2 + 1))
    ((diff [1, 1 + a, 1 + b, 1, 1] [1, 1, 1, 1, (1 : ℝ)]).take (2 + 1)) rfl ⟨5, by simp, by norm_num⟩
  rw [e1, e2]
  congr 2
  simp [Fit.Sxy, Fit.Sxx, diff]
  ring

theorem sampleVaried_R (q : LSQ ℝ) (hq : q.Good) (a b : ℝ) : val (R q) (sampleVaried a b) = .ok (.fin (1 / 10 * (1 / 2))) := by
  rw [← (sampleReal_KR q hq).2, val_R, val_R, sampleVaried_sens, sampleReal_sens]
  rfl

theorem sampleVaried_dark (q : LSQ ℝ) (hq : q.Good) (a b : ℝ) :
    ∃ σ, val (sigmaYDark q) (sampleVaried a b) = .ok (.fin σ) ∧ 0 < σ ∧ 24 / 100 ≤ σ ^ 2 := by
  obtain ⟨v, σ, -, hs, hσ, -, h24, -⟩ := C31_lower_limit q hq (sampleVaried a b) [1, 1, 1, 1, 1] rfl rfl (by simp)
  exact ⟨σ, hs, hσ, by norm_num at h24 ⊢; exact h24⟩

/-- constant variances -/
example (q : LSQ ℝ) (hq : q.Good) : val (QE q) (sampleVaried 0 0) = .ok (.inf false) ∧ val (DR q) (sampleVaried 0 0) = .ok .nan := by
  obtain ⟨σ, hs, h0, h1⟩ := sampleVaried_dark q hq 0 0
  have hK := sampleVaried_K q hq 0 0
  norm_num at hK
  have h := C100_no_gain q (sampleVaried 0 0) _ σ 300 (by norm_num) h1 h0 (by norm_num) hK (sampleVaried_R q hq 0 0) hs rfl
  exact ⟨h.2.1, h.2.2.2.2.2.2.2.2.2.2.1⟩

/-- falling variances -/
example (q : LSQ ℝ) (hq : q.Good) : val (SNRMax q) (sampleVaried (-1 / 4) (-1 / 2)) = .ok .nan := by
  obtain ⟨σ, hs, h0, h1⟩ := sampleVaried_dark q hq (-1 / 4) (-1 / 2)
  exact (C100_negative_gain q _ _ _ σ 300 (by norm_num) (by norm_num) h1 (by norm_num) (sampleVaried_K q hq _ _)
    (sampleVaried_R q hq _ _) hs rfl).2 _ (by simp)

/-- the sample with the bright images equal to the dark ones in the mean -/
noncomputable def sampleCapped : Res ℝ :=
  { sampleReal with temporal := { sampleReal.temporal with u_y := ([10, 10, 10, 10, 10] : List ℝ).map .fin } }

theorem sampleCapped_ok : DataOk sampleCapped [10, 10, 10, 10, 10] [10, 10, 10, 10, 10] [1, 1 + 1 / 2, 2, 2 + 1 / 2, 1] [1, 1, 1, 1, 1] :=
  { sampleReal_consistent with u_y := rfl, dark := rfl, var := rfl, vard := rfl, photons := rfl, texp := rfl }

example (q : LSQ ℝ) (hq : q.Good) (hst : KeepsStart q) :
    val (K q) sampleCapped = .ok (.fin 1) ∧ val (QE q) sampleCapped = .ok (.fin 0) ∧ val (uPMin q) sampleCapped = .ok (.inf false) := by
  have h := C100_capped q hq hst sampleCapped _ _ _ sampleCapped_ok (by simp) 3 rfl 300 (.inl ⟨by norm_num, rfl⟩) (by norm_num)
  exact ⟨h.1, h.2.2.2.2.1, h.2.2.2.2.2.1⟩

example : val (K (biased 1)) sampleCapped = .ok (.fin 1) ∧ ∃ q : LSQ ℝ, q.Good ∧ val (K q) sampleCapped = .ok (.fin 7) :=
  ⟨(C100_capped _ (biased_good 1) biased_keeps sampleCapped _ _ _ sampleCapped_ok (by simp) 3 rfl 300 (.inl ⟨by norm_num, rfl⟩)
    (by norm_num)).1, C100_undetermined sampleCapped _ _ _ sampleCapped_ok (by simp) 3 rfl ⟨by norm_num, by norm_num⟩ 7⟩

end Emva
