import Verif.Props.C59
import Verif.Props.C33_C34

/-!
A concrete record of a measurement over the reals meeting every hypothesis of the theorems about the SNR
plot (C59): five points, gain 1/10, quantum efficiency 1/2, saturation at the fourth point.
-/
set_option autoImplicit false
namespace Emva
open Results Plots Spec

/-- the ideal data of `sampleIdeal` over the reals, saturation index 3 given -/
noncomputable def sampleReal : Res ℝ := { sampleIdeal ℝ with index_u_ysat := some 3 }

theorem sampleReal_sat : val indexUysat sampleReal = .ok 3 := rfl

theorem sampleReal_psat : val uPSat sampleReal = .ok (.fin 300) := rfl

theorem sampleReal_diff : diff [10, 15, 20, 25, 27] [10, 10, 10, 10, (10 : ℝ)] = [0, 5, 10, 15, 17] := by
  norm_num [diff]

theorem sampleReal_at : AtIndex (diff [10, 15, 20, 25, 27] [10, 10, 10, 10, (10 : ℝ)]) 3 15 := by
  rw [sampleReal_diff]; exact .inl ⟨by norm_num, rfl⟩

theorem sampleReal_sens : val indexSensitivityMax sampleReal = .ok 2 := by
  refine (((C25_sensitivity_max sampleReal _ _ rfl rfl rfl 3 sampleReal_sat).1 15 sampleReal_at).1 2).2 ?_
  rw [sampleReal_diff]
  refine ⟨⟨10, rfl, by norm_num⟩, fun j x hj hx => ?_⟩
  match j, hj with
  | 3, _ => cases hx; norm_num
  | 4, _ => cases hx; norm_num
  | j + 5, _ => simp at hx

theorem sampleReal_KR (q : LSQ ℝ) (hq : q.Good) : val (K q) sampleReal = .ok (.fin (1 / 10)) ∧
    val (R q) sampleReal = .ok (.fin (1 / 10 * (1 / 2))) := by
  have h := C29_recovery q hq sampleReal [10, 15, 20, 25, 27] [10, 10, 10, 10, 10]
    [1, 1 + 1 / 2, 2, 2 + 1 / 2, 1] [1, 1, 1, 1, 1] rfl rfl rfl rfl rfl rfl rfl rfl 2 sampleReal_sens
    (1 / 10) (1 / 2) (by norm_num) ?_ ?_ ?_
  · exact ⟨h.1, h.2.1⟩
  · rw [sampleReal_diff]
    intro i hi y p hy hp
    match i, hi with
    | 0, _ => cases hy; cases hp; norm_num
    | 1, _ => cases hy; cases hp; norm_num
    | 2, _ => cases hy; cases hp; norm_num
  · rw [sampleReal_diff]
    intro i hi y v hy hv
    match i, hi with
    | 0, _ => cases hy; cases hv; norm_num
    | 1, _ => cases hy; cases hv; norm_num
    | 2, _ => cases hy; cases hv; norm_num
  · rw [sampleReal_diff]
    exact ⟨1, by norm_num, 5, rfl, by norm_num⟩

theorem sampleReal_s2 : val (s2Y true) sampleReal = .ok (.fin (9 / 2)) ∧
    val (s2Y false) sampleReal = .ok (.fin 8) := by
  constructor
  · show (Except.ok (Fl.fin (5 : ℝ) - .fin 2 / .fin ((4 : ℕ) : ℝ)) : Except PyErr (Fl ℝ)) = _
    rw [Fl.fin_div (by norm_num), Fl.fin_sub]; norm_num
  · show (Except.ok (Fl.fin (9 : ℝ) - .fin 4 / .fin ((4 : ℕ) : ℝ)) : Except PyErr (Fl ℝ)) = _
    rw [Fl.fin_div (by norm_num), Fl.fin_sub]; norm_num

/-- the hypotheses of `C59_curves` and `C59_order` hold for this measurement, with any correct fit routine -/
example (q : LSQ ℝ) (hq : q.Good) :
    ∃ (data : Drawn) (pm : ℝ) (xs T I S : List ℝ), val (plotSNR q) sampleReal = .ok [data,
        .line (xs.map .fin) (T.map .fin) "Theoretical", .line (xs.map .fin) (I.map .fin) "Ideal",
        .vline (.fin pm), .vline (.fin 300), .line (xs.map .fin) (S.map .fin) "Total SNR"] ∧
      xs.length = 100 ∧ T.length = 100 ∧ I.length = 100 ∧ S.length = 100 ∧
      xs.Pairwise (· < ·) ∧ T.Pairwise (· < ·) ∧ (∀ x ∈ xs, pm ≤ x ∧ x < 300) ∧ xs[0]? = some pm ∧
      (∀ (i : ℕ) (t i' s : ℝ), T[i]? = some t → I[i]? = some i' → S[i]? = some s → s ≤ t ∧ t ≤ i') ∧
      ∀ t, T[0]? = some t → Real.sqrt (1 / 2) ≤ t ∧ t < 1 := by
  obtain ⟨hK, hR⟩ := sampleReal_KR q hq
  obtain ⟨h1, h2⟩ := sampleReal_s2
  have hd := val_dsnu q (stable_s2Y (F := ℝ) true) sampleReal (9 / 2) (1 / 10) h1 (by norm_num) hK
  rw [if_neg (by norm_num)] at hd
  have hp := val_prnu stable_s2Y sampleReal 8 (9 / 2) 50 10 h2 h1 rfl rfl (by norm_num)
  rw [if_neg (by norm_num)] at hp
  refine C59_order q hq sampleReal [1, 1, 1, 1, 1] (1 / 10) (1 / 10 * (1 / 2)) 300 _ _ rfl rfl (by simp)
    (by norm_num) (by norm_num) hK hR sampleReal_psat (by norm_num) hd hp rfl rfl rfl (by norm_num) ?_
  intro pm hpm
  obtain ⟨σ, pm', hs, hσ, hpm', -, rfl, -⟩ := C59_curves q hq sampleReal [1, 1, 1, 1, 1] (1 / 10) (1 / 10 * (1 / 2))
    300 _ _ rfl rfl (by simp) (by norm_num) (by norm_num) hK hR sampleReal_psat (by norm_num) hd hp rfl rfl rfl
  rw [hpm] at hpm'
  cases hpm'
  obtain ⟨v, σ', hv, hs', -, h24, -⟩ := C31_lower_limit q hq sampleReal [1, 1, 1, 1, 1] rfl rfl (by simp)
  rw [hs] at hs'
  cases hs'
  have hv1 : v = 1 := by
    rcases hv with ⟨-, h⟩ | ⟨-, m, h⟩
    · cases h; rfl
    · refine (bestLine_exact h (m := 0) (b := 1) ?_).2
      intro p hp
      have := (List.of_mem_zip hp).2
      simp at this
      simp [this]
  rw [hv1, max_eq_left (by norm_num)] at h24
  have : σ = 1 := by nlinarith
  rw [this]; norm_num

end Emva
