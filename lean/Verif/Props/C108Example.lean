import Verif.Props.C108Float
import Verif.Props.C102Example

/-!
C108: four pairs of images at four exposure times that meet the hypotheses, in float64.
-/
set_option autoImplicit false
namespace Emva
open Spec Data Results Fit Rounding

/-- bright images with the mean `m` whose pixels change by `d`, dark images with the mean `D` whose pixels change by `c`, exposure time
`t` -/
noncomputable def warm (m d D c : ℤ) (t p : ℝ) : Shot := ⟨px2 m m, px2 (m + d) (m - d), px2 D D, px2 (D + c) (D - c), t, p⟩

section
variable (u : ℝ) (m d D c : ℤ) (t p : ℝ)

theorem warm_signal : signalOf 1 2 (warm m d D c t p) = m - D := by
  unfold signalOf warm; simp only [pair_mean]

theorem warm_noise : noiseOf 1 2 (warm m d D c t p) = d ^ 2 / 2 - c ^ 2 / 2 := by
  unfold noiseOf warm; simp only [pair_var]

theorem warm_signalErr : signalErr u 1 2 (warm m d D c t p) = u * |(m : ℝ) - D| + (1 + u) * (u * m + u * D) := by
  unfold signalErr
  rw [warm_signal]
  unfold warm
  simp only [pair_mean]

theorem warm_noiseErr : noiseErr u 1 2 (warm m d D c t p) = u * |(d : ℝ) ^ 2 / 2 - c ^ 2 / 2| +
    (1 + u) * ((if d = 0 then 0 else 2 * u * d ^ 2 + 8 * u ^ 2 * m ^ 2) + (if c = 0 then 0 else 2 * u * c ^ 2 + 8 * u ^ 2 * D ^ 2)) := by
  unfold noiseErr
  rw [warm_noise]
  unfold warm
  simp only [pair_err]

end

/-- four points at different exposure times; the last one is saturated -/
noncomputable def warms : List Shot :=
  [warm 8 2 4 1 (1 / 2) 100, warm 15 4 7 2 (7 / 2) 200, warm 28 5 12 3 (17 / 2) 400, warm 39 0 19 4 (31 / 2) 500]

theorem warms_ok : ShotsOK 1 2 255 warms where
  bright := by
    intro s hs
    simp only [warms, List.mem_cons, List.not_mem_nil, or_false] at hs
    rcases hs with rfl | rfl | rfl | rfl <;> exact px2_ok (by norm_num) (by norm_num) (by norm_num) (by norm_num)
  dark := by
    intro s hs
    simp only [warms, List.mem_cons, List.not_mem_nil, or_false] at hs
    rcases hs with rfl | rfl | rfl | rfl <;> exact px2_ok (by norm_num) (by norm_num) (by norm_num) (by norm_num)
  size := by norm_num
  range := by norm_num

/-- the evaluation of the four points without rounding -/
noncomputable def fromWarms (sp : Spatial ℝ) : Res ℝ := ⟨exactTemporal 1 2 warms, sp, none, none⟩

theorem fromWarms_diff : diff (warms.map fun s => imagesMean 1 2 s.bright₁ s.bright₂) (warms.map fun s => imagesMean 1 2 s.dark₁ s.dark₂) =
    [4, 8, 16, 20] := by
  rw [diff_map]
  show warms.map (signalOf 1 2) = _
  simp [warms, warm_signal]
  norm_num

theorem fromWarms_vdiff : diff (warms.map fun s => imagesVar 1 2 s.bright₁ s.bright₂) (warms.map fun s => imagesVar 1 2 s.dark₁ s.dark₂) =
    [3 / 2, 6, 8, -8] := by
  rw [diff_map]
  show warms.map (noiseOf 1 2) = _
  simp [warms, warm_noise]
  norm_num

theorem fromWarms_sat (sp : Spatial ℝ) : val indexUysat (fromWarms sp) = .ok 2 := by
  have e : (exactTemporal 1 2 warms).s2_y = ([2, 8, 25 / 2, 0].map Fl.fin : List (Fl ℝ)) := by
    rw [(exactTemporal_lists warms_ok).2.2.1]
    simp only [warms, warm, List.map_cons, List.map_nil, pair_var]
    norm_num
  have : satLoop ([2, 8, 25 / 2, 0].map Fl.fin : List (Fl ℝ)) 4 (.fin 0) 0 = .ok 2 := by
    rw [sat_take 3 (a := 0) rfl le_rfl, sat_take 2 (a := 25 / 2) rfl (by norm_num),
      sat_stop 1 (a := 8) (b := 2) rfl rfl (by norm_num) (by norm_num)]
  rw [Nearby.val_indexUysat]
  show Except.map _ (satLoop (exactTemporal 1 2 warms).s2_y (exactTemporal 1 2 warms).s2_y.length (.fin 0) 0) = _
  rw [e]
  show Except.map _ (satLoop ([2, 8, 25 / 2, 0].map Fl.fin : List (Fl ℝ)) 4 (.fin 0) 0) = _
  rw [this]; rfl

theorem fromWarms_sens (sp : Spatial ℝ) : val indexSensitivityMax (fromWarms sp) = .ok 1 := by
  obtain ⟨e1, e2, -, -⟩ := exactTemporal_lists warms_ok
  refine (((C25_sensitivity_max (fromWarms sp) _ _ e1 e2 rfl 2 (fromWarms_sat sp)).1 16 ?_).1 _).2 ?_
  · rw [fromWarms_diff]; exact .inl ⟨by norm_num, rfl⟩
  · rw [fromWarms_diff]
    refine ⟨⟨_, rfl, by norm_num⟩, fun j x hj hx => ?_⟩
    match j, hj with
    | 2, _ => cases hx; norm_num
    | 3, _ => cases hx; norm_num
    | j + 4, _ => simp at hx

theorem fromWarms_KR (sp : Spatial ℝ) (q : LSQ ℝ) (hq : q.Good) : val (K q) (fromWarms sp) = .ok (.fin (27 / 40)) ∧
    val (Results.R q) (fromWarms sp) = .ok (.fin (1 / 25)) := by
  obtain ⟨e1, e2, e3, e4⟩ := exactTemporal_lists warms_ok
  constructor
  · obtain ⟨k, ek, bk⟩ := C66_gain q hq (fromWarms sp) _ _ _ _ e1 e2 e3 e4 rfl rfl rfl 1 (fromWarms_sens sp)
      (by rw [fromWarms_diff]; exact ⟨0, by norm_num, 4, rfl, by norm_num⟩)
    rw [fromWarms_diff, fromWarms_vdiff] at bk
    have := bestSlope_eq bk ⟨(4, 3 / 2), by simp, by norm_num⟩
    rw [ek, this]
    congr 2
    simp [Sxy, Sxx, Fit.S]
    norm_num
  · obtain ⟨k, ek, bk⟩ := C66_responsivity q hq (fromWarms sp) _ _ e1 e2 rfl rfl 1 (fromWarms_sens sp)
      ⟨0, by norm_num, 100, rfl, by norm_num⟩
    rw [fromWarms_diff] at bk
    have := bestSlope_eq bk ⟨(100, 4), by simp [fromWarms, exactTemporal, warms, warm], by norm_num⟩
    rw [ek, this]
    congr 2
    simp [Sxy, Sxx, Fit.S, fromWarms, exactTemporal, warms, warm]
    norm_num

theorem warms_means : darkMeans 1 2 warms = [(1 / 2, 4), (7 / 2, 7), (17 / 2, 12), (31 / 2, 19)] := by
  simp only [darkMeans, warms, warm, List.map_cons, List.map_nil, pair_mean]
  norm_num

theorem warms_vars : darkVars 1 2 warms = [(1 / 2, 1 / 2), (7 / 2, 2), (17 / 2, 9 / 2), (31 / 2, 8)] := by
  simp only [darkVars, warms, warm, List.map_cons, List.map_nil, pair_var]
  norm_num

theorem warms_lines : BestLine (darkMeans 1 2 warms) 1 (7 / 2) ∧ BestLine (darkVars 1 2 warms) (1 / 2) (1 / 4) := by
  rw [warms_means, warms_vars]
  constructor
  · refine bestLine_of_normal ⟨(1 / 2, 4), by simp, (7 / 2, 7), by simp, by norm_num⟩ ?_ ?_ <;> norm_num [Sxx, Sx, Sxy, Sy, Fit.S]
  · refine bestLine_of_normal ⟨(1 / 2, 1 / 2), by simp, (7 / 2, 2), by simp, by norm_num⟩ ?_ ?_ <;> norm_num [Sxx, Sx, Sxy, Sy, Fit.S]

theorem warms_meansErr (u : ℝ) : darkMeansErr u 1 2 warms = (u * 4) ^ 2 + ((u * 7) ^ 2 + ((u * 12) ^ 2 + (u * 19) ^ 2)) := by
  simp only [darkMeansErr, warms, warm, List.map_cons, List.map_nil, pair_mean, List.sum_cons, List.sum_nil]
  norm_num

theorem warms_varsErr (u : ℝ) : darkVarsErr u 1 2 warms = (2 * u + 128 * u ^ 2) ^ 2 + ((8 * u + 392 * u ^ 2) ^ 2 +
    ((18 * u + 1152 * u ^ 2) ^ 2 + (32 * u + 2888 * u ^ 2) ^ 2)) := by
  simp only [darkVarsErr, warms, warm, List.map_cons, List.map_nil, pair_err, List.sum_cons, List.sum_nil]
  norm_num
  ring

/-- the hypotheses of `C108_float64` hold for the four points with an exact solver and sums from left to right: dark noise and dark
currents of the computer are finite and right to one part in 10¹¹, and the current from the variance is a number. -/
theorem warms_computed (sp sp' : Spatial ℝ) :
    let r := fromWarms sp
    let r' : Res ℝ := ⟨Ieee.temporal ISum.left 1 2 warms, sp', none, none⟩
    RelError (1 / 10 ^ 11) (val (Ieee.gain (exactLSQ ℝ)) r') (val (K (exactLSQ ℝ)) r) ∧
    RelError (1 / 10 ^ 11) (val (Ieee.sigmaYDark (exactLSQ ℝ)) r') (val (sigmaYDark (exactLSQ ℝ)) r) ∧
    RelErrorNum (1 / 10 ^ 11) (val (Ieee.uIMean (exactLSQ ℝ)) r') (val (uIMean (exactLSQ ℝ)) r) ∧
    RelErrorNum (1 / 10 ^ 11) (val (Ieee.uIVar (exactLSQ ℝ)) r') (val (uIVar (exactLSQ ℝ)) r) ∧
    val (Ieee.uIVarDN (exactLSQ ℝ)) r' ≠ .ok .npnan := by
  intro r r'
  have hq : (exactLSQ ℝ).Good := exactLSQ_good
  obtain ⟨hK, hR⟩ := fromWarms_KR sp (exactLSQ ℝ) hq
  obtain ⟨hM, hV⟩ := warms_lines
  have hph : ∀ m d D c t p, (warm m d D c t p).photons = p := fun _ _ _ _ _ _ => rfl
  have main := C108_float64 ISum.left (exactLSQ ℝ) (exactLSQ ℝ) hq 0 0 0 (1 / 10 ^ 13) ((C94_exact _).2 hq) le_rfl
    le_rfl (by norm_num) (by norm_num) (by norm_num) (by norm_num) warms_ok (by norm_num [ISum.left]) r r' rfl rfl rfl ?_ (.inr ⟨?_, ?_⟩) 2
    (fromWarms_sat sp) (warm 28 5 12 3 (17 / 2) 400) (.inl ⟨by norm_num, rfl⟩) ?_ 1 (fromWarms_sens sp) ?_ ?_ (by norm_num [hph]) (by norm_num [hph]) ?_
    _ _ hK (by norm_num) (by norm_num) hR (by norm_num) (by norm_num) ?_ (1 / 2) (1 / 4) hV (by norm_num) ?_ (1 / 10 ^ 11) (by norm_num) (by norm_num)
  · obtain ⟨c1, c2, c3, c4, c5⟩ := main.2 1 (7 / 2) hM (.inr (by norm_num)) (.inr (by norm_num [abs_of_pos]))
      (by rw [lineErr, warms_meansErr, warms_means]; norm_num [spread]) (by rw [lineErr, warms_varsErr, warms_vars]; norm_num [spread])
    exact ⟨main.1.1, main.1.2.2.2.2.1, c2, c4, fun h => absurd (c5.1 h) (by norm_num)⟩
  · show 2 < ([1 / 2, 7 / 2, 17 / 2, 31 / 2] : List ℝ).toFinset.card
    rw [List.toFinset_card_of_nodup (by norm_num)]
    simp
  · simp only [warms, warm, List.pairwise_cons, List.mem_cons, List.not_mem_nil, or_false, forall_eq_or_imp, forall_eq, pair_var, pair_err,
      Apart]
    norm_num
  · intro s hs
    simp only [warms, List.mem_cons, List.not_mem_nil, or_false] at hs
    rcases hs with rfl | rfl | rfl | rfl <;> simp only [warm, pair_var, pair_err, Apart] <;> norm_num
  · intro s hs
    simp only [warms, List.mem_cons, List.not_mem_nil, or_false] at hs
    rcases hs with rfl | rfl | rfl | rfl <;> simp only [warm_signal, warm_signalErr] <;> norm_num
  · exact ⟨warm 8 2 4 1 (1 / 2) 100, by simp [warms], by rw [warm_signal]; norm_num⟩
  · exact ⟨warm 8 2 4 1 (1 / 2) 100, by simp [warms], by norm_num [hph]⟩
  · refine ⟨?_, ?_, ?_⟩
    · simp only [warms, List.take_succ_cons, List.take_zero, List.map_cons, List.map_nil, warm_signal, warm_noise, warm_signalErr, warm_noiseErr]
      norm_num
    · simp only [warms, List.take_succ_cons, List.take_zero, List.map_cons, List.map_nil, warm_signal, warm_noise, warm_signalErr, warm_noiseErr]
      norm_num
    · simp only [warms, List.take_succ_cons, List.take_zero, List.map_cons, List.map_nil, warm_signal, warm_noise, warm_signalErr, hph]
      norm_num
  · constructor <;> simp
  · rw [lineErr, warms_varsErr, warms_vars]; norm_num [lever, weight]

end Emva
