import Verif.Props.C102Data
import Verif.Props.C99Example

/-!
C102: four pairs of images that meet the hypotheses, in float64.
-/
set_option autoImplicit false
namespace Emva
open Spec Data Results Fit Rounded

/-- an image of two pixels -/
def px2 (x y : ℤ) : Img := ⟨1, 2, fun _ j => if j = 0 then x else y⟩

/-- a pair of images with the mean `m` whose pixels change by `d` -/
noncomputable def shot (m d : ℤ) (p : ℝ) : Shot := ⟨px2 m m, px2 (m + d) (m - d), px2 4 4, px2 (4 + 1) (4 - 1), 1, p⟩

theorem px2_ok {a b c d : ℤ} (ha : 0 ≤ a ∧ a ≤ 255) (hb : 0 ≤ b ∧ b ≤ 255) (hc : 0 ≤ c ∧ c ≤ 255) (hd : 0 ≤ d ∧ d ≤ 255) :
    PairOK 1 2 255 (px2 a b) (px2 c d) := by
  refine ⟨by decide, rfl, rfl, rfl, rfl, ?_, ?_, by norm_num⟩
  · intro r _ j _; simp only [px2]; split <;> assumption
  · intro r _ j _; simp only [px2]; split <;> assumption

theorem px2_mean (x y : ℤ) : imgMean 1 2 (fun i j => ((px2 x y).px i j : ℝ)) = (x + y) / 2 := by
  simp [imgMean, px2, Finset.sum_range_succ]

theorem pair_mean (m d : ℤ) : imagesMean 1 2 (px2 m m) (px2 (m + d) (m - d)) = m := by
  rw [imagesMean, px2_mean, px2_mean]; push_cast; ring

theorem pair_var (m d : ℤ) : imagesVar 1 2 (px2 m m) (px2 (m + d) (m - d)) = d ^ 2 / 2 := by
  simp [imagesVar, imgPopVar, imgMean, px2, Finset.sum_range_succ]
  ring

theorem pair_err (u : ℝ) (m d : ℤ) : pairErr u 1 2 (px2 m m) (px2 (m + d) (m - d)) =
    if d = 0 then 0 else 2 * u * d ^ 2 + 8 * u ^ 2 * m ^ 2 := by
  unfold pairErr
  by_cases h : d = 0
  · subst h; simp
  · have hne : px2 m m ≠ px2 (m + d) (m - d) := fun e => by
      have := congrArg (fun x : Img => x.px 0 0) e
      simp [px2] at this
      exact h this
    rw [if_neg hne, if_neg h, px2_mean, px2_mean]
    have : halfMeanSq 1 2 (fun i j => ((px2 (m + d) (m - d)).px i j : ℝ) - (px2 m m).px i j) = d ^ 2 / 2 := by
      simp [halfMeanSq, px2, Finset.sum_range_succ]
      ring
    simp only [this]
    push_cast
    rw [show ((m : ℝ) + d + (m - d)) / 2 - (m + m) / 2 = 0 by ring]
    simp
    ring

theorem shot_signal (m d : ℤ) (p : ℝ) : signalOf 1 2 (shot m d p) = m - 4 := by
  unfold signalOf shot
  simp only [pair_mean]
  norm_num

theorem shot_noise (m d : ℤ) (p : ℝ) : noiseOf 1 2 (shot m d p) = d ^ 2 / 2 - 1 / 2 := by
  unfold noiseOf shot
  simp only [pair_var]
  norm_num

theorem shot_signalErr (u : ℝ) (m d : ℤ) (p : ℝ) : signalErr u 1 2 (shot m d p) = u * |(m : ℝ) - 4| + (1 + u) * (u * m + u * 4) := by
  unfold signalErr
  rw [shot_signal]
  unfold shot
  simp only [pair_mean]
  norm_num

theorem shot_noiseErr (u : ℝ) (m d : ℤ) (p : ℝ) : noiseErr u 1 2 (shot m d p) = u * |(d : ℝ) ^ 2 / 2 - 1 / 2| +
    (1 + u) * ((if d = 0 then 0 else 2 * u * d ^ 2 + 8 * u ^ 2 * m ^ 2) + (2 * u + 8 * u ^ 2 * 16)) := by
  unfold noiseErr
  rw [shot_noise]
  unfold shot
  simp only [pair_err]
  norm_num

/-- four points; the last one is saturated: its images have no noise -/
noncomputable def shots : List Shot := [shot 8 2 100, shot 12 3 200, shot 20 4 400, shot 24 0 500]

theorem shots_ok : ShotsOK 1 2 255 shots where
  bright := by
    intro s hs
    simp only [shots, List.mem_cons, List.not_mem_nil, or_false] at hs
    rcases hs with rfl | rfl | rfl | rfl <;> exact px2_ok (by norm_num) (by norm_num) (by norm_num) (by norm_num)
  dark := by
    intro s hs
    simp only [shots, List.mem_cons, List.not_mem_nil, or_false] at hs
    rcases hs with rfl | rfl | rfl | rfl <;> exact px2_ok (by norm_num) (by norm_num) (by norm_num) (by norm_num)
  size := by norm_num
  range := by norm_num

/-- the evaluation of the four points without rounding; nothing else matters for the results -/
noncomputable def fromShots (sp : Spatial ℝ) : Res ℝ := ⟨exactTemporal 1 2 shots, sp, none, none⟩

theorem fromShots_diff : diff (shots.map fun s => imagesMean 1 2 s.bright₁ s.bright₂) (shots.map fun s => imagesMean 1 2 s.dark₁ s.dark₂) =
    [4, 8, 16, 20] := by
  rw [diff_map]
  show shots.map (signalOf 1 2) = _
  simp [shots, shot_signal]
  norm_num

theorem fromShots_vdiff : diff (shots.map fun s => imagesVar 1 2 s.bright₁ s.bright₂) (shots.map fun s => imagesVar 1 2 s.dark₁ s.dark₂) =
    [3 / 2, 4, 15 / 2, -1 / 2] := by
  rw [diff_map]
  show shots.map (noiseOf 1 2) = _
  simp [shots, shot_noise]
  norm_num

theorem fromShots_sat (sp : Spatial ℝ) : val indexUysat (fromShots sp) = .ok 2 := by
  have e : (exactTemporal 1 2 shots).s2_y = ([2, 9 / 2, 8, 0].map Fl.fin : List (Fl ℝ)) := by
    rw [(exactTemporal_lists shots_ok).2.2.1]
    simp only [shots, shot, List.map_cons, List.map_nil, pair_var]
    norm_num
  have : satLoop ([2, 9 / 2, 8, 0].map Fl.fin : List (Fl ℝ)) 4 (.fin 0) 0 = .ok 2 := by
    rw [sat_take 3 (a := 0) rfl le_rfl, sat_take 2 (a := 8) rfl (by norm_num),
      sat_stop 1 (a := 9 / 2) (b := 2) rfl rfl (by norm_num) (by norm_num)]
  rw [Nearby.val_indexUysat]
  show Except.map _ (satLoop (exactTemporal 1 2 shots).s2_y (exactTemporal 1 2 shots).s2_y.length (.fin 0) 0) = _
  rw [e]
  show Except.map _ (satLoop ([2, 9 / 2, 8, 0].map Fl.fin : List (Fl ℝ)) 4 (.fin 0) 0) = _
  rw [this]; rfl

theorem fromShots_sens (sp : Spatial ℝ) : val indexSensitivityMax (fromShots sp) = .ok 1 := by
  obtain ⟨e1, e2, -, -⟩ := exactTemporal_lists shots_ok
  refine (((C25_sensitivity_max (fromShots sp) _ _ e1 e2 rfl 2 (fromShots_sat sp)).1 16 ?_).1 _).2 ?_
  · rw [fromShots_diff]; exact .inl ⟨by norm_num, rfl⟩
  · rw [fromShots_diff]
    refine ⟨⟨_, rfl, by norm_num⟩, fun j x hj hx => ?_⟩
    match j, hj with
    | 2, _ => cases hx; norm_num
    | 3, _ => cases hx; norm_num
    | j + 4, _ => simp at hx

theorem fromShots_KR (sp : Spatial ℝ) (q : LSQ ℝ) (hq : q.Good) : val (K q) (fromShots sp) = .ok (.fin (19 / 40)) ∧
    val (Results.R q) (fromShots sp) = .ok (.fin (1 / 25)) := by
  obtain ⟨e1, e2, e3, e4⟩ := exactTemporal_lists shots_ok
  constructor
  · obtain ⟨k, ek, bk⟩ := C66_gain q hq (fromShots sp) _ _ _ _ e1 e2 e3 e4 rfl rfl rfl 1 (fromShots_sens sp)
      (by rw [fromShots_diff]; exact ⟨0, by norm_num, 4, rfl, by norm_num⟩)
    rw [fromShots_diff, fromShots_vdiff] at bk
    have := bestSlope_eq bk ⟨(4, 3 / 2), by simp, by norm_num⟩
    rw [ek, this]
    congr 2
    simp [Sxy, Sxx, Fit.S]
    norm_num
  · obtain ⟨k, ek, bk⟩ := C66_responsivity q hq (fromShots sp) _ _ e1 e2 rfl rfl 1 (fromShots_sens sp)
      ⟨0, by norm_num, 100, rfl, by norm_num⟩
    rw [fromShots_diff] at bk
    have := bestSlope_eq bk ⟨(100, 4), by simp [fromShots, exactTemporal, shots, shot], by norm_num⟩
    rw [ek, this]
    congr 2
    simp [Sxy, Sxx, Fit.S, fromShots, exactTemporal, shots, shot]
    norm_num

/-- the hypotheses of `C102_measurement` hold for the four points in float64 with an exact solver: every result from the images is
right to one part in 10¹². -/
theorem shots_accurate (S : RSum Rounding.binary64) (sp sp' : Spatial ℝ) :
    let r := fromShots sp
    let r' : Res ℝ := ⟨Rounded.temporal Rounding.binary64 S 1 2 shots, sp', none, none⟩
    RelError (1 / 10 ^ 12) (val (Rounded.gain Rounding.binary64 (exactLSQ ℝ)) r') (val (K (exactLSQ ℝ)) r) ∧
    RelError (1 / 10 ^ 12) (val (Rounded.QE Rounding.binary64 (exactLSQ ℝ)) r') (val (QE (exactLSQ ℝ)) r) ∧
    RelError (1 / 10 ^ 12) (val (Rounded.sigmaYDark Rounding.binary64 (exactLSQ ℝ)) r') (val (sigmaYDark (exactLSQ ℝ)) r) ∧
    RelError (1 / 10 ^ 12) (val (Rounded.uPMin Rounding.binary64 (exactLSQ ℝ)) r') (val (uPMin (exactLSQ ℝ)) r) ∧
    RelError (1 / 10 ^ 12) (val (Rounded.DR Rounding.binary64 (exactLSQ ℝ)) r') (val (DR (exactLSQ ℝ)) r) := by
  intro r r'
  have hq : (exactLSQ ℝ).Good := exactLSQ_good
  obtain ⟨hK, hR⟩ := fromShots_KR sp (exactLSQ ℝ) hq
  have hsig : ∀ m d : ℤ, ∀ p, (shot m d p).photons = p := fun _ _ _ => rfl
  have main := C102_measurement Rounding.binary64 S (by norm_num) (exactLSQ ℝ) (exactLSQ ℝ) hq 0 0 0 (1 / 10 ^ 14) ((C94_exact _).2 hq) le_rfl
    le_rfl (by norm_num) (by norm_num) (by norm_num) (by norm_num) shots_ok r r' rfl rfl rfl ?_ (.inr ⟨?_, ?_⟩) 2 (fromShots_sat sp)
    (shot 20 4 400) (.inl ⟨by norm_num, rfl⟩) ?_ 1 (fromShots_sens sp) ?_ ?_ (by norm_num [hsig]) ?_ _ _ hK (by norm_num) hR (by norm_num) ?_
    (1 / 10 ^ 12) (by norm_num)
  · exact ⟨main.1, main.2.2.2.1, main.2.2.2.2.1, main.2.2.2.2.2.2.1, main.2.2.2.2.2.2.2.2.2.2.2⟩
  · simp [shots, shot]
  · simp only [shots, shot, List.pairwise_cons, List.mem_cons, List.not_mem_nil, or_false, forall_eq_or_imp, forall_eq, pair_var, pair_err,
      Apart]
    norm_num
  · intro s hs
    simp only [shots, List.mem_cons, List.not_mem_nil, or_false] at hs
    rcases hs with rfl | rfl | rfl | rfl <;> simp only [shot, pair_var, pair_err, Apart] <;> norm_num
  · intro s hs
    simp only [shots, List.mem_cons, List.not_mem_nil, or_false] at hs
    rcases hs with rfl | rfl | rfl | rfl <;> simp only [shot_signal, shot_signalErr] <;> norm_num
  · exact ⟨shot 8 2 100, by simp [shots], by rw [shot_signal]; norm_num⟩
  · exact ⟨shot 8 2 100, by simp [shots], by norm_num [hsig]⟩
  · refine ⟨⟨?_, ?_, ?_⟩, ?_⟩
    · simp only [shots, List.take_succ_cons, List.take_zero, List.map_cons, List.map_nil, shot_signal, shot_noise, shot_signalErr, shot_noiseErr]
      norm_num
    · simp only [shots, List.take_succ_cons, List.take_zero, List.map_cons, List.map_nil, shot_signal, shot_noise, shot_signalErr, shot_noiseErr]
      norm_num
    · simp only [shots, List.take_succ_cons, List.take_zero, List.map_cons, List.map_nil, shot_signal, shot_noise, shot_signalErr, hsig]
      norm_num
    · intro s hs
      simp only [shots, List.take_succ_cons, List.head?_cons, Option.mem_def, Option.some.injEq] at hs
      subst hs
      simp only [shot, pair_var, pair_err]
      norm_num
  · constructor <;> simp

/-- the hypotheses of `C102_data` hold for one exposure with three series of identical or different images -/
example : ∃ t e, getTemporal (1 * 2) ([(1, [(0, temporalEntry ℝ i64 [px2 0 0, px2 0 0]), (100, temporalEntry ℝ i64 [px2 100 100, px2 100 100])])]) = .ok t ∧
    t = exactTemporal 1 2 (t.u_p.map fun p => ⟨px2 ⌊p⌋ ⌊p⌋, px2 ⌊p⌋ ⌊p⌋, px2 ⌊(0 : ℝ)⌋ ⌊(0 : ℝ)⌋, px2 ⌊(0 : ℝ)⌋ ⌊(0 : ℝ)⌋, e, p⟩) := by
  set d : Loader.KindData ℝ (TemporalEntry ℝ) :=
    [(1, [(0, temporalEntry ℝ i64 [px2 0 0, px2 0 0]), (100, temporalEntry ℝ i64 [px2 100 100, px2 100 100])])] with hd
  have hw : WF2 d := by
    refine ⟨by simp [hd, Dict.WF, Dict.keys], fun e i hi => ?_⟩
    have := Dict.get?_mem hi
    simp only [hd, List.mem_singleton, Prod.mk.injEq] at this
    rw [this.2]
    simp [Dict.WF, Dict.keys]
  have hget : ∀ e p v, get2 d e p = some v → (p = 0 ∧ v = temporalEntry ℝ i64 [px2 0 0, px2 0 0]) ∨
      (p = 100 ∧ v = temporalEntry ℝ i64 [px2 100 100, px2 100 100]) := by
    intro e p v h
    obtain ⟨i, hi, hv⟩ := Option.bind_eq_some_iff.1 h
    have := Dict.get?_mem hi
    simp only [hd, List.mem_singleton, Prod.mk.injEq] at this
    rw [this.2] at hv
    have := Dict.get?_mem hv
    simpa using this
  have hp : Paired d := by
    intro e i hi
    have := Dict.get?_mem hi
    simp only [hd, List.mem_singleton, Prod.mk.injEq] at this
    rw [this.2]
    exact ⟨⟨temporalEntry ℝ i64 [px2 0 0, px2 0 0], by simp [Dict.get?]⟩, 100, temporalEntry ℝ i64 [px2 100 100, px2 100 100], by norm_num,
      by simp [Dict.get?]⟩
  obtain ⟨t, ht⟩ := (C17_acceptance (1 * 2) d hw).1 hp
  obtain ⟨e, -, h⟩ := C102_data 1 2 d hw (fun e p v h => by rcases hget e p v h with ⟨rfl, -⟩ | ⟨rfl, -⟩ <;> norm_num) t ht rfl
    (fun p => (px2 ⌊p⌋ ⌊p⌋, px2 ⌊p⌋ ⌊p⌋)) (fun e p v h => by
      rcases hget e p v h with ⟨rfl, rfl⟩ | ⟨rfl, rfl⟩
      · simp
      · have : ⌊(100 : ℝ)⌋ = 100 := by norm_num
        simp [this])
  exact ⟨t, e, ht, h⟩

end Emva
