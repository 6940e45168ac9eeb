import Verif.Lemmas.AffineRead
import Verif.Model.AxisLabels
import Verif.Spec.PlotUnits

/-!
The plots of a measurement whose grey values are multiplied by `g`.
-/
set_option autoImplicit false
set_option linter.unusedSectionVars false
namespace Emva
open Spec Results Plots Data Routines

theorem scale_one_fun : (scale (1 : ℝ)) = id := funext fun x => scale_one x

theorem axPlot_rescale (a b : ℝ) (x y : List (Fl ℝ)) (l : String) :
    axPlot (x.map (scale a)) (y.map (scale b)) l = (axPlot x y l).map (redrawn a b) := by
  unfold axPlot
  simp only [List.length_map]
  split <;> rfl

theorem axPlot_rescaleY (b : ℝ) (x y : List (Fl ℝ)) (l : String) :
    axPlot x (y.map (scale b)) l = (axPlot x y l).map (redrawn 1 b) := by
  have := axPlot_rescale 1 b x y l
  rwa [scale_one_fun, List.map_id] at this

theorem rangeMarks_rescale (a b : ℝ) (X Y : List (Fl ℝ)) (i j : ℕ) :
    rangeMarks (X.map (scale a)) (Y.map (scale b)) i j = (rangeMarks X Y i j).map (redrawn a b) := by
  unfold rangeMarks
  simp only [Np.idx_map]
  cases Np.idx X i <;> cases Np.idx X j <;> cases Np.idx Y i <;> cases Np.idx Y j <;> try rfl

theorem rangeMarks_rescaleY (b : ℝ) (X Y : List (Fl ℝ)) (i j : ℕ) :
    rangeMarks X (Y.map (scale b)) i j = (rangeMarks X Y i j).map (redrawn 1 b) := by
  have := rangeMarks_rescale 1 b X Y i j
  rwa [scale_one_fun, List.map_id] at this

theorem redrawn_one (d : Drawn) : redrawn 1 1 d = d := by
  cases d <;> simp [redrawn, scale_one_fun]

section
variable {Q : Temporal ℝ → Spatial ℝ → Prop} {g c : ℤ} {d : ℝ} (hg : 0 < g) (q : LSQ ℝ)
include hg

theorem eqv_indexSensitivityMin : Eqv Q g c d id (indexSensitivityMin (F := ℝ)) indexSensitivityMin := Eqv.pure rfl

theorem eqv_plotSensitivity (hQ : ∀ t s, Q t s → HB0 q g t) :
    Eqv Q g c d (List.map (redrawn 1 (g : ℝ))) (plotSensitivity q) (plotSensitivity q) := by
  have h0 := gF (F := ℝ) hg
  unfold plotSensitivity
  refine eqv_photons.bind fun X => (eqv_signal hg).bind fun Y => ?_
  refine Eqv.bind (s := redrawn 1 (g : ℝ)) (Eqv.lift (axPlot_rescaleY _ _ _ _)) fun d1 => ?_
  refine (eqv_R hg q hQ).bind fun R => ?_
  refine Eqv.bind (s := redrawn 1 (g : ℝ)) (Eqv.lift ?_) fun d2 => ?_
  · rw [← axPlot_rescaleY, List.map_map]
    congr 2
    funext x
    have := scale_mul h0 one_pos R x
    rw [scale_one, mul_one] at this
    exact this
  refine (eqv_indexSensitivityMin hg).bind fun i => (eqv_indexSensitivityMax hg).bind fun j => ?_
  exact Eqv.bind (s := redrawn 1 (g : ℝ)) (Eqv.lift (rangeMarks_rescaleY _ _ _ _ _)) fun d3 => Eqv.pure rfl

theorem eqv_plotPTC (hQ : ∀ t s, Q t s → HB0 q g t) :
    Eqv Q g c d (List.map (redrawn (g : ℝ) ((g : ℝ) ^ 2))) (plotPTC q) (plotPTC q) := by
  have h0 := gF (F := ℝ) hg
  unfold plotPTC
  refine (eqv_signal hg).bind fun X => ?_
  refine Eqv.bind (s := affTemporal (g : ℝ) d) (Eqv.ask fun _ _ => rfl) fun t => ?_
  refine Eqv.bind (s := List.map (scale ((g : ℝ) ^ 2)))
    (Eqv.lift (Np.bin_map _ _ _ _ _ (fun x y => scale_sub _ _ _) _ _)) fun Y => ?_
  refine Eqv.bind (s := redrawn (g : ℝ) ((g : ℝ) ^ 2)) (Eqv.lift (axPlot_rescale _ _ _ _ _)) fun d1 => ?_
  refine (eqv_K hg q hQ).bind fun k => ?_
  refine Eqv.bind (s := redrawn (g : ℝ) ((g : ℝ) ^ 2)) (Eqv.lift ?_) fun d2 => ?_
  · rw [← axPlot_rescale, List.map_map, List.map_map]
    congr 2
    funext x
    simp only [Function.comp]
    rw [scale_mul h0 h0, pow_two]
  refine (eqv_indexUysat hg).bind fun s => ?_
  refine Eqv.bind (s := redrawn (g : ℝ) ((g : ℝ) ^ 2)) (Eqv.lift ?_) fun d3 => ?_
  · simp only [Np.idx_map, id]
    cases Np.idx X s <;> cases Np.idx Y s <;> rfl
  refine (eqv_indexSensitivityMin hg).bind fun i => (eqv_indexSensitivityMax hg).bind fun j => ?_
  exact Eqv.bind (s := redrawn (g : ℝ) ((g : ℝ) ^ 2)) (Eqv.lift (rangeMarks_rescale _ _ _ _ _ _)) fun d4 => Eqv.pure rfl

theorem eqv_plotLinearity : Eqv Q g c d (List.map (redrawn 1 (g : ℝ))) plotLinearity plotLinearity := by
  have h0 := gF (F := ℝ) hg
  unfold plotLinearity
  refine eqv_photons.bind fun X => (eqv_signal hg).bind fun Y => ?_
  refine Eqv.bind (s := redrawn 1 (g : ℝ)) (Eqv.lift (axPlot_rescaleY _ _ _ _)) fun d1 => ?_
  refine (eqv_linearity hg).bind fun l => ?_
  refine Eqv.bind (s := redrawn 1 (g : ℝ)) (Eqv.lift ?_) fun d2 => ?_
  · rw [← axPlot_rescaleY, List.map_map]
    congr 2
    funext x
    simp only [scaleLin, id]
    have := scale_mul h0 one_pos l.fit_slope x
    rw [scale_one, mul_one] at this
    rw [this, scale_add]; rfl
  refine (eqv_indexLinearityMin hg).bind fun i => (eqv_indexLinearityMax hg).bind fun j => ?_
  exact Eqv.bind (s := redrawn 1 (g : ℝ)) (Eqv.lift (rangeMarks_rescaleY _ _ _ _ _)) fun d3 => Eqv.pure rfl

theorem eqv_plotDeviation : Eqv Q g c d id plotDeviation plotDeviation := by
  unfold plotDeviation
  refine (eqv_indexLinearityMin hg).bind fun i => (eqv_indexLinearityMax hg).bind fun j => ?_
  refine eqv_photons.bind fun X => (eqv_linearity hg).bind fun l => ?_
  refine Eqv.bind (s := id) (Eqv.lift map_id_except.symm) fun d1 => ?_
  exact Eqv.bind (s := id) (Eqv.lift map_id_except.symm) fun d2 => Eqv.pure rfl

theorem eqv_plotUyDark : Eqv Q g c 0 (fun p => (p.1.map (redrawn 1 (g : ℝ)), p.2)) plotUyDark plotUyDark := by
  unfold plotUyDark
  refine Eqv.bind (s := affTemporal (g : ℝ) 0) (Eqv.ask fun _ _ => rfl) fun t => ?_
  refine Eqv.bind (s := id) (Eqv.lift map_id_except.symm) fun x => ?_
  exact Eqv.bind (s := redrawn 1 (g : ℝ)) (Eqv.lift (axPlot_rescaleY _ _ _ _)) fun d1 => Eqv.pure rfl

/-! ### spectra -/

theorem dft_smul (n : ℕ) (x : ℕ → ℝ) (a : ℝ) (k : ℕ) : dft n (fun j => a * x j) k = a * dft n x k := by
  unfold dft
  rw [Finset.mul_sum]
  refine Finset.sum_congr rfl fun j _ => ?_
  push_cast; ring

omit hg in
theorem power_of_row {S S' a : ℝ} (ha : 0 < a) (h : S' = a * S) (x y : ℝ) :
    Fl.fin S' / Fl.fin x / Fl.fin y = scale a (Fl.fin S / Fl.fin x / Fl.fin y) := by
  rw [← scale_div_fin ha, ← scale_div_fin ha]
  congr 2
  rw [h]
  simp [scale, aff]

theorem fft1288_scale (y : Img) (rotate : Bool) (n : ℕ) :
    fft1288 ⟨y.h, y.w, fun i j => g * y.px i j⟩ rotate n = (fft1288 y rotate n).map (List.map (scale ((g : ℝ) ^ 2))) := by
  have h0 := gF (F := ℝ) hg
  have key : ∀ z : Img, fftPlain ⟨z.h, z.w, fun i j => g * z.px i j⟩ n = (fftPlain z n).map (List.map (scale ((g : ℝ) ^ 2))) := by
    intro z
    have hm : meanR ⟨z.h, z.w, fun i j => g * z.px i j⟩ = g * meanR z := by
      have ht : (Img.total ⟨z.h, z.w, fun i j => g * z.px i j⟩) = g * z.total := by
        simp [Img.total, Finset.mul_sum]
      unfold meanR
      rw [ht]; push_cast
      exact mul_div_assoc _ _ _
    have hr : ∀ i k, rowPower ⟨z.h, z.w, fun i j => g * z.px i j⟩ i k = (g : ℝ) ^ 2 * rowPower z i k := by
      intro i k
      unfold rowPower
      simp only
      rw [hm]
      have : (fun j => ((g * z.px i j : ℤ) : ℝ) - g * meanR z) = fun j => (g : ℝ) * ((z.px i j : ℝ) - meanR z) := by
        funext j; push_cast; ring
      rw [this, dft_smul hg]
      set f := dft z.w (fun j => (z.px i j : ℝ) - meanR z) k / (Real.sqrt z.w : ℂ) with hf
      have e : ((g : ℝ) : ℂ) * dft z.w (fun j => (z.px i j : ℝ) - meanR z) k / (Real.sqrt z.w : ℂ) = ((g : ℝ) : ℂ) * f := by
        rw [hf, mul_div_assoc]
      rw [e, map_mul, Complex.conj_ofReal]
      have : ((g : ℝ) : ℂ) * f * (((g : ℝ) : ℂ) * (starRingEnd ℂ) f) = (((g : ℝ) ^ 2 : ℝ) : ℂ) * (f * (starRingEnd ℂ) f) := by
        push_cast; ring
      rw [this, Complex.re_ofReal_mul]
    unfold fftPlain
    simp only
    split
    · rfl
    · simp only [Except.map, List.map_map]
      congr 2
      funext k
      simp only [Function.comp, power]
      refine power_of_row (pow_pos h0 2) ?_ _ _
      rw [Finset.mul_sum]
      exact Finset.sum_congr rfl fun i _ => hr i k
  unfold fft1288
  cases rotate
  · exact key y
  · exact key (transpose y)

theorem fftReal_scale (y : RImg) (rotate : Bool) (n : ℕ) :
    fftReal ⟨y.h, y.w, fun i j => g * y.px i j⟩ rotate n = (fftReal y rotate n).map (List.map (scale ((g : ℝ) ^ 2))) := by
  have h0 := gF (F := ℝ) hg
  have hr : ∀ (z : RImg) (i k : ℕ), RImg.rowPower ⟨z.h, z.w, fun i j => g * z.px i j⟩ i k = (g : ℝ) ^ 2 * RImg.rowPower z i k := by
    intro z i k
    have hm : RImg.meanR ⟨z.h, z.w, fun i j => g * z.px i j⟩ = g * RImg.meanR z := by
      unfold RImg.meanR
      simp only [← Finset.mul_sum]
      exact mul_div_assoc _ _ _
    unfold RImg.rowPower
    simp only
    rw [hm]
    have : (fun j => (g * z.px i j : ℝ) - g * RImg.meanR z) = fun j => (g : ℝ) * (z.px i j - RImg.meanR z) := by
      funext j; ring
    rw [this, dft_smul hg]
    set f := dft z.w (fun j => z.px i j - RImg.meanR z) k / (Real.sqrt z.w : ℂ) with hf
    have e : ((g : ℝ) : ℂ) * dft z.w (fun j => z.px i j - RImg.meanR z) k / (Real.sqrt z.w : ℂ) = ((g : ℝ) : ℂ) * f := by
      rw [hf, mul_div_assoc]
    rw [e, map_mul, Complex.conj_ofReal]
    have : ((g : ℝ) : ℂ) * f * (((g : ℝ) : ℂ) * (starRingEnd ℂ) f) = (((g : ℝ) ^ 2 : ℝ) : ℂ) * (f * (starRingEnd ℂ) f) := by
      push_cast; ring
    rw [this, Complex.re_ofReal_mul]
  have key : ∀ z : RImg, ∀ k, RImg.power ⟨z.h, z.w, fun i j => g * z.px i j⟩ n k = scale ((g : ℝ) ^ 2) (RImg.power z n k) := by
    intro z k
    unfold RImg.power
    refine power_of_row (pow_pos h0 2) ?_ _ _
    rw [Finset.mul_sum]
    exact Finset.sum_congr rfl fun i _ => hr z i k
  have fin : ∀ z : RImg, (if (⟨z.h, z.w, fun i j => g * z.px i j⟩ : RImg).w = 0 then Except.error PyErr.valueError
      else Except.ok ((List.range (z.w / 2 + 1)).map (RImg.power ⟨z.h, z.w, fun i j => g * z.px i j⟩ n))) =
      (if z.w = 0 then Except.error PyErr.valueError else Except.ok ((List.range (z.w / 2 + 1)).map (RImg.power z n))).map
        (List.map (scale ((g : ℝ) ^ 2))) := by
    intro z
    simp only
    by_cases e : z.w = 0
    · rw [if_pos e, if_pos e]; rfl
    · rw [if_neg e, if_neg e]
      simp only [Except.map, List.map_map]
      congr 2
      funext k
      exact key _ k
  unfold fftReal
  cases rotate
  · exact fin y
  · exact fin (RImg.transpose y)

theorem eqv_sumDark0 : Eqv Q g 0 d (fun y => ⟨y.h, y.w, fun i j => g * y.px i j⟩) (sumDark (F := ℝ)) sumDark := by
  unfold sumDark
  refine (eqv_spat true).bind fun s => Eqv.pure ?_
  simp [affSpatialData]

theorem eqv_sumDiff0 : Eqv Q g 0 d (fun y => ⟨y.h, y.w, fun i j => g * y.px i j⟩) (sumDiff (F := ℝ)) sumDiff := by
  unfold sumDiff
  refine (eqv_spat false).bind fun b => (eqv_spat true).bind fun e => ?_
  refine Eqv.ite Iff.rfl (fun _ => Eqv.pure ?_) fun _ => Eqv.lift rfl
  simp [affSpatialData, mul_sub]

omit hg in
theorem freqs_map (s : List (Fl ℝ)) (f : Fl ℝ → Fl ℝ) : freqs (s.map f) = freqs s := by simp [freqs]

theorem eqv_spectrogramDSNU (rotate : Bool) :
    Eqv Q g 0 d (List.map (redrawn 1 (g : ℝ))) (spectrogramDSNU rotate) (spectrogramDSNU rotate) := by
  have h0 := gF (F := ℝ) hg
  unfold spectrogramDSNU
  refine (eqv_sumDark0 hg).bind fun y => (eqv_spat false).bind fun s => ?_
  refine Eqv.bind (s := List.map (scale ((g : ℝ) ^ 2))) (Eqv.lift (fft1288_scale hg y rotate s.L)) fun sp => ?_
  refine Eqv.bind (s := redrawn 1 (g : ℝ)) (Eqv.lift ?_) fun d1 => ?_
  · rw [← axPlot_rescaleY, freqs_map, List.map_map, List.map_map]
    congr 2
    funext x
    exact sqrt_scale h0 x
  refine (eqv_DSNU1288DN hg).bind fun m => ?_
  refine Eqv.bind (s := scale (g : ℝ)) (Eqv.lift ?_) fun m => ?_
  · cases m <;> rfl
  refine (eqv_sigma2YStack true).bind fun v => Eqv.pure ?_
  rw [sqrt_scale h0]; rfl

theorem eqv_dataPRNU : Eqv Q g 0 d (fun y => ⟨y.h, y.w, fun i j => g * y.px i j⟩) dataPRNU dataPRNU := by
  unfold dataPRNU
  refine (eqv_sumDiff0 hg).bind fun y => (eqv_spat false).bind fun s => Eqv.pure ?_
  simp [affSpatialData, mul_div_assoc]

/-- what becomes of a bright spectrogram: the line with the data is multiplied by the root of `g`, the other lines stay -/
noncomputable def rootFirst (g : ℤ) : List Drawn → List Drawn
  | [] => []
  | x :: l => redrawn 1 (Real.sqrt g) x :: l

theorem eqv_spectrogramPRNU (rotate : Bool) :
    Eqv Q g 0 d (rootFirst g) (spectrogramPRNU rotate) (spectrogramPRNU rotate) := by
  have h0 := gF (F := ℝ) hg
  unfold spectrogramPRNU
  refine (eqv_dataPRNU hg).bind fun y => ?_
  have hm : RImg.mean ⟨y.h, y.w, fun i j => g * y.px i j⟩ = scale (g : ℝ) (RImg.mean y) := by
    unfold RImg.mean
    rw [← scale_div_fin h0]
    congr 1
    simp [scale, aff, Finset.mul_sum]
  simp only [hm]
  refine Eqv.bind (s := List.map (scale ((g : ℝ) ^ 2))) (Eqv.lift (fftReal_scale hg y rotate 1)) fun sp => ?_
  refine Eqv.bind (s := redrawn 1 (Real.sqrt g)) (Eqv.lift ?_) fun d1 => ?_
  · rw [← axPlot_rescaleY, freqs_map, freqs_map, freqs_map]
    simp only [List.map_map]
    congr 2
    funext x
    simp only [Function.comp]
    rw [scale_div (pow_pos h0 2) h0]
    have : (g : ℝ) ^ 2 / g = Real.sqrt g ^ 2 := by rw [Real.sq_sqrt h0.le]; field_simp
    rw [this, sqrt_scale (Real.sqrt_pos.2 h0)]
  refine Eqv.bind (s := id) (eqv_prnu hg (eqv_s2Y hg)) fun p => ?_
  refine (eqv_sigma2YStack false).bind fun v => Eqv.pure ?_
  rw [sqrt_scale h0, scale_mul_fin h0, scale_div h0 h0, div_self h0.ne', scale_one]
  rfl

end
end Emva
