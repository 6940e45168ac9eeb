import Verif.Model.Spectrograms
import Verif.Props.C41_C42
import Verif.Props.C59
import Verif.Props.C33_C34
import Verif.Spec.Stats
import Verif.Props.C37

/-!
C71: the spectrogram plots.
-/
set_option autoImplicit false
set_option linter.unusedSectionVars false
namespace Emva
open Routines Finset Results Plots Data

namespace Routines

/-- the spectrum of a quotient -/
theorem fftReal_div (a : Img) (L : ℕ) (hL : L ≠ 0) (rotate : Bool) :
    fftReal ⟨a.h, a.w, fun i j => (a.px i j : ℝ) / (L : ℝ)⟩ rotate 1 = fft1288 a rotate L := by
  have hL' : (L : ℝ) ≠ 0 := by exact_mod_cast hL
  have key : ∀ a : Img, (RImg.power ⟨a.h, a.w, fun i j => (a.px i j : ℝ) / (L : ℝ)⟩ 1) = power a L := by
    intro a
    funext k
    have hm : RImg.meanR ⟨a.h, a.w, fun i j => (a.px i j : ℝ) / (L : ℝ)⟩ = meanR a / L := by
      rw [meanR_eq]
      simp only [RImg.meanR, ← sum_div]
      push_cast
      rw [div_right_comm]
    have hr : ∀ i, RImg.rowPower ⟨a.h, a.w, fun i j => (a.px i j : ℝ) / (L : ℝ)⟩ i k = rowPower a i k / (L : ℝ) ^ 2 := by
      intro i
      rw [rowPower_eq]
      have hs : (Real.sqrt a.w : ℝ) * Real.sqrt a.w = a.w := Real.mul_self_sqrt (Nat.cast_nonneg _)
      simp only [RImg.rowPower, hm]
      rw [Complex.mul_conj, Complex.ofReal_re, map_div₀, Complex.normSq_ofReal, hs]
      have hd : dft a.w (fun j => (a.px i j : ℝ) / L - meanR a / L) k = dft a.w (fun j => (a.px i j : ℝ) - meanR a) k / (L : ℂ) := by
        unfold dft
        rw [sum_div]
        refine sum_congr rfl fun j _ => ?_
        push_cast
        ring
      rw [hd, map_div₀, Complex.normSq_natCast]
      rw [div_right_comm, pow_two]
    unfold RImg.power power
    simp only [hr, ← sum_div]
    by_cases hh : a.h = 0
    · simp [hh]
    · have hh' : (a.h : ℝ) ≠ 0 := by exact_mod_cast hh
      rw [Fl.fin_div hh', Fl.fin_div hh', Fl.fin_div (by simp), Fl.fin_div (by positivity)]
      simp [div_right_comm]
  cases rotate with
  | false =>
    simp only [fftReal, fft1288, fftPlain, Bool.false_eq_true, if_false]
    rw [key a]
  | true =>
    simp only [fftReal, fft1288, fftPlain, if_true, RImg.transpose, transpose]
    rw [key ⟨a.w, a.h, fun i j => a.px j i⟩]

end Routines

namespace Spec

/-- the number of frequencies of the full spectrum: columns, or rows if rotated -/
def freqCount (h w : ℕ) (rotate : Bool) : ℕ := if rotate then h else w

/-- the mean square of a spectrum of which only the first half is listed -/
noncomputable def meanSquare (n : ℕ) (s : List ℝ) : ℝ := (∑ k ∈ range n, (s.getD (min k (n - k)) 0) ^ 2) / n

end Spec

theorem spectrum_sqrt (a : Img) (rotate : Bool) (n : ℕ) (hn : n ≠ 0) (hh : a.h ≠ 0) (hw : a.w ≠ 0) :
    ∃ s : List ℝ, fft1288 a rotate n = .ok (s.map .fin) ∧ s.length = Spec.freqCount a.h a.w rotate / 2 + 1 ∧ (∀ v ∈ s, 0 ≤ v) ∧
      (∑ k ∈ range (Spec.freqCount a.h a.w rotate), s.getD (min k (Spec.freqCount a.h a.w rotate - k)) 0) / Spec.freqCount a.h a.w rotate =
        Spec.imgPopVar a.h a.w (fun i j => (a.px i j : ℝ) / n) := by
  have hn' : (n : ℝ) ≠ 0 := by exact_mod_cast hn
  have hh' : (a.h : ℝ) ≠ 0 := by exact_mod_cast hh
  have hw' : (a.w : ℝ) ≠ 0 := by exact_mod_cast hw
  have hm : Spec.imgMean a.h a.w (fun i j => (a.px i j : ℝ) / n) =
      (∑ i ∈ range a.h, ∑ j ∈ range a.w, (a.px i j : ℝ)) / (a.h * a.w) / n := by
    simp only [Spec.imgMean, ← sum_div]
    rw [div_right_comm]
  have hp : Spec.imgPopVar a.h a.w (fun i j => (a.px i j : ℝ) / n) =
      (∑ i ∈ range a.h, ∑ j ∈ range a.w,
        ((a.px i j : ℝ) - (∑ i ∈ range a.h, ∑ j ∈ range a.w, (a.px i j : ℝ)) / (a.h * a.w)) ^ 2) / (a.h * a.w) / n ^ 2 := by
    simp only [Spec.imgPopVar, hm, ← sub_div, div_pow, ← sum_div]
    rw [div_right_comm]
  cases rotate with
  | false =>
    obtain ⟨s, h1, h2, h3, -, h5⟩ := C41_spectrum a false n hn a rfl hh hw
    refine ⟨s, h1, h2, h3, ?_⟩
    simp only [Spec.freqCount, Bool.false_eq_true, if_false]
    rw [h5, hp]
    unfold Spec.rowEnergy
    generalize (∑ i ∈ range a.h, ∑ j ∈ range a.w,
        ((a.px i j : ℝ) - (∑ i ∈ range a.h, ∑ j ∈ range a.w, (a.px i j : ℝ)) / (a.h * a.w)) ^ 2) = S
    field_simp
  | true =>
    obtain ⟨s, h1, h2, h3, -, h5⟩ := C41_spectrum a true n hn ⟨a.w, a.h, fun i j => a.px j i⟩ rfl hw hh
    refine ⟨s, h1, h2, h3, ?_⟩
    simp only [Spec.freqCount, if_true]
    rw [h5, hp]
    unfold Spec.rowEnergy
    simp only
    rw [sum_comm]
    rw [sum_comm (s := range a.w) (t := range a.h), mul_comm (a.w : ℝ) a.h]
    generalize (∑ i ∈ range a.h, ∑ j ∈ range a.w,
        ((a.px i j : ℝ) - (∑ i ∈ range a.h, ∑ j ∈ range a.w, (a.px i j : ℝ)) / (a.h * a.w)) ^ 2) = S
    field_simp

theorem meanSquare_sqrt (n : ℕ) (s : List ℝ) (h : ∀ v ∈ s, 0 ≤ v) :
    Spec.meanSquare n (s.map Real.sqrt) = (∑ k ∈ range n, s.getD (min k (n - k)) 0) / n := by
  unfold Spec.meanSquare
  congr 1
  refine sum_congr rfl fun k _ => ?_
  rw [List.getD_eq_getElem?_getD, List.getD_eq_getElem?_getD, List.getElem?_map]
  cases hs : s[min k (n - k)]? with
  | none => simp
  | some v => exact Real.sq_sqrt (h v (List.mem_of_getElem? hs))

theorem sqrt_list (s : List ℝ) (h : ∀ v ∈ s, 0 ≤ v) : (s.map Fl.fin).map Fl.sqrt = (s.map Real.sqrt).map Fl.fin := by
  rw [List.map_map, List.map_map]
  exact List.map_congr_left fun v hv => Fl.sqrt_fin (h v hv)

theorem val_DSNU1288DN_ok (r : Res ℝ) : val DSNU1288DN r = .ok .npnan ∨ ∃ m, val DSNU1288DN r = .ok (.num m) := by
  have h2 : val (s2Y true) r = .ok (r.spatial.dark.avg_var - r.spatial.dark.var_mean / .fin (r.spatial.dark.L : ℝ)) := rfl
  have sT := stable_s2Y (F := ℝ) true
  unfold DSNU1288DN
  rw [val_bind_ok sT (by stab) h2]
  split
  · exact .inl rfl
  · exact .inr ⟨_, rfl⟩

theorem imgPopVar_scale (h w : ℕ) (c : ℝ) (f : ℕ → ℕ → ℝ) :
    Spec.imgPopVar h w (fun i j => c * f i j) = c ^ 2 * Spec.imgPopVar h w f := by
  have hm : Spec.imgMean h w (fun i j => c * f i j) = c * Spec.imgMean h w f := by
    simp only [Spec.imgMean, ← mul_sum, mul_div_assoc]
  simp only [Spec.imgPopVar, hm, ← mul_sub, mul_pow, ← mul_sum, mul_div_assoc]

/-- C71, dark spectrogram: for every measurement with pixels, horizontally and vertically: no error; the line has half as
many points (and one) as the image has columns (rows); the values are not negative; the mean square of the full
(mirrored) spectrum is the variance of the averaged dark image, if the dark and the bright series have as many images:
otherwise (the sum of the dark images is divided by the number of bright images) the square of the ratio of the two
numbers times that.  The markers are `DSNU1288_DN` and the root of `sigma_2_y_stack_dark`. -/
theorem C71_dsnu_partial (r : Res ℝ) (rotate : Bool) (hh : r.spatial.dark.h ≠ 0) (hw : r.spatial.dark.w ≠ 0)
    (hL : r.spatial.dark.L ≠ 0) (hn : r.spatial.bright.L ≠ 0) :
    let n := Spec.freqCount r.spatial.dark.h r.spatial.dark.w rotate
    ∃ (s : List ℝ) (m : Fl ℝ), val (spectrogramDSNU rotate) r = .ok
        [.line ((getFrecs ℝ s.length).map .fin) (s.map .fin) "Data", .hline m, .hline (Fl.sqrt r.spatial.dark.var_mean)] ∧
      s.length = n / 2 + 1 ∧ (∀ v ∈ s, 0 ≤ v) ∧
      Spec.meanSquare n s = ((r.spatial.dark.L : ℝ) / r.spatial.bright.L) ^ 2 *
        Spec.imgPopVar r.spatial.dark.h r.spatial.dark.w (fun i j => (r.spatial.dark.sum i j : ℝ) / r.spatial.dark.L) ∧
      (val DSNU1288DN r = .ok (.num m) ∨ (val DSNU1288DN r = .ok .npnan ∧ m = .nan)) := by
  intro n
  obtain ⟨s, h1, h2, h3, h4⟩ := spectrum_sqrt ⟨r.spatial.dark.h, r.spatial.dark.w, r.spatial.dark.sum⟩ rotate
    r.spatial.bright.L hn hh hw
  have hm : ∃ m : Fl ℝ, (do let x ← val DSNU1288DN r; arith x : Except PyErr (Fl ℝ)) = .ok m ∧
      (val DSNU1288DN r = .ok (.num m) ∨ (val DSNU1288DN r = .ok .npnan ∧ m = .nan)) := by
    rcases val_DSNU1288DN_ok r with h | ⟨m, h⟩
    · exact ⟨.nan, by rw [h]; rfl, .inr ⟨h, rfl⟩⟩
    · exact ⟨m, by rw [h]; rfl, .inl h⟩
  obtain ⟨m, hm1, hm2⟩ := hm
  have hd : ∃ x, val DSNU1288DN r = .ok x ∧ arith x = .ok m := by
    cases hx : val DSNU1288DN r with
    | error e => rw [hx] at hm1; cases hm1
    | ok x => rw [hx] at hm1; exact ⟨x, rfl, hm1⟩
  obtain ⟨x, hx1, hx2⟩ := hd
  refine ⟨s.map Real.sqrt, m, ?_, by rw [List.length_map]; exact h2, ?_, ?_, hm2⟩
  · have sD := stable_sumDark (F := ℝ)
    have s1 := stable_DSNU1288DN
    have s2 := stable_sigma2YStack (F := ℝ) true
    have s3 := stable_spat (F := ℝ) false
    unfold spectrogramDSNU
    rw [val_bind_ok sD (by stab) (show val sumDark r = .ok ⟨r.spatial.dark.h, r.spatial.dark.w, r.spatial.dark.sum⟩ from rfl),
      val_bind_ok s3 (by stab) (show val (spat false) r = .ok r.spatial.bright from rfl),
      val_lift_ok h1 (by stab), sqrt_list s h3,
      val_lift_ok (axPlot_eq (by simp [freqs, getFrecs])) (by stab), val_bind_ok s1 (by stab) hx1, val_lift_ok hx2 (by stab)]
    simp only [freqs, List.length_map]
    rfl
  · intro v hv
    obtain ⟨u, -, rfl⟩ := List.mem_map.1 hv
    exact Real.sqrt_nonneg u
  · rw [meanSquare_sqrt _ _ h3, h4, ← imgPopVar_scale]
    congr 1
    funext i j
    have : (r.spatial.dark.L : ℝ) ≠ 0 := by exact_mod_cast hL
    simp only
    field_simp

/-- C71: with series of one length the root mean square of the dark spectrogram is the measured spatial standard
deviation `s_2_y_measured_dark` (computed with one pixel less). -/
theorem C71_dsnu_measured (r : Res ℝ) (rotate : Bool) (hh : r.spatial.dark.h ≠ 0) (hw : r.spatial.dark.w ≠ 0)
    (hL : r.spatial.dark.L ≠ 0) (he : r.spatial.bright.L = r.spatial.dark.L)
    (h2 : 2 ≤ r.spatial.dark.h * r.spatial.dark.w)
    (hv : r.spatial.dark.avg_var = .fin (Spec.imgSampleVar r.spatial.dark.h r.spatial.dark.w
      fun i j => (r.spatial.dark.sum i j : ℝ) / r.spatial.dark.L)) :
    ∃ (x : List (Fl ℝ)) (s : List ℝ) (rest : List Drawn) (v : ℝ),
      val (spectrogramDSNU rotate) r = .ok (.line x (s.map .fin) "Data" :: rest) ∧
      val (s2YMeasured true) r = .ok (.fin v) ∧
      Spec.meanSquare (Spec.freqCount r.spatial.dark.h r.spatial.dark.w rotate) s =
        v * (((r.spatial.dark.h * r.spatial.dark.w : ℕ) : ℝ) - 1) / (r.spatial.dark.h * r.spatial.dark.w : ℕ) := by
  obtain ⟨s, m, h1, -, -, h4, -⟩ := C71_dsnu_partial r rotate hh hw hL (by rw [he]; exact hL)
  refine ⟨_, s, _, _, h1, by rw [← hv]; rfl, ?_⟩
  have hL' : (r.spatial.dark.L : ℝ) ≠ 0 := by exact_mod_cast hL
  rw [h4, he, div_self hL', one_pow, one_mul]
  have hp : (0 : ℝ) < ((r.spatial.dark.h * r.spatial.dark.w : ℕ) : ℝ) := by exact_mod_cast (by omega)
  have hp1 : ((r.spatial.dark.h * r.spatial.dark.w : ℕ) : ℝ) - 1 ≠ 0 := by
    have : (2 : ℝ) ≤ ((r.spatial.dark.h * r.spatial.dark.w : ℕ) : ℝ) := by exact_mod_cast h2
    intro h; linarith
  simp only [Spec.imgPopVar, Spec.imgSampleVar]
  push_cast at hp hp1 ⊢
  field_simp

/-- C71, bright spectrogram: for every measurement whose bright image is brighter than the dark one.  The mean square of
the full spectrum is the variance of the averaged difference image divided by its mean. -/
theorem C71_prnu_partial (r : Res ℝ) (rotate : Bool) (h w : ℕ) (hh : h ≠ 0) (hw : w ≠ 0)
    (hb : r.spatial.bright.h = h ∧ r.spatial.bright.w = w) (hd : r.spatial.dark.h = h ∧ r.spatial.dark.w = w)
    (hL : r.spatial.bright.L ≠ 0) (μ : ℝ)
    (hμ : μ = Spec.imgMean h w fun i j => ((r.spatial.bright.sum i j - r.spatial.dark.sum i j : ℤ) : ℝ) / r.spatial.bright.L)
    (h0 : 0 < μ) :
    let n := Spec.freqCount h w rotate
    ∃ (s : List ℝ) (p : Fl ℝ), val (spectrogramPRNU rotate) r = .ok
        [.line ((getFrecs ℝ s.length).map .fin) (s.map .fin) "Data", .hline p,
          .hline (.fin 100 * Fl.sqrt r.spatial.bright.var_mean / .fin μ)] ∧
      val PRNU1288 r = .ok p ∧
      s.length = n / 2 + 1 ∧ (∀ v ∈ s, 0 ≤ v) ∧
      Spec.meanSquare n s = Spec.imgPopVar h w (fun i j =>
        ((r.spatial.bright.sum i j - r.spatial.dark.sum i j : ℤ) : ℝ) / r.spatial.bright.L) / μ := by
  intro n
  obtain ⟨s, h1, h2, h3, h4⟩ := spectrum_sqrt ⟨h, w, fun i j => r.spatial.bright.sum i j - r.spatial.dark.sum i j⟩ rotate
    r.spatial.bright.L hL hh hw
  simp only at h2 h4
  have hdata : val dataPRNU r = .ok ⟨h, w, fun i j =>
      ((r.spatial.bright.sum i j - r.spatial.dark.sum i j : ℤ) : ℝ) / (r.spatial.bright.L : ℝ)⟩ := by
    have sD := stable_sumDiff (F := ℝ)
    unfold dataPRNU
    rw [val_bind_ok sD (by stab) (prnu_image r h w hb hd)]
    rfl
  have hmean : RImg.mean ⟨h, w, fun i j =>
      ((r.spatial.bright.sum i j - r.spatial.dark.sum i j : ℤ) : ℝ) / (r.spatial.bright.L : ℝ)⟩ = .fin μ := by
    unfold RImg.mean
    have : ((h * w : ℕ) : ℝ) ≠ 0 := by exact_mod_cast Nat.mul_ne_zero hh hw
    rw [Fl.fin_div this, hμ]
    unfold Spec.imgMean
    push_cast
    rfl
  have hp : ∃ p, val PRNU1288 r = .ok p := ⟨_, rfl⟩
  obtain ⟨p, hp⟩ := hp
  have hq : (s.map Fl.fin).map (fun p => p / Fl.fin μ) = (s.map (· / μ)).map Fl.fin := by
    rw [List.map_map, List.map_map]
    exact List.map_congr_left fun v _ => Fl.fin_div h0.ne'
  have h3' : ∀ v ∈ s.map (· / μ), 0 ≤ v := by
    intro v hv
    obtain ⟨u, hu, rfl⟩ := List.mem_map.1 hv
    exact div_nonneg (h3 u hu) h0.le
  refine ⟨(s.map (· / μ)).map Real.sqrt, p, ?_, hp, by simp [h2, n], ?_, ?_⟩
  · have sD : Stable dataPRNU := by
      have := stable_sumDiff (F := ℝ)
      unfold dataPRNU; stab
    have s1 := stable_PRNU1288
    have s2 := stable_sigma2YStack (F := ℝ) false
    unfold spectrogramPRNU
    rw [val_bind_ok sD (by stab) hdata]
    simp only [hmean]
    rw [val_lift_ok (a := s.map Fl.fin) (by
        rw [← h1]
        exact fftReal_div ⟨h, w, fun i j => r.spatial.bright.sum i j - r.spatial.dark.sum i j⟩ _ hL rotate) (by stab),
      hq, sqrt_list _ h3', val_lift_ok (axPlot_eq (by simp [freqs, getFrecs])) (by stab), val_bind_ok s1 (by stab) hp]
    simp only [freqs, List.length_map]
    rfl
  · intro v hv
    obtain ⟨u, -, rfl⟩ := List.mem_map.1 hv
    exact Real.sqrt_nonneg u
  · rw [meanSquare_sqrt _ _ h3', ← h4]
    rw [div_right_comm, sum_div _ _ μ]
    refine congrArg (· / (n : ℝ)) (sum_congr rfl fun k _ => ?_)
    rw [List.getD_eq_getElem?_getD, List.getD_eq_getElem?_getD, List.getElem?_map]
    cases hs : s[min k (n - k)]? with
    | none => simp
    | some v => simp

/-- C71 fails for the bright spectrogram: the axis is labelled in percent and the markers on it are percentages of the
mean, so the mean square should be `(100 sigma / mean)^2`.  It is not (the spectrum is divided by the mean, not by its
square, and there is no factor 100), unless the image is uniform or the mean is exactly 10000. -/
theorem C71_prnu_not_percent (r : Res ℝ) (rotate : Bool) (h w : ℕ) (hh : h ≠ 0) (hw : w ≠ 0)
    (hb : r.spatial.bright.h = h ∧ r.spatial.bright.w = w) (hd : r.spatial.dark.h = h ∧ r.spatial.dark.w = w)
    (hL : r.spatial.bright.L ≠ 0) (μ : ℝ)
    (hμ : μ = Spec.imgMean h w fun i j => ((r.spatial.bright.sum i j - r.spatial.dark.sum i j : ℤ) : ℝ) / r.spatial.bright.L)
    (h0 : 0 < μ) (v : ℝ)
    (hv : v = Spec.imgPopVar h w fun i j => ((r.spatial.bright.sum i j - r.spatial.dark.sum i j : ℤ) : ℝ) / r.spatial.bright.L) :
    ∃ (x : List (Fl ℝ)) (s : List ℝ) (rest : List Drawn),
      val (spectrogramPRNU rotate) r = .ok (.line x (s.map .fin) "Data" :: rest) ∧
      (Spec.meanSquare (Spec.freqCount h w rotate) s = (100 * Real.sqrt v / μ) ^ 2 ↔ v = 0 ∨ μ = 10000) := by
  obtain ⟨s, p, h1, -, -, -, h5⟩ := C71_prnu_partial r rotate h w hh hw hb hd hL μ hμ h0
  refine ⟨_, s, _, h1, ?_⟩
  have hv0 : 0 ≤ v := by
    rw [hv]
    exact div_nonneg (sum_nonneg fun i _ => sum_nonneg fun j _ => sq_nonneg _) (by positivity)
  rw [h5, ← hv, div_pow, mul_pow, Real.sq_sqrt hv0]
  rw [div_eq_div_iff h0.ne' (by positivity)]
  constructor
  · intro h
    have : v * μ * (μ - 10000) = 0 := by linarith
    rcases mul_eq_zero.1 this with h | h
    · exact .inl ((mul_eq_zero.1 h).resolve_right h0.ne')
    · exact .inr (by linarith)
  · rintro (h | h)
    · rw [h]; ring
    · rw [h]; ring

/-- C71 fails for the dark spectrogram when the dark series has another number of images than the bright one and the dark
image is not uniform. -/
theorem C71_dsnu_unequal (r : Res ℝ) (rotate : Bool) (hh : r.spatial.dark.h ≠ 0) (hw : r.spatial.dark.w ≠ 0)
    (hL : r.spatial.dark.L ≠ 0) (hn : r.spatial.bright.L ≠ 0) (hne : r.spatial.dark.L ≠ r.spatial.bright.L) (v : ℝ)
    (hv : v = Spec.imgPopVar r.spatial.dark.h r.spatial.dark.w fun i j => (r.spatial.dark.sum i j : ℝ) / r.spatial.dark.L)
    (hv0 : v ≠ 0) :
    ∃ (x : List (Fl ℝ)) (s : List ℝ) (rest : List Drawn),
      val (spectrogramDSNU rotate) r = .ok (.line x (s.map .fin) "Data" :: rest) ∧
      Spec.meanSquare (Spec.freqCount r.spatial.dark.h r.spatial.dark.w rotate) s ≠ v := by
  obtain ⟨s, m, h1, -, -, h4, -⟩ := C71_dsnu_partial r rotate hh hw hL hn
  refine ⟨_, s, _, h1, ?_⟩
  rw [h4, ← hv]
  intro h
  have hn' : (r.spatial.bright.L : ℝ) ≠ 0 := by exact_mod_cast hn
  have : ((r.spatial.dark.L : ℝ) / r.spatial.bright.L) ^ 2 = 1 := by
    have := mul_right_cancel₀ hv0 (h.trans (one_mul v).symm)
    exact this
  rw [pow_eq_one_iff_of_nonneg (by positivity) (by norm_num), div_eq_one_iff_eq hn'] at this
  exact hne (by exact_mod_cast this)

/-! ### cases meeting the hypotheses -/

/-- 1 x 2 images: dark sums 2 and 4 of two images, bright sums 22 and 26 of two images -/
noncomputable def spectrumSample : Res ℝ where
  temporal := ⟨[], [], [], [], [], []⟩
  spatial := ⟨1, 100,
    { h := 1, w := 2, sum := fun _ j => 2 + 2 * j, var_mean := .fin 1, L := 2, M := 1, N := 2, avg_var := .fin (1 / 2),
      avg_mean := .fin (3 / 2), avg_var_cav := .fin 1, avg_var_rav := .fin 1 },
    { h := 1, w := 2, sum := fun _ j => 22 + 4 * j, var_mean := .fin 1, L := 2, M := 1, N := 2, avg_var := .fin 2,
      avg_mean := .fin 12, avg_var_cav := .fin 1, avg_var_rav := .fin 1 }⟩
  pixel_area := none
  index_u_ysat := none

example : ∃ (x : List (Fl ℝ)) (s : List ℝ) (rest : List Drawn),
    val (spectrogramDSNU false) spectrumSample = .ok (.line x (s.map .fin) "Data" :: rest) ∧
    Spec.meanSquare 2 s = 1 / 4 := by
  obtain ⟨x, s, rest, v, h1, h2, h3⟩ := C71_dsnu_measured spectrumSample false (by decide) (by decide) (by decide) rfl
    (by decide) (by
      show Fl.fin (1 / 2 : ℝ) = _
      congr 1
      simp [Spec.imgSampleVar, Spec.imgMean, sum_range_succ, spectrumSample]
      norm_num)
  refine ⟨x, s, rest, h1, ?_⟩
  have hv : v = 1 / 2 := by
    have : (Except.ok (Fl.fin (1 / 2 : ℝ)) : Except PyErr (Fl ℝ)) = .ok (.fin v) := h2
    simpa using this.symm
  rw [show Spec.freqCount spectrumSample.spatial.dark.h spectrumSample.spatial.dark.w false = 2 from rfl, hv] at h3
  rw [h3]
  norm_num [spectrumSample]

/-- the percentage of the bright spectrogram is wrong -/
example : ∃ (x : List (Fl ℝ)) (s : List ℝ) (rest : List Drawn),
    val (spectrogramPRNU false) spectrumSample = .ok (.line x (s.map .fin) "Data" :: rest) ∧
    Spec.meanSquare 2 s ≠ (100 * Real.sqrt (1 / 4) / (21 / 2)) ^ 2 := by
  obtain ⟨x, s, rest, h1, h2⟩ := C71_prnu_not_percent spectrumSample false 1 2 (by decide) (by decide) ⟨rfl, rfl⟩ ⟨rfl, rfl⟩
    (by decide) (21 / 2) (by simp [Spec.imgMean, sum_range_succ, spectrumSample]; norm_num) (by norm_num) (1 / 4)
    (by simp [Spec.imgPopVar, Spec.imgMean, sum_range_succ, spectrumSample]; norm_num)
  exact ⟨x, s, rest, h1, fun h => by
    rcases h2.1 h with h | h
    · norm_num at h
    · norm_num at h⟩

end Emva
