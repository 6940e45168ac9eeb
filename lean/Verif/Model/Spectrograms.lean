import Verif.Model.Plots
import Verif.Model.FFT

/-!
Model of the spectrogram plots, process/plotting.py lines 370-506.  `FFT1288` is applied to integers for the DSNU and
to the quotients `sum / L` for the PRNU, hence the version of `FFT1288` for arrays of reals here.  `L` is not 0.
-/
set_option autoImplicit false
namespace Emva

/-- A 2-D array of floats with finite values. process/plotting.py lines 381-382. -/
structure RImg where
  h : ℕ
  w : ℕ
  px : ℕ → ℕ → ℝ

namespace Routines
open Finset

/-- `np.mean(a)` as a real number (only used for arrays with elements).
process/plotting.py line 383. -/
noncomputable def RImg.meanR (a : RImg) : ℝ := (∑ i ∈ range a.h, ∑ j ∈ range a.w, a.px i j) / ((a.h * a.w : ℕ) : ℝ)

/-- `np.mean(a)`: NaN for an empty array. process/plotting.py line 383. -/
noncomputable def RImg.mean (a : RImg) : Fl ℝ :=
  Fl.fin (∑ i ∈ range a.h, ∑ j ∈ range a.w, a.px i j) / Fl.fin ((a.h * a.w : ℕ) : ℝ)

/-- `a.transpose()`. process/routines.py line 160. -/
def RImg.transpose (a : RImg) : RImg := ⟨a.w, a.h, fun i j => a.px j i⟩

/-- `fabs[i, k]`, routines.py lines 168-172 -/
noncomputable def RImg.rowPower (a : RImg) (i k : ℕ) : ℝ :=
  let f := dft a.w (fun j => a.px i j - RImg.meanR a) k / (Real.sqrt a.w : ℂ)
  (f * (starRingEnd ℂ) f).re

/-- `r[k]`, routines.py lines 175-178 -/
noncomputable def RImg.power (a : RImg) (n : ℕ) (k : ℕ) : Fl ℝ :=
  Fl.fin (∑ i ∈ range a.h, RImg.rowPower a i k) / Fl.fin (a.h : ℝ) / Fl.fin ((n : ℝ) ^ 2)

/-- `FFT1288(a, rotate, n)` for a plain array of floats, routines.py lines 157-182 -/
noncomputable def fftReal (a : RImg) (rotate : Bool) (n : ℕ) : Except PyErr (List (Fl ℝ)) :=
  let b := if rotate then RImg.transpose a else a
  if b.w = 0 then .error .valueError
  else .ok ((List.range (b.w / 2 + 1)).map (RImg.power b n))

end Routines

namespace Plots
open Results Routines

/-- `GetFrecs(spectrogram)`. process/routines.py lines 245-249. -/
noncomputable def freqs (s : List (Fl ℝ)) : List (Fl ℝ) := (getFrecs ℝ s.length).map .fin

/-- `PlotHorizontalSpectrogramDSNU.plot` and `PlotVerticalSpectrogramDSNU.plot` (`rotate`), plotting.py lines 415-437
and 483-506: the data line and two horizontal markers. -/
noncomputable def spectrogramDSNU (rotate : Bool) : M ℝ (List Drawn) := do
  let y ← sumDark
  let s ← spat false
  let spectrogram ← lift (fft1288 y rotate s.L)
  let d1 ← lift (axPlot (freqs spectrogram) (spectrogram.map Fl.sqrt) "Data")
  let m ← DSNU1288DN
  let m ← lift (arith m)
  let v ← sigma2YStack true
  pure [d1, .hline m, .hline (Fl.sqrt v)]

/-- `data = (sum - sum_dark) / L`, plotting.py lines 381-382, 450-451 -/
noncomputable def dataPRNU : M ℝ RImg := do
  let y ← sumDiff
  let s ← spat false
  pure ⟨y.h, y.w, fun i j => (y.px i j : ℝ) / (s.L : ℝ)⟩

/-- `PlotHorizontalSpectrogramPRNU.plot` and `PlotVerticalSpectrogramPRNU.plot` (`rotate`), plotting.py lines 378-404
and 448-472 -/
noncomputable def spectrogramPRNU (rotate : Bool) : M ℝ (List Drawn) := do
  let data ← dataPRNU
  let data_mean := RImg.mean data
  let f ← lift (fftReal data rotate 1)
  let spectrogram := f.map fun p => p / data_mean
  let d1 ← lift (axPlot (freqs spectrogram) (spectrogram.map Fl.sqrt) "Data")
  let p ← PRNU1288
  let v ← sigma2YStack false
  pure [d1, .hline p, .hline (.fin 100 * Fl.sqrt v / data_mean)]

end Plots
end Emva
