import Verif.Model.ResultsHist
import Verif.Model.Plots
import Mathlib.Analysis.SpecialFunctions.Exp
import Mathlib.Analysis.Real.Pi.Bounds

/-!
Model of the `model` entry of `Histogram1288` (process/routines.py lines 276-284: a normal density) and of the histogram
plots (process/plotting.py lines 509-595), for plain arrays.
-/
set_option autoImplicit false
namespace Emva

/-- `np.exp`. process/routines.py line 283. -/
noncomputable def Fl.exp : Fl ℝ → Fl ℝ
  | .fin x => .fin (Real.exp x)
  | .inf false => .inf false
  | .inf true => .fin 0
  | .nan => .nan

namespace Routines

/-- `np.mean(y)`. process/routines.py line 276. -/
noncomputable def meanZ (y : List ℤ) : Fl ℝ := .fin ((y.sum : ℤ) : ℝ) / .fin (y.length : ℝ)

/-- `np.std(y)`: root of the mean squared deviation. process/routines.py line 277. -/
noncomputable def stdZ (y : List ℤ) : Fl ℝ :=
  Fl.sqrt (Fl.sum (y.map fun v : ℤ => Fl.sq (.fin (v : ℝ) - meanZ y)) / .fin (y.length : ℝ))

/-- one value of `normal`, routines.py lines 282-284 -/
noncomputable def normalAt (ymin ymax : ℤ) (Q N : ℕ) (mu sigma b : Fl ℝ) : Fl ℝ :=
  .fin (1 * ((ymax - ymin : ℤ) : ℝ)) / .fin (Q : ℝ) * .fin (N : ℝ) / (.fin (Real.sqrt (2 * Real.pi)) * sigma) *
    Fl.exp (.fin (-(1 / 2)) * Fl.sq (.fin 1 / sigma * (b - mu)))

/-- the `model` entry of `Histogram1288(img, Qmax)` for a plain array, routines.py lines 252-284, 302 -/
noncomputable def normalModel (y : List ℤ) (Qmax : ℕ) : Except PyErr (List (Fl ℝ)) :=
  match minZ y, maxZ y with
  | some ymin, some ymax =>
    let q := (ymax - ymin).toNat
    if Qmax = 0 then .error (if q = 0 then .valueError else .overflowError)
    else
      let W := binWidth q Qmax
      let Q := binCount q Qmax
      .ok ((List.range Q).map fun i : ℕ =>
        normalAt ymin ymax Q y.length (meanZ y) (stdZ y) (.fin ((ymin + (i : ℤ) * (W : ℤ) : ℤ) : ℝ)))
  | _, _ => .error .valueError

end Routines

namespace Plots
open Results Routines

/-- the lines of `PlotLogarithmicHistogramDSNU` and `PlotLogarithmicHistogramPRNU` with the limits of the y axis.
process/plotting.py lines 517-532, 543-555. -/
noncomputable def histLines (h : HistF ℝ) (model : List (Fl ℝ)) (ymin : Fl ℝ) : Except PyErr (List Drawn × Fl ℝ × Fl ℝ) := do
  let d1 ← axPlot h.bins h.values "Data"
  let d2 ← axPlot h.bins model "Model"
  let top ← Np.amax h.values
  pure ([d1, d2], ymin, top * .fin 2)

/-- `PlotLogarithmicHistogramDSNU.plot`, plotting.py lines 517-532 (the histogram is read once) -/
noncomputable def plotHistDSNU : M ℝ (List Drawn × Fl ℝ × Fl ℝ) := do
  let h ← histogramDSNU
  let y ← sumDark
  let model ← lift (normalModel ((MImg.plain y).ravel.map Prod.fst) histogramQmax)
  lift (histLines h model (.fin 1))

/-- `PlotLogarithmicHistogramPRNU.plot`, plotting.py lines 543-555 -/
noncomputable def plotHistPRNU : M ℝ (List Drawn × Fl ℝ × Fl ℝ) := do
  let h ← histogramPRNU
  let y ← sumDiff
  let data ← lift (highPass (.plain y) 5)
  let model ← lift (normalModel (data.img.ravel.map Prod.fst) histogramQmax)
  lift (histLines h model (.fin (1 / 2)))

/-- `PlotAccumulatedLogHistogramDSNU.plot`, plotting.py lines 566-575 -/
noncomputable def plotAccDSNU : M ℝ (List Drawn) := do
  let h ← histogramDSNUAccumulated
  let d ← lift (axPlot h.bins h.values "Data")
  pure [d]

/-- `PlotAccumulatedLogHistogramPRNU.plot`, plotting.py lines 586-595 -/
noncomputable def plotAccPRNU : M ℝ (List Drawn) := do
  let h ← histogramPRNUAccumulated
  let d ← lift (axPlot h.bins h.values "Data")
  pure [d]

end Plots
end Emva
