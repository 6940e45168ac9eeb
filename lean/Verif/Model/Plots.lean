import Verif.Model.Results
import Verif.Model.ResultsHist
import Mathlib.Algebra.Order.Floor.Ring

/-!
Model of what the plots of src/emva1288/process/plotting.py draw: the arrays that are handed to
matplotlib.  Colours, line styles, legends and axis limits (see AxisLimits) are left out.  An attribute of the test that a
`plot` method reads several times in one expression is read once (reading has no effect, C24).
-/
set_option autoImplicit false
namespace Emva

namespace Np
variable {α : Type*}

/-- `a[index]` for an array of non-negative indices. process/plotting.py lines 258-260. -/
def take (a : List α) (index : List ℕ) : Except PyErr (List α) := index.mapM fun i : ℕ => idx a (i : ℤ)

/-- `np.nonzero(a)` of a 1-D array (a NaN is not zero). process/plotting.py line 257. -/
noncomputable def nonzero (a : List (Fl ℝ)) : List ℕ := argwhere (fun v => !Fl.eqb v (.fin 0)) a

/-- `np.arange(start, stop, step)` on floats: the length is `ceil((stop - start) / step)`, a `ValueError`
when it is not finite. process/plotting.py line 252. -/
noncomputable def arange (start stop step : Fl ℝ) : Except PyErr (List (Fl ℝ)) :=
  match (stop - start) / step with
  | .fin l => .ok ((List.range ⌈l⌉.toNat).map fun i : ℕ => start + .fin (i : ℝ) * step)
  | _ => .error .valueError

end Np

namespace Plots
open Results

/-- What is drawn: a line with its label, a vertical and a horizontal line.
process/plotting.py lines 140-161, 283-289, 392-402. -/
inductive Drawn
  | line (x y : List (Fl ℝ)) (label : String)
  | vline (x : Fl ℝ)
  | hline (y : Fl ℝ)

/-- `ax.plot(x, y)`: a `ValueError` for arrays of different lengths.
process/plotting.py lines 140, 145, 157. -/
def axPlot (x y : List (Fl ℝ)) (label : String) : Except PyErr Drawn :=
  if x.length = y.length then .ok (.line x y label) else .error .valueError

variable (q : LSQ ℝ)

/-- the element-wise sum of squares under the root of the theoretical curve, plotting.py lines 267-269 -/
noncomputable def theoNoise (e sd k x : Fl ℝ) : Fl ℝ := Fl.sq sd + .fin (1 / 12) / Fl.sq k + e / .fin 100 * x

/-- The data points of `PlotSNR.plot`, plotting.py lines 255-263. -/
noncomputable def snrData : M ℝ Drawn := do
  let t ← ask Res.temporal
  let nz := Np.nonzero t.s2_y
  let P ← photons
  let up ← lift (Np.take P nz)
  let Y ← signal
  let ys ← lift (Np.take Y nz)
  let s2 ← lift (Np.take t.s2_y nz)
  let snr ← lift (Np.bin (· / ·) ys (s2.map Fl.sqrt))
  lift (axPlot up snr "Data")

/-- The theoretical curve, plotting.py lines 265-273. -/
noncomputable def snrTheoretical (X : List (Fl ℝ)) : M ℝ Drawn := do
  let e ← QE q
  let sd ← sigmaD q
  let k ← K q
  lift (axPlot X (X.map fun x => e / .fin 100 * x / Fl.sqrt (theoNoise e sd k x)) "Theoretical")

/-- The ideal curve, plotting.py lines 275-281 (`ideal[-1]` is used for the axis limits). -/
noncomputable def snrIdeal (X : List (Fl ℝ)) : Except PyErr Drawn := do
  let _ ← Np.idx (X.map Fl.sqrt) (-1)
  axPlot X (X.map Fl.sqrt) "Ideal"

/-- A number in arithmetic: `None` raises a `TypeError`. process/plotting.py lines 252-298. -/
def arith : PyNum ℝ → Except PyErr (Fl ℝ)
  | .none => .error .typeError
  | .npnan => .ok .nan
  | .num x => .ok x

/-- The total curve, plotting.py lines 291-301. -/
noncomputable def snrTotal (X : List (Fl ℝ)) : M ℝ Drawn := do
  let e ← QE q
  let sd ← sigmaD q
  let k ← K q
  let d ← DSNU1288 q
  let dsnu ← lift (arith d)
  let p ← PRNU1288
  lift (axPlot X (X.map fun x => e / .fin 100 * x /
    Fl.sqrt (theoNoise e sd k x + Fl.sq dsnu + Fl.sq (p / .fin 100 * (e / .fin 100) * x))) "Total SNR")

/-- `PlotSNR.plot`, plotting.py lines 249-304. -/
noncomputable def plotSNR : M ℝ (List Drawn) := do
  let a ← uPMin q
  let b ← uPSat
  let X ← lift (Np.arange a b ((b - a) / .fin 100))
  let d1 ← snrData
  let d2 ← snrTheoretical q X
  let d3 ← lift (snrIdeal X)
  let d4 ← snrTotal q X
  pure [d1, d2, d3, .vline a, .vline b, d4]

/-- The two markers at the ends of the range of a fit, `ax.plot((X[i], X[j]), (Y[i], Y[j]))`: plotting.py
lines 150-161, 224-231, 330-335. -/
def rangeMarks (X Y : List (Fl ℝ)) (i j : ℕ) : Except PyErr Drawn := do
  let xi ← Np.idx X i
  let xf ← Np.idx X j
  let yi ← Np.idx Y i
  let yf ← Np.idx Y j
  axPlot [xi, xf] [yi, yf] "Fit range"

/-- `PlotSensitivity.plot`, plotting.py lines 138-163. -/
noncomputable def plotSensitivity : M ℝ (List Drawn) := do
  let X ← photons
  let Y ← signal
  let d1 ← lift (axPlot X Y "Data")
  let R ← R q
  let d2 ← lift (axPlot X (X.map fun x => R * x) "Fit")
  let i ← indexSensitivityMin
  let j ← indexSensitivityMax
  let d3 ← lift (rangeMarks X Y i j)
  pure [d1, d2, d3]

/-- `PlotUyDark.plot`, plotting.py lines 178-194: single points if the mean of the exposure times is the
first one, a line otherwise. -/
noncomputable def plotUyDark : M ℝ (List Drawn × Bool) := do
  let t ← ask Res.temporal
  let T := t.texp.map .fin
  let first ← lift (Np.idx T 0)
  let points := Fl.eqb (Fl.mean T) first
  let d ← lift (axPlot T t.u_ydark "Data")
  pure ([d], points)

/-- `PlotPTC.plot`, plotting.py lines 204-233. -/
noncomputable def plotPTC : M ℝ (List Drawn) := do
  let X ← signal
  let t ← ask Res.temporal
  let Y ← lift (Np.bin (· - ·) t.s2_y t.s2_ydark)
  let d1 ← lift (axPlot X Y "Data")
  let k ← K q
  let d2 ← lift (axPlot X (X.map fun x => k * x) "Fit")
  let s ← indexUysat
  let d3 ← lift (do axPlot [← Np.idx X s] [← Np.idx Y s] "Saturation")
  let i ← indexSensitivityMin
  let j ← indexSensitivityMax
  let d4 ← lift (rangeMarks X Y i j)
  pure [d1, d2, d3, d4]

/-- `PlotLinearity.plot`, plotting.py lines 314-338. -/
noncomputable def plotLinearity : M ℝ (List Drawn) := do
  let X ← photons
  let Y ← signal
  let d1 ← lift (axPlot X Y "Data")
  let l ← linearity
  let d2 ← lift (axPlot X (X.map fun x => l.fit_slope * x + l.fit_offset) "Fit")
  let i ← indexLinearityMin
  let j ← indexLinearityMax
  let d3 ← lift (rangeMarks X Y i j)
  pure [d1, d2, d3]

/-- `PlotDeviationLinearity.plot`, plotting.py lines 348-367. -/
noncomputable def plotDeviation : M ℝ (List Drawn) := do
  let i ← indexLinearityMin
  let j ← indexLinearityMax
  let P ← photons
  let X := Np.slice P i (j + 1)
  let l ← linearity
  let Y := Np.slice l.relative_deviation i (j + 1)
  let d1 ← lift (axPlot X Y "Data")
  let d2 ← lift (do axPlot [← Np.idx X 0, ← Np.idx X (-1)] [← Np.idx Y 0, ← Np.idx Y (-1)] "Fit range")
  pure [d1, d2]

end Plots
end Emva
