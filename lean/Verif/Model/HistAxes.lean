import Verif.Model.HistModel
import Verif.Model.AxisLimits

/-!
The logarithmic histograms of several tests in one plot, process/plotting.py lines 517-532, 543-555 and 869-870.
-/
set_option autoImplicit false
namespace Emva.Plots
open Results Py

/-- `plot.plot(test)` for one test after the other on the same axes, plotting.py lines 869-870 with `f` one of lines 517-532 and
543-555: the lines are added to those drawn before, the limits of the y axis (lines 532 and 555) are set anew each time.  `ax` are
the limits so far, `none` before the first test.  Each test is an object of its own: what it keeps for the next reading
(`_index_u_ysat`) is not carried on. -/
noncomputable def plotOver (f : M ℝ (List Drawn × Fl ℝ × Fl ℝ)) : List (Res ℝ) → Option (ℝ × ℝ) →
    Except PyErr (List (List Drawn) × Option (ℝ × ℝ))
  | [], ax => .ok ([], ax)
  | r :: l, _ => do
    let (d, lo, hi) ← (f r).1
    let ax ← setAxis lo hi
    let (ds, ax) ← plotOver f l (some ax)
    pure (d :: ds, ax)

end Emva.Plots
