import Verif.Py.Fl
import Mathlib.Analysis.Real.Sqrt
import Mathlib.Analysis.SpecialFunctions.Log.Base

/-!
`np.sqrt`, `np.log10`, `np.log2` on floats over the reals.
-/
set_option autoImplicit false
namespace Emva
namespace Fl

/-- `np.sqrt`: NaN for negative arguments. Used for process/results.py lines 251, 265, 410. -/
noncomputable def sqrt : Fl ℝ → Fl ℝ
  | fin x => if x < 0 then nan else fin (Real.sqrt x)
  | inf false => inf false
  | inf true => nan
  | nan => nan

/-- `np.log10` (`b = 10`) / `np.log2` (`b = 2`): `-inf` at zero, NaN for negative arguments.
Used for process/results.py lines 423, 436, 482. -/
noncomputable def logb (b : ℝ) : Fl ℝ → Fl ℝ
  | fin x => if x < 0 then nan else if x = 0 then inf true else fin (Real.logb b x)
  | inf false => inf false
  | inf true => nan
  | nan => nan

theorem sqrt_fin {x : ℝ} (h : 0 ≤ x) : sqrt (fin x) = fin (Real.sqrt x) := by
  simp [sqrt, not_lt.2 h]

theorem sqrt_neg {x : ℝ} (h : x < 0) : sqrt (fin x) = nan := by
  simp [sqrt, h]

theorem logb_fin (b : ℝ) {x : ℝ} (h : 0 < x) : logb b (fin x) = fin (Real.logb b x) := by
  simp [logb, not_lt.2 h.le, h.ne']

end Fl
end Emva
