import Verif.Model.Fit
import Verif.Py.FlReal

/-!
The second component (fit error) of `routines.LinearB0` and `routines.LinearB`.
-/
set_option autoImplicit false
namespace Emva

/-- `LinearB0(X, Y)[1]`, routines.py line 91: the square root of the sum of squared residuals over
`len(X) ** 2` (python `sum`, python division of a numpy float by an int). -/
noncomputable def linearB0Err (q : LSQ ℝ) (X Y : List (Fl ℝ)) : Except PyErr (Fl ℝ) :=
  match linearB0 q X Y with
  | .error e => .error e
  | .ok m => match Np.bin (fun x y => x * m - y) X Y with
    | .error e => .error e
    | .ok r => .ok (Fl.sqrt (Fl.sum (r.map Fl.sq) / .fin ((X.length : ℝ) * X.length)))

/-- `LinearB(X, Y)[1]`, routines.py line 120. -/
noncomputable def linearBErr (q : LSQ ℝ) (X Y : List (Fl ℝ)) : Except PyErr (Fl ℝ) :=
  match linearB q X Y with
  | .error e => .error e
  | .ok v => match Np.bin (fun x y => x * v.1 + v.2 - y) X Y with
    | .error e => .error e
    | .ok r => .ok (Fl.sqrt (Fl.sum (r.map Fl.sq) / .fin ((X.length : ℝ) * X.length)))

end Emva
