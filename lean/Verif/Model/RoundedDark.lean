import Verif.Model.RoundedResults

/-!
The dark currents of src/emva1288/process/results.py with the rounding of every floating point operation.

The computations are those of `Model/Results.lean`. The exposure times, the dark values and the dark variances are passed to the
fit as they are; the fit is a parameter. `1e9` and `10 ** 9` are floats.
-/
set_option autoImplicit false
namespace Emva.Rounded
open Data Results
variable {u : ℝ} (R : Rounding u) (q : LSQ ℝ)

/-- `u_I_var_DN`, results.py lines 614-623 -/
noncomputable def uIVarDN : M ℝ (PyNum ℝ) := do
  let few ← fewExposures
  if few then pure .npnan
  else do
    let t ← ask Res.temporal
    let fit ← lift (linearB q (t.texp.map .fin) t.s2_ydark)
    if Fl.lt fit.1 (.fin 0) then pure .npnan
    else do
      let k ← gain R q
      pure (.num (rd R (rd R (fit.1 / k) * .fin (10 ^ 9))))

/-- `ui / self.K` unless `ui` is the object `np.nan`, results.py lines 640-644 and 683-686 -/
noncomputable def overK (x : M ℝ (PyNum ℝ)) : M ℝ (PyNum ℝ) := do
  let ui ← x
  match ui with
  | .npnan => pure .npnan
  | .none => lift (.error .typeError)
  | .num v => do
    let k ← gain R q
    pure (.num (rd R (v / k)))

/-- `u_I_var`, results.py lines 640-644 -/
noncomputable def uIVar : M ℝ (PyNum ℝ) := overK R q (uIVarDN R q)

/-- `u_I_mean_DN`, results.py lines 661-667 -/
noncomputable def uIMeanDN : M ℝ (PyNum ℝ) := do
  let few ← fewExposures
  if few then pure .npnan
  else do
    let t ← ask Res.temporal
    let fit ← lift (linearB q (t.texp.map .fin) t.u_ydark)
    pure (.num (rd R (fit.1 * .fin (10 ^ 9))))

/-- `u_I_mean`, results.py lines 683-686 -/
noncomputable def uIMean : M ℝ (PyNum ℝ) := overK R q (uIMeanDN R q)

end Emva.Rounded
