import Verif.Model.IeeeResults

/-!
The dark currents of src/emva1288/process/results.py in float64 with its limits (infinities, gradual underflow), as
`Model/RoundedDark.lean`.
-/
set_option autoImplicit false
namespace Emva.Ieee
open Data Results
variable (q : LSQ ℝ)

/-- `u_I_var_DN`, results.py lines 614-623 -/
noncomputable def uIVarDN : M ℝ (PyNum ℝ) := do
  let few ← fewExposures
  if few then pure .npnan
  else do
    let t ← ask Res.temporal
    let fit ← lift (linearB q (t.texp.map .fin) t.s2_ydark)
    if Fl.lt fit.1 (.fin 0) then pure .npnan
    else do
      let k ← gain q
      pure (.num (rounded (rounded (fit.1 / k) * .fin (10 ^ 9))))

/-- `ui / self.K` unless `ui` is the object `np.nan`, results.py lines 640-644 and 683-686 -/
noncomputable def overK (x : M ℝ (PyNum ℝ)) : M ℝ (PyNum ℝ) := do
  let ui ← x
  match ui with
  | .npnan => pure .npnan
  | .none => lift (.error .typeError)
  | .num v => do
    let k ← gain q
    pure (.num (rounded (v / k)))

/-- `u_I_var`, results.py lines 640-644 -/
noncomputable def uIVar : M ℝ (PyNum ℝ) := overK q (uIVarDN q)

/-- `u_I_mean_DN`, results.py lines 661-667 -/
noncomputable def uIMeanDN : M ℝ (PyNum ℝ) := do
  let few ← fewExposures
  if few then pure .npnan
  else do
    let t ← ask Res.temporal
    let fit ← lift (linearB q (t.texp.map .fin) t.u_ydark)
    pure (.num (rounded (fit.1 * .fin (10 ^ 9))))

/-- `u_I_mean`, results.py lines 683-686 -/
noncomputable def uIMean : M ℝ (PyNum ℝ) := overK q (uIMeanDN q)

end Emva.Ieee
