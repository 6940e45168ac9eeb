import Verif.Py.Rounding
import Verif.Model.Results

/-!
Results of src/emva1288/process/results.py with the rounding of every floating point operation.

The computations are those of `Model/Results.lean`; after each operation (`+ - * /`, `np.sqrt`) and for each literal that is no
float64 (`0.7`, `0.24`, `1.0 / 12.0`) the result is rounded. The fits are a parameter, as there. Modelled are the results that
follow from the temporal data; the spatial results are in `Model/RoundedSpatial.lean`, `linearity` and the logarithms in
`Model/RoundedLinearity.lean`, the dark currents in `Model/RoundedDark.lean`.
-/
set_option autoImplicit false
namespace Emva.Rounded
open Data Results
variable {u : ℝ} (R : Rounding u) (q : LSQ ℝ)

/-- the result of an operation, rounded; infinities and NaN are unchanged, there is no overflow.
process/results.py lines 205, 222, 265, 279: an operation on floats. -/
noncomputable def rd : Fl ℝ → Fl ℝ
  | .fin x => .fin (R.rnd x)
  | x => x

/-- `self.temporal['u_y'] - self.temporal['u_ydark']`, results.py lines 126, 158, 184, 494, 510 -/
noncomputable def signal : M ℝ (List (Fl ℝ)) := do
  let t ← ask Res.temporal
  lift (Np.bin (fun a b => rd R (a - b)) t.u_y t.u_ydark)

/-- `max(np.argwhere(Y <= c * Y[self.index_u_ysat]))[0]`, results.py lines 126-128 (`c = 0.7`), 510-512 (`c = 0.95`);
`index_u_ysat` (lines 85-114) only compares -/
noncomputable def lastBelow (c : ℝ) : M ℝ ℕ := do
  let Y ← signal R
  let k ← indexUysat
  let ys ← lift (Np.idx Y k)
  let m := rd R (rd R (.fin c) * ys)
  lift (Np.maxI (Np.argwhere (fun y => Fl.le y m) Y))

/-- `index_sensitivity_max`, results.py lines 116-128 -/
noncomputable def indexSensitivityMax : M ℝ ℕ := lastBelow R (7 / 10)

/-- `R`, results.py lines 158-166 -/
noncomputable def resp : M ℝ (Fl ℝ) := do
  let Y ← signal R
  let X ← photons
  let i ← indexSensitivityMin
  let j ← indexSensitivityMax R
  lift (linearB0 q (Np.slice X i (j + 1)) (Np.slice Y i (j + 1)))

/-- `K`, results.py lines 184-192 -/
noncomputable def gain : M ℝ (Fl ℝ) := do
  let X ← signal R
  let t ← ask Res.temporal
  let Y ← lift (Np.bin (fun a b => rd R (a - b)) t.s2_y t.s2_ydark)
  let i ← indexSensitivityMin
  let j ← indexSensitivityMax R
  lift (linearB0 q (Np.slice X i (j + 1)) (Np.slice Y i (j + 1)))

/-- `inverse_K`, results.py line 205 -/
noncomputable def inverseK : M ℝ (Fl ℝ) := do
  let k ← gain R q
  pure (rd R (.fin 1 / k))

/-- `QE`, results.py line 222 -/
noncomputable def QE : M ℝ (Fl ℝ) := do
  let r ← resp R q
  let k ← gain R q
  pure (rd R (rd R (.fin 100 * r) / k))

/-- `sigma_y_dark`, results.py lines 238-251 -/
noncomputable def sigmaYDark : M ℝ (Fl ℝ) := do
  let v ← rawDark q
  let v := if Fl.lt v (rd R (.fin (24 / 100))) then rd R (.fin (24 / 100)) else v
  pure (rd R (Fl.sqrt v))

/-- `sigma_d`, results.py line 265; `_s2q`, line 60 -/
noncomputable def sigmaD : M ℝ (Fl ℝ) := do
  let s ← sigmaYDark R q
  let k ← gain R q
  pure (rd R (rd R (Fl.sqrt (rd R (rd R (Fl.sq s) - rd R (.fin (1 / 12))))) / k))

/-- `u_p_min`, results.py line 279 -/
noncomputable def uPMin : M ℝ (Fl ℝ) := do
  let e ← QE R q
  let s ← sigmaYDark R q
  let k ← gain R q
  pure (rd R (rd R (.fin 100 / e) * rd R (rd R (s / k) + .fin (1 / 2))))

/-- `u_e_min`, results.py line 311 -/
noncomputable def uEMin : M ℝ (Fl ℝ) := do
  let e ← QE R q
  let p ← uPMin R q
  pure (rd R (rd R (e * p) / .fin 100))

/-- `u_e_sat`, results.py line 378 -/
noncomputable def uESat : M ℝ (Fl ℝ) := do
  let e ← QE R q
  let p ← uPSat
  pure (rd R (rd R (e * p) / .fin 100))

/-- `SNR_max`, results.py line 410 -/
noncomputable def SNRMax : M ℝ (Fl ℝ) := do
  let e ← uESat R q
  pure (rd R (Fl.sqrt e))

/-- `inverse_SNR_max`, results.py line 449 -/
noncomputable def inverseSNRMax : M ℝ (Fl ℝ) := do
  let s ← SNRMax R q
  pure (rd R (.fin 100 / s))

/-- `DR`, results.py line 467 -/
noncomputable def DR : M ℝ (Fl ℝ) := do
  let s ← uPSat
  let m ← uPMin R q
  pure (rd R (s / m))

/-- the four `..._area` attributes, results.py lines 295-298, 326-329, 359-362, 394-397 -/
noncomputable def perArea (x : M ℝ (Fl ℝ)) : M ℝ (PyNum ℝ) := do
  let a ← ask Res.pixel_area
  match a with
  | none => pure .none
  | some a => if a = 0 then pure .none else do
    let v ← x
    pure (.num (rd R (v / .fin a)))

end Emva.Rounded
