import Verif.Py.Ieee
import Verif.Model.RoundedMeasurement
import Verif.Model.IeeeData
import Verif.Model.Results

/-!
Results of src/emva1288/process/results.py in float64 with its limits (infinities, gradual underflow), as
`Model/RoundedResults.lean`, and the temporal data of a measurement, as `Model/RoundedMeasurement.lean`. The fits are a parameter.
-/
set_option autoImplicit false
namespace Emva.Ieee
open Data Results
variable (q : LSQ ℝ)

/-- `data['temporal']` of a measurement. process/data.py lines 113-155. -/
noncomputable def temporal (T : ISum) (h w : ℕ) (l : List Shot) : Temporal ℝ where
  texp := l.map Shot.texp
  u_p := l.map Shot.photons
  u_y := l.map fun s => (seriesPoint (h * w) (entry T [s.bright₁, s.bright₂])).1
  s2_y := l.map fun s => (seriesPoint (h * w) (entry T [s.bright₁, s.bright₂])).2
  u_ydark := l.map fun s => (seriesPoint (h * w) (entry T [s.dark₁, s.dark₂])).1
  s2_ydark := l.map fun s => (seriesPoint (h * w) (entry T [s.dark₁, s.dark₂])).2

/-- `self.temporal['u_y'] - self.temporal['u_ydark']`, results.py lines 126, 158, 184, 494, 510 -/
noncomputable def signal : M ℝ (List (Fl ℝ)) := do
  let t ← ask Res.temporal
  lift (Np.bin (fun a b => rounded (a - b)) t.u_y t.u_ydark)

/-- `max(np.argwhere(Y <= c * Y[self.index_u_ysat]))[0]`, results.py lines 126-128 (`c = 0.7`), 510-512 (`c = 0.95`);
`index_u_ysat` (lines 85-114) only compares -/
noncomputable def lastBelow (c : ℝ) : M ℝ ℕ := do
  let Y ← signal
  let k ← indexUysat
  let ys ← lift (Np.idx Y k)
  let m := rounded (rounded (.fin c) * ys)
  lift (Np.maxI (Np.argwhere (fun y => Fl.le y m) Y))

/-- `index_sensitivity_max`, results.py lines 116-128 -/
noncomputable def indexSensitivityMax : M ℝ ℕ := lastBelow (7 / 10)

/-- `R`, results.py lines 158-166 -/
noncomputable def resp : M ℝ (Fl ℝ) := do
  let Y ← signal
  let X ← photons
  let i ← indexSensitivityMin
  let j ← indexSensitivityMax
  lift (linearB0 q (Np.slice X i (j + 1)) (Np.slice Y i (j + 1)))

/-- `K`, results.py lines 184-192 -/
noncomputable def gain : M ℝ (Fl ℝ) := do
  let X ← signal
  let t ← ask Res.temporal
  let Y ← lift (Np.bin (fun a b => rounded (a - b)) t.s2_y t.s2_ydark)
  let i ← indexSensitivityMin
  let j ← indexSensitivityMax
  lift (linearB0 q (Np.slice X i (j + 1)) (Np.slice Y i (j + 1)))

/-- `inverse_K`, results.py line 205 -/
noncomputable def inverseK : M ℝ (Fl ℝ) := do
  let k ← gain q
  pure (rounded (.fin 1 / k))

/-- `QE`, results.py line 222 -/
noncomputable def QE : M ℝ (Fl ℝ) := do
  let r ← resp q
  let k ← gain q
  pure (rounded (rounded (.fin 100 * r) / k))

/-- `sigma_y_dark`, results.py lines 238-251 -/
noncomputable def sigmaYDark : M ℝ (Fl ℝ) := do
  let v ← rawDark q
  let v := if Fl.lt v (rounded (.fin (24 / 100))) then rounded (.fin (24 / 100)) else v
  pure (rounded (Fl.sqrt v))

/-- `sigma_d`, results.py line 265; `_s2q`, line 60 -/
noncomputable def sigmaD : M ℝ (Fl ℝ) := do
  let s ← sigmaYDark q
  let k ← gain q
  pure (rounded (rounded (Fl.sqrt (rounded (rounded (Fl.sq s) - rounded (.fin (1 / 12))))) / k))

/-- `u_p_min`, results.py line 279 -/
noncomputable def uPMin : M ℝ (Fl ℝ) := do
  let e ← QE q
  let s ← sigmaYDark q
  let k ← gain q
  pure (rounded (rounded (.fin 100 / e) * rounded (rounded (s / k) + .fin (1 / 2))))

/-- `u_e_min`, results.py line 311 -/
noncomputable def uEMin : M ℝ (Fl ℝ) := do
  let e ← QE q
  let p ← uPMin q
  pure (rounded (rounded (e * p) / .fin 100))

/-- `u_e_sat`, results.py line 378 -/
noncomputable def uESat : M ℝ (Fl ℝ) := do
  let e ← QE q
  let p ← uPSat
  pure (rounded (rounded (e * p) / .fin 100))

/-- `SNR_max`, results.py line 410 -/
noncomputable def SNRMax : M ℝ (Fl ℝ) := do
  let e ← uESat q
  pure (rounded (Fl.sqrt e))

/-- `inverse_SNR_max`, results.py line 449 -/
noncomputable def inverseSNRMax : M ℝ (Fl ℝ) := do
  let s ← SNRMax q
  pure (rounded (.fin 100 / s))

/-- `DR`, results.py line 467 -/
noncomputable def DR : M ℝ (Fl ℝ) := do
  let s ← uPSat
  let m ← uPMin q
  pure (rounded (s / m))

end Emva.Ieee
