import Verif.Model.IeeeResults
import Verif.Model.RoundedLinearity

/-!
The linearity and the logarithmic results of src/emva1288/process/results.py in float64 with its largest and its smallest numbers.

The computations are those of `Model/RoundedLinearity.lean`, with `rounded` of `Py/Ieee.lean` for the rounding and a summation in
float64 (`ISum`) for `np.sum`.
-/
set_option autoImplicit false
namespace Emva.Ieee
open Data Results

/-- `index_linearity_min`, results.py lines 494-497 -/
noncomputable def indexLinearityMin : M ℝ ℕ := do
  let Y ← signal
  let k ← indexUysat
  let ys ← lift (Np.idx Y k)
  let vmin := rounded (rounded (.fin (5 / 100)) * ys)
  lift (Np.minI (Np.argwhere (fun y => Fl.le vmin y) Y))

/-- `index_linearity_max`, results.py lines 510-512 -/
noncomputable def indexLinearityMax : M ℝ ℕ := lastBelow (95 / 100)

/-- The fit of `linearity` from the two slices, results.py lines 548-555. -/
noncomputable def linFit (T : ISum) (X Y : List (Fl ℝ)) : Except PyErr (Fl ℝ × Fl ℝ) := do
  let xy := T.sum (← Np.bin (fun x y => rounded (x / y)) X Y)
  let xy2 := T.sum (← Np.bin (fun x y => rounded (x / rounded (Fl.sq y))) X Y)
  let x2y2 := T.sum ((← Np.bin (fun x y => rounded (x / y)) X Y).map fun z => rounded (Fl.sq z))
  let y1 := T.sum (Y.map fun y => rounded (.fin 1 / y))
  let y2 := T.sum (Y.map fun y => rounded (.fin 1 / rounded (Fl.sq y)))
  let b := rounded (rounded (rounded (xy * xy2) - rounded (x2y2 * y1)) / rounded (rounded (Fl.sq xy2) - rounded (x2y2 * y2)))
  let a := rounded (rounded (xy - rounded (b * xy2)) / x2y2)
  pure (a, b)

/-- one element of `dev`, results.py line 560; the line is computed twice, with the same result -/
noncomputable def dev (a b y x : Fl ℝ) : Fl ℝ :=
  let f := rounded (rounded (a * x) + b)
  rounded (rounded (.fin 100 * rounded (y - f)) / f)

/-- `linearity`, results.py lines 534-569 -/
noncomputable def linearity (T : ISum) : M ℝ (Linearity ℝ) := do
  let Y ← signal
  let X ← photons
  let jm ← indexLinearityMax
  let imax := jm + 1
  let imin ← indexLinearityMin
  let (a, b) ← lift (linFit T (Np.slice X imin imax) (Np.slice Y imin imax))
  let d ← lift (Np.bin (fun y x => dev a b y x) Y X)
  let lo ← lift (Np.amin (Np.slice d imin imax))
  let hi ← lift (Np.amax (Np.slice d imin imax))
  pure ⟨a, b, d, lo, hi⟩

/-- `LE_min`, results.py line 583 -/
noncomputable def LEMin (T : ISum) : M ℝ (Fl ℝ) := do
  let l ← linearity T
  pure l.linearity_error_min

/-- `LE_max`, results.py line 597 -/
noncomputable def LEMax (T : ISum) : M ℝ (Fl ℝ) := do
  let l ← linearity T
  pure l.linearity_error_max

/-- `SNR_max_dB`, results.py line 423 -/
noncomputable def SNRMaxDB (q : LSQ ℝ) {w : ℝ} (lg : RLog w) : M ℝ (Fl ℝ) := do
  let s ← SNRMax q
  pure (rounded (.fin 20 * Rounded.flog lg 10 s))

/-- `SNR_max_bit`, results.py line 436 -/
noncomputable def SNRMaxBit (q : LSQ ℝ) {w : ℝ} (lg : RLog w) : M ℝ (Fl ℝ) := do
  let s ← SNRMax q
  pure (Rounded.flog lg 2 s)

/-- `DR_dB`, results.py line 482 -/
noncomputable def DRDB (q : LSQ ℝ) {w : ℝ} (lg : RLog w) : M ℝ (Fl ℝ) := do
  let d ← DR q
  pure (rounded (.fin 20 * Rounded.flog lg 10 d))

end Emva.Ieee
