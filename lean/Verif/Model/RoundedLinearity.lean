import Verif.Model.RoundedResults

/-!
The linearity and the logarithmic results of src/emva1288/process/results.py with the rounding of every floating point operation.

The computations are those of `Model/Results.lean`; after each operation the result is rounded, and `np.sum` adds in some order
(`RSum`). `** 2` counts as one operation, rounded. `np.log10` and `np.log2` are functions of a library; they are a parameter `RLog`
with a relative error.
-/
set_option autoImplicit false
namespace Emva

/-- a logarithm in floating point (base, argument) with relative error `w`.
process/results.py lines 423, 436, 482. -/
structure RLog (w : ℝ) where
  log : ℝ → ℝ → ℝ
  err : ∀ b x, 0 < x → |log b x - Real.logb b x| ≤ w * |Real.logb b x|

namespace Rounded
open Data Results
variable {u : ℝ} (R : Rounding u) (S : RSum R) (q : LSQ ℝ)

/-- `np.sum` of an array; without finite values only the kinds of the values matter.
process/results.py lines 548-552. -/
noncomputable def fsum (l : List (Fl ℝ)) : Fl ℝ :=
  match finite? l with
  | some x => .fin (S.sum x)
  | none => Fl.sum l

/-- `index_linearity_min`, results.py lines 494-497 -/
noncomputable def indexLinearityMin : M ℝ ℕ := do
  let Y ← signal R
  let k ← indexUysat
  let ys ← lift (Np.idx Y k)
  let vmin := rd R (rd R (.fin (5 / 100)) * ys)
  lift (Np.minI (Np.argwhere (fun y => Fl.le vmin y) Y))

/-- `index_linearity_max`, results.py lines 510-512 -/
noncomputable def indexLinearityMax : M ℝ ℕ := lastBelow R (95 / 100)

/-- The fit of `linearity` from the two slices, results.py lines 548-555. -/
noncomputable def linFit (X Y : List (Fl ℝ)) : Except PyErr (Fl ℝ × Fl ℝ) := do
  let xy := fsum R S (← Np.bin (fun x y => rd R (x / y)) X Y)
  let xy2 := fsum R S (← Np.bin (fun x y => rd R (x / rd R (Fl.sq y))) X Y)
  let x2y2 := fsum R S ((← Np.bin (fun x y => rd R (x / y)) X Y).map fun z => rd R (Fl.sq z))
  let y1 := fsum R S (Y.map fun y => rd R (.fin 1 / y))
  let y2 := fsum R S (Y.map fun y => rd R (.fin 1 / rd R (Fl.sq y)))
  let b := rd R (rd R (rd R (xy * xy2) - rd R (x2y2 * y1)) / rd R (rd R (Fl.sq xy2) - rd R (x2y2 * y2)))
  let a := rd R (rd R (xy - rd R (b * xy2)) / x2y2)
  pure (a, b)

/-- one element of `dev`, results.py line 560; the line is computed twice, with the same result -/
noncomputable def dev (a b y x : Fl ℝ) : Fl ℝ :=
  let f := rd R (rd R (a * x) + b)
  rd R (rd R (.fin 100 * rd R (y - f)) / f)

/-- `linearity`, results.py lines 534-569 -/
noncomputable def linearity : M ℝ (Linearity ℝ) := do
  let Y ← signal R
  let X ← photons
  let jm ← indexLinearityMax R
  let imax := jm + 1
  let imin ← indexLinearityMin R
  let (a, b) ← lift (linFit R S (Np.slice X imin imax) (Np.slice Y imin imax))
  let d ← lift (Np.bin (fun y x => dev R a b y x) Y X)
  let lo ← lift (Np.amin (Np.slice d imin imax))
  let hi ← lift (Np.amax (Np.slice d imin imax))
  pure ⟨a, b, d, lo, hi⟩

/-- `LE_min`, results.py line 583 -/
noncomputable def LEMin : M ℝ (Fl ℝ) := do
  let l ← linearity R S
  pure l.linearity_error_min

/-- `LE_max`, results.py line 597 -/
noncomputable def LEMax : M ℝ (Fl ℝ) := do
  let l ← linearity R S
  pure l.linearity_error_max

/-- `np.log10`, `np.log2`. process/results.py lines 423, 436, 482. -/
noncomputable def flog {w : ℝ} (lg : RLog w) (base : ℝ) : Fl ℝ → Fl ℝ
  | .fin x => if 0 < x then .fin (lg.log base x) else Fl.logb base (.fin x)
  | x => Fl.logb base x

/-- `SNR_max_dB`, results.py line 423 -/
noncomputable def SNRMaxDB {w : ℝ} (lg : RLog w) : M ℝ (Fl ℝ) := do
  let s ← SNRMax R q
  pure (rd R (.fin 20 * flog lg 10 s))

/-- `SNR_max_bit`, results.py line 436 -/
noncomputable def SNRMaxBit {w : ℝ} (lg : RLog w) : M ℝ (Fl ℝ) := do
  let s ← SNRMax R q
  pure (flog lg 2 s)

/-- `DR_dB`, results.py line 482 -/
noncomputable def DRDB {w : ℝ} (lg : RLog w) : M ℝ (Fl ℝ) := do
  let d ← DR R q
  pure (rd R (.fin 20 * flog lg 10 d))

end Rounded
end Emva
