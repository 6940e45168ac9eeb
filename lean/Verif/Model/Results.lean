import Verif.Model.Data
import Verif.Model.Fit
import Verif.Py.FlReal

/-!
Model of src/emva1288/process/results.py (`Results1288`), except the histograms
(`Model/Histogram.lean`), `xml` and the printing.

Attributes are computed on demand and the object has one mutable cell, `_index_u_ysat`.  An attribute
is therefore a computation in the monad `M`: it takes the object and returns the value or an exception
together with the object afterwards (an exception does not undo the assignment).
-/
set_option autoImplicit false
set_option linter.unusedSectionVars false
namespace Emva
namespace Results
open Data

/-- The attributes of the object, results.py lines 56-68 (`_s2q`, `_index_start` and
`_index_sensitivity_min` are constants). -/
structure Res (F : Type) where
  temporal : Temporal F
  spatial : Spatial F
  pixel_area : Option F
  index_u_ysat : Option ℤ

/-- A computation on the object.
process/results.py lines 56-68, the attributes a property may read or set. -/
def M (F : Type) (α : Type) : Type := Res F → Except PyErr α × Res F

variable {F : Type} {α β : Type}

/-- sequencing: an exception stops, the object is threaded.
process/results.py line 113, the attribute a property sets. -/
def M.bind (x : M F α) (f : α → M F β) : M F β := fun r =>
  match x r with
  | (.ok a, r') => f a r'
  | (.error e, r') => (.error e, r')

/-- process/results.py line 113, the attribute a property sets. -/
instance : Monad (M F) where
  pure a := fun r => (.ok a, r)
  bind := M.bind

/-- a computation that does not touch the object. process/results.py lines 497, 512. -/
def lift (x : Except PyErr α) : M F α := fun r => (x, r)

/-- read part of the object. process/results.py lines 56-68. -/
def ask (f : Res F → α) : M F α := fun r => (.ok (f r), r)

/-- Numbers returned by attributes: `None`, the object `np.nan` itself, or a computed number (which
may also be a NaN, but not the object `np.nan`). process/results.py lines 296, 615, 641. -/
inductive PyNum (F : Type)
  | none
  | npnan
  | num (x : Fl F)
  deriving DecidableEq

variable [Field F] [LinearOrder F]

/-- the value as a float (`None` excluded). process/results.py lines 296, 615, 641. -/
def PyNum.toFl : PyNum F → Fl F
  | .num x => x
  | _ => .nan

/-- The backward loop of `index_u_ysat`, results.py lines 103-111; the first argument is `i + 1`. -/
def satLoop (s2_y : List (Fl F)) : ℕ → Fl F → ℕ → Except PyErr ℕ
  | 0, _, max_i => .ok max_i
  | i + 1, max_, max_i =>
    match Np.idx s2_y i with
    | .error e => .error e
    | .ok si =>
      if Fl.le max_ si then satLoop s2_y i si i
      else match Np.idx s2_y ((i : ℤ) - 1).natAbs with
        | .error e => .error e
        | .ok sp =>
          if Fl.le max_ sp then satLoop s2_y i si i
          else if Fl.lt si max_ && Fl.lt sp max_ then .ok max_i
          else satLoop s2_y i max_ max_i

/-- `index_u_ysat`, results.py lines 85-114. -/
def indexUysat : M F ℤ := fun r =>
  match r.index_u_ysat with
  | some i =>
    if i ≠ 0 then (.ok i, r)
    else match satLoop r.temporal.s2_y r.temporal.s2_y.length (.fin 0) 0 with
      | .error e => (.error e, r)
      | .ok k => (.ok k, { r with index_u_ysat := some k })
  | none =>
    match satLoop r.temporal.s2_y r.temporal.s2_y.length (.fin 0) 0 with
      | .error e => (.error e, r)
      | .ok k => (.ok k, { r with index_u_ysat := some k })

/-- `self.temporal['u_y'] - self.temporal['u_ydark']`, results.py lines 126, 158, 184, 494, 510,
534. -/
def signal : M F (List (Fl F)) := do
  let t ← ask Res.temporal
  lift (Np.bin (· - ·) t.u_y t.u_ydark)

/-- `self.temporal['u_p']` as floats. process/results.py lines 159, 343, 535. -/
def photons : M F (List (Fl F)) := ask fun r => r.temporal.u_p.map .fin

/-- `max(np.argwhere(Y <= c * Y[self.index_u_ysat]))[0]`: `index_sensitivity_max` (`c = 0.7`, results.py
lines 126-128) and `index_linearity_max` (`c = 0.95`, lines 510-512). -/
def lastBelow (c : F) : M F ℕ := do
  let Y ← signal
  let k ← indexUysat
  let ys ← lift (Np.idx Y k)
  let m := .fin c * ys
  lift (Np.maxI (Np.argwhere (fun y => Fl.le y m) Y))

/-- `index_sensitivity_max`, results.py lines 116-128. -/
def indexSensitivityMax : M F ℕ := lastBelow (7 / 10)

/-- `index_sensitivity_min`, results.py lines 62 and 141. -/
def indexSensitivityMin : M F ℕ := pure 0

/-- `index_start`, results.py lines 61 and 83. -/
def indexStart : M F ℕ := pure 0

variable (q : LSQ F)

/-- `R`, results.py lines 158-166. -/
def R : M F (Fl F) := do
  let Y ← signal
  let X ← photons
  let i ← indexSensitivityMin
  let j ← indexSensitivityMax
  lift (linearB0 q (Np.slice X i (j + 1)) (Np.slice Y i (j + 1)))

/-- `K`, results.py lines 184-192. -/
def K : M F (Fl F) := do
  let X ← signal
  let t ← ask Res.temporal
  let Y ← lift (Np.bin (· - ·) t.s2_y t.s2_ydark)
  let i ← indexSensitivityMin
  let j ← indexSensitivityMax
  lift (linearB0 q (Np.slice X i (j + 1)) (Np.slice Y i (j + 1)))

/-- `inverse_K`, results.py line 205. -/
def inverseK : M F (Fl F) := do
  let k ← K q
  pure (.fin 1 / k)

/-- `QE`, results.py line 222. -/
def QE : M F (Fl F) := do
  let r ← R q
  let k ← K q
  pure (.fin 100 * r / k)

/-- `len(np.unique(self.temporal['texp'])) <= 2`, results.py lines 238, 614, 661. -/
def fewExposures : M F Bool := ask fun r => decide (Np.nUnique r.temporal.texp ≤ 2)

/-- The dark variance used by `sigma_y_dark`, results.py lines 238-243. -/
def rawDark : M F (Fl F) := do
  let few ← fewExposures
  let t ← ask Res.temporal
  if few then lift (Np.idx t.s2_ydark 0)
    else do
      let fit ← lift (linearB q (t.texp.map .fin) t.s2_ydark)
      pure fit.2

/-- The dark variance after the lower limit, results.py lines 248-249. -/
def s2YDark : M F (Fl F) := do
  let v ← rawDark q
  pure (if Fl.lt v (.fin (24 / 100)) then .fin (24 / 100) else v)

/-- `u_p_sat`, results.py line 343. -/
def uPSat : M F (Fl F) := do
  let t ← ask Res.temporal
  let k ← indexUysat
  let x ← lift (Np.idx t.u_p k)
  pure (.fin x)

/-- `u_e_sat`, results.py line 378. -/
def uESat : M F (Fl F) := do
  let e ← QE q
  let p ← uPSat
  pure (e * p / .fin 100)

/-- The four `..._area` attributes, results.py lines 295-298, 326-329, 359-362, 394-397: `None` unless
a non-zero pixel area is given. -/
def perArea (x : M F (Fl F)) : M F (PyNum F) := do
  let a ← ask Res.pixel_area
  match a with
  | none => pure .none
  | some a => if a = 0 then pure .none else do
    let v ← x
    pure (.num (v / .fin a))

/-- `u_p_sat_area`. process/results.py lines 346-362. -/
def uPSatArea : M F (PyNum F) := perArea uPSat

/-- `u_e_sat_area`. process/results.py lines 381-397. -/
def uESatArea : M F (PyNum F) := perArea (uESat q)

/-- `index_linearity_min`, results.py lines 494-497. -/
def indexLinearityMin : M F ℕ := do
  let Y ← signal
  let k ← indexUysat
  let ys ← lift (Np.idx Y k)
  let vmin := .fin (5 / 100) * ys
  lift (Np.minI (Np.argwhere (fun y => Fl.le vmin y) Y))

/-- `index_linearity_max`, results.py lines 510-512. -/
def indexLinearityMax : M F ℕ := lastBelow (95 / 100)

/-- The dictionary returned by `linearity`. process/results.py lines 562-567. -/
structure Linearity (F : Type) where
  fit_slope : Fl F
  fit_offset : Fl F
  relative_deviation : List (Fl F)
  linearity_error_min : Fl F
  linearity_error_max : Fl F

/-- The fit of `linearity` from the two slices, results.py lines 548-555. -/
def linFit (X Y : List (Fl F)) : Except PyErr (Fl F × Fl F) := do
  let xy := Fl.sum (← Np.bin (· / ·) X Y)
  let xy2 := Fl.sum (← Np.bin (fun x y => x / Fl.sq y) X Y)
  let x2y2 := Fl.sum ((← Np.bin (· / ·) X Y).map Fl.sq)
  let y1 := Fl.sum (Y.map fun y => .fin 1 / y)
  let y2 := Fl.sum (Y.map fun y => .fin 1 / Fl.sq y)
  let b := (xy * xy2 - x2y2 * y1) / (Fl.sq xy2 - x2y2 * y2)
  let a := (xy - b * xy2) / x2y2
  pure (a, b)

/-- `linearity`, results.py lines 534-569. -/
def linearity : M F (Linearity F) := do
  let Y ← signal
  let X ← photons
  let jm ← indexLinearityMax
  let imax := jm + 1
  let imin ← indexLinearityMin
  let (a, b) ← lift (linFit (Np.slice X imin imax) (Np.slice Y imin imax))
  let dev ← lift (Np.bin (fun y x => .fin 100 * (y - (a * x + b)) / (a * x + b)) Y X)
  let lo ← lift (Np.amin (Np.slice dev imin imax))
  let hi ← lift (Np.amax (Np.slice dev imin imax))
  pure ⟨a, b, dev, lo, hi⟩

/-- `LE_min`, results.py line 583. -/
def LEMin : M F (Fl F) := do
  let l ← linearity
  pure l.linearity_error_min

/-- `LE_max`, results.py line 597. -/
def LEMax : M F (Fl F) := do
  let l ← linearity
  pure l.linearity_error_max

/-- `u_I_var_DN`, results.py lines 614-623. -/
def uIVarDN : M F (PyNum F) := do
  let few ← fewExposures
  if few then pure .npnan
  else do
    let t ← ask Res.temporal
    let fit ← lift (linearB q (t.texp.map .fin) t.s2_ydark)
    if Fl.lt fit.1 (.fin 0) then pure .npnan
    else do
      let k ← K q
      pure (.num (fit.1 / k * .fin (10 ^ 9)))

/-- `ui / self.K` unless `ui` is the object `np.nan`, results.py lines 640-644 and 683-686. -/
def overK (x : M F (PyNum F)) : M F (PyNum F) := do
  let ui ← x
  match ui with
  | .npnan => pure .npnan
  | .none => lift (.error .typeError)
  | .num v => do
    let k ← K q
    pure (.num (v / k))

/-- `u_I_var`, results.py lines 640-644. -/
def uIVar : M F (PyNum F) := overK q (uIVarDN q)

/-- `u_I_mean_DN`, results.py lines 661-667. -/
def uIMeanDN : M F (PyNum F) := do
  let few ← fewExposures
  if few then pure .npnan
  else do
    let t ← ask Res.temporal
    let fit ← lift (linearB q (t.texp.map .fin) t.u_ydark)
    pure (.num (fit.1 * .fin (10 ^ 9)))

/-- `u_I_mean`, results.py lines 683-686. -/
def uIMean : M F (PyNum F) := overK q (uIMeanDN q)

/-- The dictionary entries with (`dark = true`) or without the suffix `_dark`.
process/results.py lines 701, 716, 732, 746. -/
def spat (dark : Bool) : M F (SpatialData F) :=
  ask fun r => if dark then r.spatial.dark else r.spatial.bright

/-- `sigma_2_y_stack` / `sigma_2_y_stack_dark`, results.py lines 701, 716. -/
def sigma2YStack (dark : Bool) : M F (Fl F) := do
  let s ← spat dark
  pure s.var_mean

/-- `s_2_y_measured` / `s_2_y_measured_dark`, results.py lines 732, 746. -/
def s2YMeasured (dark : Bool) : M F (Fl F) := do
  let s ← spat dark
  pure s.avg_var

/-- `s_2_y` / `s_2_y_dark`, results.py lines 758-759, 771-772. -/
def s2Y (dark : Bool) : M F (Fl F) := do
  let m ← s2YMeasured dark
  let v ← sigma2YStack dark
  let s ← spat dark
  pure (m - v / .fin (s.L : F))

/-- `s_2_y_cav` / `s_2_y_cav_dark`, results.py lines 784, 796. -/
def s2YCav (dark : Bool) : M F (Fl F) := do
  let s ← spat dark
  pure s.avg_var_cav

/-- `s_2_y_rav` / `s_2_y_rav_dark`, results.py lines 808, 820. -/
def s2YRav (dark : Bool) : M F (Fl F) := do
  let s ← spat dark
  pure s.avg_var_rav

/-- Division of python integers: `ZeroDivisionError` for a zero divisor.
process/results.py lines 758, 771. -/
def intDiv (a b : ℤ) : Except PyErr (Fl F) :=
  if b = 0 then .error .zeroDivisionError else .ok (.fin ((a : F) / (b : F)))

/-- `s_2_y_col` / `s_2_y_col_dark`, results.py lines 832-837, 849-854. -/
def s2YCol (dark : Bool) : M F (Fl F) := do
  let s ← spat dark
  let m : ℤ := s.M
  let n : ℤ := s.N
  let para_1 ← lift (intDiv (m * n - m) (m * n - m - n))
  let para_2 ← lift (intDiv n (m * n - m - n))
  let cav ← s2YCav dark
  let sy ← s2Y dark
  let rav ← s2YRav dark
  pure (para_1 * cav - para_2 * (sy - rav))

/-- `s_2_y_row` / `s_2_y_row_dark`, results.py lines 866-871, 883-888. -/
def s2YRow (dark : Bool) : M F (Fl F) := do
  let s ← spat dark
  let m : ℤ := s.M
  let n : ℤ := s.N
  let para_1 ← lift (intDiv (m * n - n) (m * n - m - n))
  let para_2 ← lift (intDiv m (m * n - m - n))
  let rav ← s2YRav dark
  let sy ← s2Y dark
  let cav ← s2YCav dark
  pure (para_1 * rav - para_2 * (sy - cav))

/-- `s_2_y_pixel` / `s_2_y_pixel_dark`, results.py lines 900-904, 916-920. -/
def s2YPixel (dark : Bool) : M F (Fl F) := do
  let s ← spat dark
  let m : ℤ := s.M
  let n : ℤ := s.N
  let para ← lift (intDiv (m * n) (m * n - m - n))
  let sy ← s2Y dark
  let cav ← s2YCav dark
  let rav ← s2YRav dark
  pure (para * (sy - cav - rav))

section Real
variable (q : LSQ ℝ)

/-- `sigma_y_dark`, results.py lines 238-251. -/
noncomputable def sigmaYDark : M ℝ (Fl ℝ) := do
  let v ← s2YDark q
  pure (Fl.sqrt v)

/-- `sigma_d`, results.py line 265. -/
noncomputable def sigmaD : M ℝ (Fl ℝ) := do
  let s ← sigmaYDark q
  let k ← K q
  pure (Fl.sqrt (Fl.sq s - .fin (1 / 12)) / k)

/-- `u_p_min`, results.py line 279. -/
noncomputable def uPMin : M ℝ (Fl ℝ) := do
  let e ← QE q
  let s ← sigmaYDark q
  let k ← K q
  pure (.fin 100 / e * (s / k + .fin (1 / 2)))

/-- `u_p_min_area`, results.py lines 295-298. -/
noncomputable def uPMinArea : M ℝ (PyNum ℝ) := perArea (uPMin q)

/-- `u_e_min`, results.py line 311. -/
noncomputable def uEMin : M ℝ (Fl ℝ) := do
  let e ← QE q
  let p ← uPMin q
  pure (e * p / .fin 100)

/-- `u_e_min_area`, results.py lines 326-329. -/
noncomputable def uEMinArea : M ℝ (PyNum ℝ) := perArea (uEMin q)

/-- `SNR_max`, results.py line 410. -/
noncomputable def SNRMax : M ℝ (Fl ℝ) := do
  let e ← uESat q
  pure (Fl.sqrt e)

/-- `SNR_max_dB`, results.py line 423. -/
noncomputable def SNRMaxDB : M ℝ (Fl ℝ) := do
  let s ← SNRMax q
  pure (.fin 20 * Fl.logb 10 s)

/-- `SNR_max_bit`, results.py line 436. -/
noncomputable def SNRMaxBit : M ℝ (Fl ℝ) := do
  let s ← SNRMax q
  pure (Fl.logb 2 s)

/-- `inverse_SNR_max`, results.py line 449. -/
noncomputable def inverseSNRMax : M ℝ (Fl ℝ) := do
  let s ← SNRMax q
  pure (.fin 100 / s)

/-- `DR`, results.py line 467. -/
noncomputable def DR : M ℝ (Fl ℝ) := do
  let s ← uPSat
  let m ← uPMin q
  pure (s / m)

/-- `DR_dB`, results.py line 482. -/
noncomputable def DRDB : M ℝ (Fl ℝ) := do
  let d ← DR q
  pure (.fin 20 * Fl.logb 10 d)

/-- `if v < 0: return np.nan` else `np.sqrt(v) / self.K`: `DSNU1288`, `DSNU1288_row`, `DSNU1288_col`,
`DSNU1288_pixel`, results.py lines 939-941, 983-985, 1004-1006, 1025-1027. -/
noncomputable def dsnu (var : M ℝ (Fl ℝ)) : M ℝ (PyNum ℝ) := do
  let v ← var
  if Fl.lt v (.fin 0) then pure .npnan
  else do
    let v ← var
    let k ← K q
    pure (.num (Fl.sqrt v / k))

/-- `DSNU1288`. process/results.py lines 923-941. -/
noncomputable def DSNU1288 : M ℝ (PyNum ℝ) := dsnu q (s2Y true)

/-- `DSNU1288_row`. process/results.py lines 967-985. -/
noncomputable def DSNU1288Row : M ℝ (PyNum ℝ) := dsnu q (s2YRow true)

/-- `DSNU1288_col`. process/results.py lines 988-1006. -/
noncomputable def DSNU1288Col : M ℝ (PyNum ℝ) := dsnu q (s2YCol true)

/-- `DSNU1288_pixel`. process/results.py lines 1009-1027. -/
noncomputable def DSNU1288Pixel : M ℝ (PyNum ℝ) := dsnu q (s2YPixel true)

/-- `DSNU1288_DN`, results.py lines 962-964. -/
noncomputable def DSNU1288DN : M ℝ (PyNum ℝ) := do
  let v ← s2Y true
  if Fl.lt v (.fin 0) then pure .npnan
  else do
    let v ← s2Y true
    pure (.num (Fl.sqrt v))

/-- `np.sqrt(bright - dark) * 100 / (avg_mean - avg_mean_dark)`: `PRNU1288`, `PRNU1288_row`,
`PRNU1288_col`, `PRNU1288_pixel`, results.py lines 1047-1048, 1068-1069, 1089-1090, 1110-1111. -/
noncomputable def prnu (var : Bool → M ℝ (Fl ℝ)) : M ℝ (Fl ℝ) := do
  let b ← var false
  let d ← var true
  let sb ← spat false
  let sd ← spat true
  pure (Fl.sqrt (b - d) * .fin 100 / (sb.avg_mean - sd.avg_mean))

/-- `PRNU1288`. process/results.py lines 1030-1048. -/
noncomputable def PRNU1288 : M ℝ (Fl ℝ) := prnu s2Y

/-- `PRNU1288_row`. process/results.py lines 1051-1069. -/
noncomputable def PRNU1288Row : M ℝ (Fl ℝ) := prnu s2YRow

/-- `PRNU1288_col`. process/results.py lines 1072-1090. -/
noncomputable def PRNU1288Col : M ℝ (Fl ℝ) := prnu s2YCol

/-- `PRNU1288_pixel`. process/results.py lines 1093-1111. -/
noncomputable def PRNU1288Pixel : M ℝ (Fl ℝ) := prnu s2YPixel

end Real

/-- `Results1288(data, pixel_area=..., index_u_ysat=...)`, results.py lines 56-68. -/
def make (d : Data1288 F) (pixel_area : Option F) (index_u_ysat : Option ℤ) : Res F :=
  ⟨d.temporal, d.spatial, pixel_area, index_u_ysat⟩

end Results
end Emva
