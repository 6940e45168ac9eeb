import Verif.Model.RoundedResults
import Verif.Model.Rounded

/-!
The spatial results of src/emva1288/process/results.py with the rounding of every floating point operation.

The computations are those of `Model/Results.lean`; after each operation the result is rounded. `M`, `N` and `L` are python
integers: their products and differences are exact, and a quotient of integers is the exact quotient, rounded. `L` becomes a
float in `/`, which is exact up to 2^53.
-/
set_option autoImplicit false
namespace Emva.Rounded
open Data Results
variable {u : ℝ} (R : Rounding u) (S : RSum R) (q : LSQ ℝ)

/-- the dictionary of `_get_spatial_data`, data.py lines 319-328, in floating point; the sum of the images is that of the
integer arithmetic -/
noncomputable def spatialDict (M N : ℕ) (d : IntImgs ℚ) : Data.SpatialData ℝ :=
  let s := spatialData R S M N d
  { h := d.h, w := d.w, sum := d.sum, var_mean := .fin s.var_mean, L := d.L, M := M, N := N, avg_var := .fin s.avg_var,
    avg_mean := .fin s.avg_mean, avg_var_cav := .fin s.avg_var_cav, avg_var_rav := .fin s.avg_var_rav }

/-- `s_2_y` / `s_2_y_dark`, results.py lines 758-759, 771-772 -/
noncomputable def s2Y (dark : Bool) : M ℝ (Fl ℝ) := do
  let m ← s2YMeasured dark
  let v ← sigma2YStack dark
  let s ← spat dark
  pure (rd R (m - rd R (v / .fin (s.L : ℝ))))

/-- quotient of two integers, `ZeroDivisionError` for a zero divisor.
process/results.py lines 834-835, 868-869, 902: the quotients of `M` and `N`. -/
noncomputable def intQuot (a b : ℤ) : M ℝ (Fl ℝ) := do
  let x ← lift (intDiv a b)
  pure (rd R x)

/-- `s_2_y_col` / `s_2_y_col_dark`, results.py lines 832-837, 849-854 -/
noncomputable def s2YCol (dark : Bool) : M ℝ (Fl ℝ) := do
  let s ← spat dark
  let m : ℤ := s.M
  let n : ℤ := s.N
  let para_1 ← intQuot R (m * n - m) (m * n - m - n)
  let para_2 ← intQuot R n (m * n - m - n)
  let cav ← s2YCav dark
  let sy ← s2Y R dark
  let rav ← s2YRav dark
  pure (rd R (rd R (para_1 * cav) - rd R (para_2 * rd R (sy - rav))))

/-- `s_2_y_row` / `s_2_y_row_dark`, results.py lines 866-871, 883-888 -/
noncomputable def s2YRow (dark : Bool) : M ℝ (Fl ℝ) := do
  let s ← spat dark
  let m : ℤ := s.M
  let n : ℤ := s.N
  let para_1 ← intQuot R (m * n - n) (m * n - m - n)
  let para_2 ← intQuot R m (m * n - m - n)
  let rav ← s2YRav dark
  let sy ← s2Y R dark
  let cav ← s2YCav dark
  pure (rd R (rd R (para_1 * rav) - rd R (para_2 * rd R (sy - cav))))

/-- `s_2_y_pixel` / `s_2_y_pixel_dark`, results.py lines 900-904, 916-920 -/
noncomputable def s2YPixel (dark : Bool) : M ℝ (Fl ℝ) := do
  let s ← spat dark
  let m : ℤ := s.M
  let n : ℤ := s.N
  let para ← intQuot R (m * n) (m * n - m - n)
  let sy ← s2Y R dark
  let cav ← s2YCav dark
  let rav ← s2YRav dark
  pure (rd R (para * rd R (rd R (sy - cav) - rav)))

/-- `DSNU1288`, `DSNU1288_row`, `DSNU1288_col`, `DSNU1288_pixel` from the variance, results.py lines 939-941, 983-985, 1004-1006,
1025-1027 -/
noncomputable def dsnu (var : M ℝ (Fl ℝ)) : M ℝ (PyNum ℝ) := do
  let v ← var
  if Fl.lt v (.fin 0) then pure .npnan
  else do
    let v ← var
    let k ← gain R q
    pure (.num (rd R (rd R (Fl.sqrt v) / k)))

/-- `DSNU1288_DN`, results.py lines 962-964 -/
noncomputable def DSNU1288DN : M ℝ (PyNum ℝ) := do
  let v ← s2Y R true
  if Fl.lt v (.fin 0) then pure .npnan
  else do
    let v ← s2Y R true
    pure (.num (rd R (Fl.sqrt v)))

/-- `PRNU1288`, `PRNU1288_row`, `PRNU1288_col`, `PRNU1288_pixel` from the variances, results.py lines 1047-1048, 1068-1069,
1089-1090, 1110-1111 -/
noncomputable def prnu (var : Bool → M ℝ (Fl ℝ)) : M ℝ (Fl ℝ) := do
  let b ← var false
  let d ← var true
  let sb ← spat false
  let sd ← spat true
  pure (rd R (rd R (rd R (Fl.sqrt (rd R (b - d))) * .fin 100) / rd R (sb.avg_mean - sd.avg_mean)))

end Emva.Rounded
