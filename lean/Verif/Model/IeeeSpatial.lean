import Verif.Model.IeeeResults

/-!
The spatial results of src/emva1288/process/results.py in float64 with its limits (infinities, gradual underflow), as
`Model/RoundedSpatial.lean`.
-/
set_option autoImplicit false
namespace Emva.Ieee
open Data Results
variable (T : ISum) (q : LSQ ℝ)

/-- the dictionary of `_get_spatial_data`, data.py lines 319-328; the sum of the images is that of the integer arithmetic -/
noncomputable def spatialDict (M N : ℕ) (d : IntImgs ℚ) : Data.SpatialData ℝ :=
  let s := spatialData T M N d
  { h := d.h, w := d.w, sum := d.sum, var_mean := s.var_mean, L := d.L, M := M, N := N, avg_var := s.avg_var,
    avg_mean := s.avg_mean, avg_var_cav := s.avg_var_cav, avg_var_rav := s.avg_var_rav }

/-- `s_2_y` / `s_2_y_dark`, results.py lines 758-759, 771-772 -/
noncomputable def s2Y (dark : Bool) : M ℝ (Fl ℝ) := do
  let m ← s2YMeasured dark
  let v ← sigma2YStack dark
  let s ← spat dark
  pure (rounded (m - rounded (v / .fin (s.L : ℝ))))

/-- quotient of two integers, `ZeroDivisionError` for a zero divisor.
process/results.py lines 834-835, 868-869, 902: the quotients of `M` and `N`. -/
noncomputable def intQuot (a b : ℤ) : M ℝ (Fl ℝ) := do
  let x ← lift (intDiv a b)
  pure (rounded x)

/-- `s_2_y_col` / `s_2_y_col_dark`, results.py lines 832-837, 849-854 -/
noncomputable def s2YCol (dark : Bool) : M ℝ (Fl ℝ) := do
  let s ← spat dark
  let m : ℤ := s.M
  let n : ℤ := s.N
  let para_1 ← intQuot (m * n - m) (m * n - m - n)
  let para_2 ← intQuot n (m * n - m - n)
  let cav ← s2YCav dark
  let sy ← s2Y dark
  let rav ← s2YRav dark
  pure (rounded (rounded (para_1 * cav) - rounded (para_2 * rounded (sy - rav))))

/-- `s_2_y_row` / `s_2_y_row_dark`, results.py lines 866-871, 883-888 -/
noncomputable def s2YRow (dark : Bool) : M ℝ (Fl ℝ) := do
  let s ← spat dark
  let m : ℤ := s.M
  let n : ℤ := s.N
  let para_1 ← intQuot (m * n - n) (m * n - m - n)
  let para_2 ← intQuot m (m * n - m - n)
  let rav ← s2YRav dark
  let sy ← s2Y dark
  let cav ← s2YCav dark
  pure (rounded (rounded (para_1 * rav) - rounded (para_2 * rounded (sy - cav))))

/-- `s_2_y_pixel` / `s_2_y_pixel_dark`, results.py lines 900-904, 916-920 -/
noncomputable def s2YPixel (dark : Bool) : M ℝ (Fl ℝ) := do
  let s ← spat dark
  let m : ℤ := s.M
  let n : ℤ := s.N
  let para ← intQuot (m * n) (m * n - m - n)
  let sy ← s2Y dark
  let cav ← s2YCav dark
  let rav ← s2YRav dark
  pure (rounded (para * rounded (rounded (sy - cav) - rav)))

/-- `DSNU1288`, `DSNU1288_row`, `DSNU1288_col`, `DSNU1288_pixel` from the variance, results.py lines 939-941, 983-985, 1004-1006,
1025-1027 -/
noncomputable def dsnu (var : M ℝ (Fl ℝ)) : M ℝ (PyNum ℝ) := do
  let v ← var
  if Fl.lt v (.fin 0) then pure .npnan
  else do
    let v ← var
    let k ← gain q
    pure (.num (rounded (rounded (Fl.sqrt v) / k)))

/-- `DSNU1288_DN`, results.py lines 962-964 -/
noncomputable def DSNU1288DN : M ℝ (PyNum ℝ) := do
  let v ← s2Y true
  if Fl.lt v (.fin 0) then pure .npnan
  else do
    let v ← s2Y true
    pure (.num (rounded (Fl.sqrt v)))

/-- `PRNU1288`, `PRNU1288_row`, `PRNU1288_col`, `PRNU1288_pixel` from the variances, results.py lines 1047-1048, 1068-1069,
1089-1090, 1110-1111 -/
noncomputable def prnu (var : Bool → M ℝ (Fl ℝ)) : M ℝ (Fl ℝ) := do
  let b ← var false
  let d ← var true
  let sb ← spat false
  let sd ← spat true
  pure (rounded (rounded (rounded (Fl.sqrt (rounded (b - d))) * .fin 100) / rounded (sb.avg_mean - sd.avg_mean)))

end Emva.Ieee
