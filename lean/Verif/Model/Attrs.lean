import Verif.Model.Results
import Verif.Model.ResultsHist

/-!
The attributes of `Results1288` under their python names (results.py), as one function `read`.
The histograms are in `Model/ResultsHist.lean`.
-/
set_option autoImplicit false
namespace Emva
namespace Results

/-- The attributes and methods without arguments of `Results1288`, in the order of results.py.
process/results.py lines 75-1224. -/
inductive Attr
  | s2q | index_start | index_u_ysat | index_sensitivity_max | index_sensitivity_min
  | R | K | inverse_K | QE | sigma_y_dark | sigma_d
  | u_p_min | u_p_min_area | u_e_min | u_e_min_area
  | u_p_sat | u_p_sat_area | u_e_sat | u_e_sat_area
  | SNR_max | SNR_max_dB | SNR_max_bit | inverse_SNR_max | DR | DR_dB
  | index_linearity_min | index_linearity_max | linearity | LE_min | LE_max
  | u_I_var_DN | u_I_var | u_I_mean_DN | u_I_mean
  | sigma_2_y_stack | sigma_2_y_stack_dark | s_2_y_measured | s_2_y_measured_dark
  | s_2_y | s_2_y_dark | s_2_y_cav | s_2_y_cav_dark | s_2_y_rav | s_2_y_rav_dark
  | s_2_y_col | s_2_y_col_dark | s_2_y_row | s_2_y_row_dark | s_2_y_pixel | s_2_y_pixel_dark
  | DSNU1288 | DSNU1288_DN | DSNU1288_row | DSNU1288_col | DSNU1288_pixel
  | PRNU1288 | PRNU1288_row | PRNU1288_col | PRNU1288_pixel
  | histogram_PRNU | histogram_PRNU_accumulated | histogram_DSNU | histogram_DSNU_accumulated
  deriving DecidableEq

/-- What an attribute returns. process/results.py lines 75-1224, the `return` statements. -/
inductive Value
  | int (i : ℤ)
  | num (x : PyNum ℝ)
  | lin (l : Linearity ℝ)
  | hist (h : HistF ℝ)

/-- Map over the value of a computation.
process/routines.py lines 402-404, the call of `getattr`. -/
def M.as {F α : Type} (x : M F α) (f : α → Value) : M F Value := do
  let a ← x
  pure (f a)

/-- `getattr(results, name)` (called if it is a method). process/routines.py lines 402-404. -/
noncomputable def read (q : LSQ ℝ) : Attr → M ℝ Value
  | .s2q => pure (.num (.num (.fin (1 / 12))))
  | .index_start => indexStart.as fun k => .int k
  | .index_u_ysat => indexUysat.as .int
  | .index_sensitivity_max => indexSensitivityMax.as fun k => .int k
  | .index_sensitivity_min => indexSensitivityMin.as fun k => .int k
  | .R => (R q).as fun x => .num (.num x)
  | .K => (K q).as fun x => .num (.num x)
  | .inverse_K => (inverseK q).as fun x => .num (.num x)
  | .QE => (QE q).as fun x => .num (.num x)
  | .sigma_y_dark => (sigmaYDark q).as fun x => .num (.num x)
  | .sigma_d => (sigmaD q).as fun x => .num (.num x)
  | .u_p_min => (uPMin q).as fun x => .num (.num x)
  | .u_p_min_area => (uPMinArea q).as .num
  | .u_e_min => (uEMin q).as fun x => .num (.num x)
  | .u_e_min_area => (uEMinArea q).as .num
  | .u_p_sat => uPSat.as fun x => .num (.num x)
  | .u_p_sat_area => uPSatArea.as .num
  | .u_e_sat => (uESat q).as fun x => .num (.num x)
  | .u_e_sat_area => (uESatArea q).as .num
  | .SNR_max => (SNRMax q).as fun x => .num (.num x)
  | .SNR_max_dB => (SNRMaxDB q).as fun x => .num (.num x)
  | .SNR_max_bit => (SNRMaxBit q).as fun x => .num (.num x)
  | .inverse_SNR_max => (inverseSNRMax q).as fun x => .num (.num x)
  | .DR => (DR q).as fun x => .num (.num x)
  | .DR_dB => (DRDB q).as fun x => .num (.num x)
  | .index_linearity_min => indexLinearityMin.as fun k => .int k
  | .index_linearity_max => indexLinearityMax.as fun k => .int k
  | .linearity => linearity.as .lin
  | .LE_min => LEMin.as fun x => .num (.num x)
  | .LE_max => LEMax.as fun x => .num (.num x)
  | .u_I_var_DN => (uIVarDN q).as .num
  | .u_I_var => (uIVar q).as .num
  | .u_I_mean_DN => (uIMeanDN q).as .num
  | .u_I_mean => (uIMean q).as .num
  | .sigma_2_y_stack => (sigma2YStack false).as fun x => .num (.num x)
  | .sigma_2_y_stack_dark => (sigma2YStack true).as fun x => .num (.num x)
  | .s_2_y_measured => (s2YMeasured false).as fun x => .num (.num x)
  | .s_2_y_measured_dark => (s2YMeasured true).as fun x => .num (.num x)
  | .s_2_y => (s2Y false).as fun x => .num (.num x)
  | .s_2_y_dark => (s2Y true).as fun x => .num (.num x)
  | .s_2_y_cav => (s2YCav false).as fun x => .num (.num x)
  | .s_2_y_cav_dark => (s2YCav true).as fun x => .num (.num x)
  | .s_2_y_rav => (s2YRav false).as fun x => .num (.num x)
  | .s_2_y_rav_dark => (s2YRav true).as fun x => .num (.num x)
  | .s_2_y_col => (s2YCol false).as fun x => .num (.num x)
  | .s_2_y_col_dark => (s2YCol true).as fun x => .num (.num x)
  | .s_2_y_row => (s2YRow false).as fun x => .num (.num x)
  | .s_2_y_row_dark => (s2YRow true).as fun x => .num (.num x)
  | .s_2_y_pixel => (s2YPixel false).as fun x => .num (.num x)
  | .s_2_y_pixel_dark => (s2YPixel true).as fun x => .num (.num x)
  | .DSNU1288 => (DSNU1288 q).as .num
  | .DSNU1288_DN => DSNU1288DN.as .num
  | .DSNU1288_row => (DSNU1288Row q).as .num
  | .DSNU1288_col => (DSNU1288Col q).as .num
  | .DSNU1288_pixel => (DSNU1288Pixel q).as .num
  | .PRNU1288 => PRNU1288.as fun x => .num (.num x)
  | .PRNU1288_row => PRNU1288Row.as fun x => .num (.num x)
  | .PRNU1288_col => PRNU1288Col.as fun x => .num (.num x)
  | .PRNU1288_pixel => PRNU1288Pixel.as fun x => .num (.num x)
  | .histogram_PRNU => histogramPRNU.as .hist
  | .histogram_PRNU_accumulated => histogramPRNUAccumulated.as .hist
  | .histogram_DSNU => histogramDSNU.as .hist
  | .histogram_DSNU_accumulated => histogramDSNUAccumulated.as .hist

/-- Read attributes one after the other on the same object (exceptions are caught by the caller).
process/routines.py lines 400-404. -/
noncomputable def readAll (q : LSQ ℝ) : List Attr → Res ℝ → Res ℝ
  | [], r => r
  | a :: l, r => readAll q l (read q a r).2

end Results
end Emva
