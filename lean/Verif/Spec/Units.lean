import Verif.Spec.Affine
import Verif.Model.Attrs

/-!
Specification of how the attributes of `Results1288` depend on the unit of the pixel values (DN).
-/
set_option autoImplicit false
namespace Emva
namespace Spec
open Results

/-- The power of DN in the unit of the attribute: `R` is in DN per photon, `K` in DN per electron,
variances are in DN squared, `QE`, `DSNU1288`, `PRNU1288`, ... are in electrons, photons, percent.
`none` for the attributes that contain an absolute threshold or a fixed quantisation step in DN
(`sigma_y_dark` is limited from below by 0.24 DN², `sigma_d` subtracts 1/12 DN², and the minimal
detectable irradiance and the dynamic range are derived from them) and for the histograms, whose bins
are one DN wide. -/
def exponent : Attr → Option ℤ
  | .sigma_y_dark | .sigma_d | .u_p_min | .u_p_min_area | .u_e_min | .u_e_min_area | .DR | .DR_dB
  | .histogram_PRNU | .histogram_PRNU_accumulated | .histogram_DSNU | .histogram_DSNU_accumulated => none
  | .R | .K | .linearity | .u_I_var_DN | .u_I_mean_DN | .DSNU1288_DN => some 1
  | .inverse_K => some (-1)
  | .sigma_2_y_stack | .sigma_2_y_stack_dark | .s_2_y_measured | .s_2_y_measured_dark
  | .s_2_y | .s_2_y_dark | .s_2_y_cav | .s_2_y_cav_dark | .s_2_y_rav | .s_2_y_rav_dark
  | .s_2_y_col | .s_2_y_col_dark | .s_2_y_row | .s_2_y_row_dark | .s_2_y_pixel | .s_2_y_pixel_dark => some 2
  | _ => some 0

/-- A value in other units: numbers are multiplied; of the linearity dictionary the slope and the offset
are (the relative deviations are in percent). -/
noncomputable def convert (a : ℝ) : Value → Value
  | .int i => .int i
  | .num .none => .num .none
  | .num .npnan => .num .npnan
  | .num (.num x) => .num (.num (scale a x))
  | .lin l => .lin { l with fit_slope := scale a l.fit_slope, fit_offset := scale a l.fit_offset }
  | .hist h => .hist h

end Spec
end Emva
