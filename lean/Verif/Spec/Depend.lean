import Verif.Model.Attrs

/-!
Specification for C79: which measured data each result is computed from.
-/
set_option autoImplicit false
namespace Emva
namespace Spec
open Results

/-- The pieces of data an evaluation has: the six temporal arrays, the dark and the bright averaged
images, the pixel area and the given saturation index. -/
inductive Inp
  | texp | u_p | u_y | s2_y | u_ydark | s2_ydark | dark | bright | area | index
  deriving DecidableEq

/-- Two objects have the same piece of data. -/
def Same {F : Type} (r r' : Res F) : Inp → Prop
  | .texp => r.temporal.texp = r'.temporal.texp
  | .u_p => r.temporal.u_p = r'.temporal.u_p
  | .u_y => r.temporal.u_y = r'.temporal.u_y
  | .s2_y => r.temporal.s2_y = r'.temporal.s2_y
  | .u_ydark => r.temporal.u_ydark = r'.temporal.u_ydark
  | .s2_ydark => r.temporal.s2_ydark = r'.temporal.s2_ydark
  | .dark => r.spatial.dark = r'.spatial.dark
  | .bright => r.spatial.bright = r'.spatial.bright
  | .area => r.pixel_area = r'.pixel_area
  | .index => r.index_u_ysat = r'.index_u_ysat

/-- Two objects have the same data as far as listed. -/
def Agree {F : Type} (s : List Inp) (r r' : Res F) : Prop := ∀ i ∈ s, Same r r' i

/-- the saturation point: position of the peak of the variance of the bright images, or given -/
def satIn : List Inp := [.index, .s2_y]
/-- a range of the signal `u_y - u_ydark` below a fraction of the saturation -/
def rangeIn : List Inp := .u_y :: .u_ydark :: satIn
/-- the gain: variance against signal -/
def gainIn : List Inp := .s2_ydark :: rangeIn
/-- the responsivity: signal against photons -/
def respIn : List Inp := .u_p :: rangeIn
/-- the quantum efficiency: both -/
def qeIn : List Inp := .u_p :: gainIn

/-- What each result is computed from. -/
def needs : Attr → List Inp
  | .s2q | .index_start | .index_sensitivity_min => []
  | .index_u_ysat => satIn
  | .index_sensitivity_max | .index_linearity_min | .index_linearity_max => rangeIn
  | .R | .linearity | .LE_min | .LE_max => respIn
  | .K | .inverse_K => gainIn
  | .QE | .u_e_sat | .SNR_max | .SNR_max_dB | .SNR_max_bit | .inverse_SNR_max => qeIn
  | .u_e_sat_area => .area :: qeIn
  | .sigma_y_dark => [.texp, .s2_ydark]
  | .sigma_d | .u_I_var_DN | .u_I_var | .u_I_mean => .texp :: gainIn
  | .u_I_mean_DN => [.texp, .u_ydark]
  | .u_p_min | .u_e_min | .DR | .DR_dB => .texp :: qeIn
  | .u_p_min_area | .u_e_min_area => .area :: .texp :: qeIn
  | .u_p_sat => .u_p :: satIn
  | .u_p_sat_area => .area :: .u_p :: satIn
  | .sigma_2_y_stack | .s_2_y_measured | .s_2_y | .s_2_y_cav | .s_2_y_rav | .s_2_y_col | .s_2_y_row
  | .s_2_y_pixel => [.bright]
  | .sigma_2_y_stack_dark | .s_2_y_measured_dark | .s_2_y_dark | .s_2_y_cav_dark | .s_2_y_rav_dark
  | .s_2_y_col_dark | .s_2_y_row_dark | .s_2_y_pixel_dark => [.dark]
  | .DSNU1288_DN | .histogram_DSNU | .histogram_DSNU_accumulated => [.dark]
  | .DSNU1288 | .DSNU1288_row | .DSNU1288_col | .DSNU1288_pixel => .dark :: gainIn
  | .PRNU1288 | .PRNU1288_row | .PRNU1288_col | .PRNU1288_pixel | .histogram_PRNU
  | .histogram_PRNU_accumulated => [.bright, .dark]

end Spec
end Emva
