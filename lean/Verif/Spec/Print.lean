import Verif.Model.Attrs

/-!
Specification of what `print_results` prints: the table of the documented attributes (typed from the docstrings of
src/emva1288/process/results.py) and the layout of the lines.
-/
set_option autoImplicit false
namespace Emva
namespace Spec
open Results

/-- a row of the table: attribute, its name, its section, its short description and its symbol -/
structure PrintRow where
  attr : Attr
  name : String
  sec : String
  short : String
  symbol : Option String

/-- the documented attributes by name -/
def printTable : List PrintRow := [
  ⟨.DR, "DR", "sensitivity", "Dynamic Range", some "DR"⟩,
  ⟨.DR_dB, "DR_dB", "sensitivity", "Dynamic Range", some "$DR_{dB}$"⟩,
  ⟨.DSNU1288, "DSNU1288", "spatial", "DSNU", some "$DSNU_{1288}$"⟩,
  ⟨.DSNU1288_DN, "DSNU1288_DN", "spatial", "DSNU in DN", some "$DSNU_{1288.DN}$"⟩,
  ⟨.DSNU1288_col, "DSNU1288_col", "spatial", "DSNUcol", some "$DSNU_{1288.col}$"⟩,
  ⟨.DSNU1288_pixel, "DSNU1288_pixel", "spatial", "DSNUpixel", some "$DSNU_{1288.pixel}$"⟩,
  ⟨.DSNU1288_row, "DSNU1288_row", "spatial", "DSNUrow", some "$DSNU_{1288.row}$"⟩,
  ⟨.K, "K", "sensitivity", "System gain", some "K"⟩,
  ⟨.LE_max, "LE_max", "linearity", "Max Linearity error", some "$LE_{max}$"⟩,
  ⟨.LE_min, "LE_min", "linearity", "Min Linearity error", some "$LE_{min}$"⟩,
  ⟨.PRNU1288, "PRNU1288", "spatial", "PRNU", some "$PRNU_{1288}$"⟩,
  ⟨.PRNU1288_col, "PRNU1288_col", "spatial", "PRNUcol", some "$PRNU_{1288.col}$"⟩,
  ⟨.PRNU1288_pixel, "PRNU1288_pixel", "spatial", "PRNUpixel", some "$PRNU_{1288.pixel}$"⟩,
  ⟨.PRNU1288_row, "PRNU1288_row", "spatial", "PRNUrow", some "$PRNU_{1288.row}$"⟩,
  ⟨.QE, "QE", "sensitivity", "Quantum efficiency", some "$\\eta$"⟩,
  ⟨.R, "R", "sensitivity", "Responsivity", some "R"⟩,
  ⟨.SNR_max, "SNR_max", "sensitivity", "Signal-to-Noise Ratio", some "$SNR_{max}$"⟩,
  ⟨.SNR_max_bit, "SNR_max_bit", "sensitivity", "Maximum Signal to Noise Ratio in Bits", some "$SNR_{max.bit}$"⟩,
  ⟨.SNR_max_dB, "SNR_max_dB", "sensitivity", "Maximum Signal to Noise Ratio in Db", some "$SNR_{max.dB}$"⟩,
  ⟨.histogram_DSNU, "histogram_DSNU", "defect_pixel", "DSNU histogram", none⟩,
  ⟨.histogram_DSNU_accumulated, "histogram_DSNU_accumulated", "defect_pixel", "accumulated DSNU histogram", none⟩,
  ⟨.histogram_PRNU, "histogram_PRNU", "defect_pixel", "PRNU histogram", none⟩,
  ⟨.histogram_PRNU_accumulated, "histogram_PRNU_accumulated", "defect_pixel", "accumulated PRNU histogram", none⟩,
  ⟨.index_linearity_max, "index_linearity_max", "linearity", "Linearity fit maximum index", none⟩,
  ⟨.index_linearity_min, "index_linearity_min", "linearity", "Linearity fit minimun index", none⟩,
  ⟨.index_sensitivity_max, "index_sensitivity_max", "sensitivity", "Sensitivity fit maximum index", none⟩,
  ⟨.index_sensitivity_min, "index_sensitivity_min", "sensitivity", "Sensitivity fit minimum index", none⟩,
  ⟨.index_start, "index_start", "info", "Start array index", none⟩,
  ⟨.index_u_ysat, "index_u_ysat", "sensitivity", "Saturation index", none⟩,
  ⟨.inverse_K, "inverse_K", "sensitivity", "Inverse of overall system gain", some "1/K"⟩,
  ⟨.inverse_SNR_max, "inverse_SNR_max", "sensitivity", "Inverse Maximum Signal to Noise Ratio", some "$SNR_{max}^{-1}$"⟩,
  ⟨.s_2_y, "s_2_y", "spatial", "Spatial variance from image", some "$s^2_{y}$"⟩,
  ⟨.s_2_y_cav, "s_2_y_cav", "spatial", "Spatial variance from image", some "$s^2_{y.cav}$"⟩,
  ⟨.s_2_y_cav_dark, "s_2_y_cav_dark", "spatial", "Spatial variance from image", some "$s^2_{y.cav.dark}$"⟩,
  ⟨.s_2_y_col, "s_2_y_col", "spatial", "Spatial variance from image", some "$s^2_{y.col}$"⟩,
  ⟨.s_2_y_col_dark, "s_2_y_col_dark", "spatial", "Spatial variance from image", some "$s^2_{y.col.dark}$"⟩,
  ⟨.s_2_y_dark, "s_2_y_dark", "spatial", "Spatial variance from image", some "$s^2_{y}$"⟩,
  ⟨.s_2_y_measured, "s_2_y_measured", "spatial", "Spatial variance measure", some "$s^2_{y.measured}$"⟩,
  ⟨.s_2_y_measured_dark, "s_2_y_measured_dark", "spatial", "Spatial variance measured dark", some "$s^2_{y.measured.dark}$"⟩,
  ⟨.s_2_y_pixel, "s_2_y_pixel", "spatial", "Spatial variance from image", some "$s^2_{y.pixel}$"⟩,
  ⟨.s_2_y_pixel_dark, "s_2_y_pixel_dark", "spatial", "Spatial variance from image", some "$s^2_{y.pixel.dark}$"⟩,
  ⟨.s_2_y_rav, "s_2_y_rav", "spatial", "Spatial variance from image", some "$s^2_{y.rav}$"⟩,
  ⟨.s_2_y_rav_dark, "s_2_y_rav_dark", "spatial", "Spatial variance from image", some "$s^2_{y.rav.dark}$"⟩,
  ⟨.s_2_y_row, "s_2_y_row", "spatial", "Spatial variance from image", some "$s^2_{y.row}$"⟩,
  ⟨.s_2_y_row_dark, "s_2_y_row_dark", "spatial", "Spatial variance from image", some "$s^2_{y.row.dark}$"⟩,
  ⟨.sigma_2_y_stack, "sigma_2_y_stack", "spatial", "Temporal variance stack", some "$\\sigma^2_{y.stack}$"⟩,
  ⟨.sigma_2_y_stack_dark, "sigma_2_y_stack_dark", "spatial", "Temporal variance stack dark", some "$\\sigma^2_{y.stack.dark}$"⟩,
  ⟨.sigma_d, "sigma_d", "sensitivity", "Temporal Dark Noise", some "$\\sigma_d$"⟩,
  ⟨.sigma_y_dark, "sigma_y_dark", "sensitivity", "Temporal Dark Noise", some "$\\sigma_{y.dark}$"⟩,
  ⟨.u_I_mean, "u_I_mean", "dark_current", "Dark Current from mean", some "$\\mu_{I.mean}$"⟩,
  ⟨.u_I_mean_DN, "u_I_mean_DN", "dark_current", "Dark Current from mean", some "$\\mu_{I.mean.DN}$"⟩,
  ⟨.u_I_var, "u_I_var", "dark_current", "Dark Current from variance", some "$\\mu_{I.var}$"⟩,
  ⟨.u_I_var_DN, "u_I_var_DN", "dark_current", "Dark Current from variance", some "$\\mu_{I.var.DN}$"⟩,
  ⟨.u_e_min, "u_e_min", "sensitivity", "Sensitivity threshold", some "$\\mu_{e.min}$"⟩,
  ⟨.u_e_min_area, "u_e_min_area", "sensitivity", "Sensitivity threshold", some "$\\mu_{e.min.area}$"⟩,
  ⟨.u_e_sat, "u_e_sat", "sensitivity", "Saturation Capacity", some "$\\mu_{e.sat}$"⟩,
  ⟨.u_e_sat_area, "u_e_sat_area", "sensitivity", "Saturation Capacity", some "$\\mu_{e.sat.area}$"⟩,
  ⟨.u_p_min, "u_p_min", "sensitivity", "Absolute sensitivity threshold", some "$\\mu_{p.min}$"⟩,
  ⟨.u_p_min_area, "u_p_min_area", "sensitivity", "Sensitivity threshold", some "$\\mu_{p.min.area}$"⟩,
  ⟨.u_p_sat, "u_p_sat", "sensitivity", "Saturation Capacity", some "$\\mu_{p.sat}$"⟩,
  ⟨.u_p_sat_area, "u_p_sat_area", "sensitivity", "Saturation Capacity", some "$\\mu_{p.sat.area}$"⟩]

/-- the sections by name -/
def printSecs : List String := ["dark_current", "defect_pixel", "info", "linearity", "sensitivity", "spatial"]

/-- the text of a value; histograms are not printed.  `fmt` is `str` of a number. -/
def printed (fmt : Fl ℝ → Str) : Value → Option Str
  | .int i => some (fmt (.fin (i : ℝ)))
  | .num .none => some "None".toList
  | .num .npnan => some (fmt .nan)
  | .num (.num x) => some (fmt x)
  | .lin _ => none
  | .hist _ => none

/-- the symbol that is printed -/
def PrintRow.sym (p : PrintRow) : Str := (p.symbol.getD "None").toList

/-- the line of an attribute: 50 columns for the description, 30 for the symbol, the value to the right of the other 10 -/
def PrintRow.line (p : PrintRow) (v : Str) : Str :=
  p.short.toList ++ List.replicate (50 - p.short.toList.length) ' ' ++ p.sym ++ List.replicate (30 - p.sym.length) ' ' ++
    List.replicate (10 - v.length) ' ' ++ v

/-- the lines of a section: heading and one line for every attribute that is not a histogram -/
def sectionLines (fmt : Fl ℝ → Str) (V : Attr → Value) (sec : String) : List Str :=
  [List.replicate 50 '*', sec.toList, List.replicate 50 '-'] ++
    (printTable.filter fun p => decide (p.sec = sec)).filterMap fun p => (printed fmt (V p.attr)).map p.line

/-- the printout of the values `V` -/
def printout (fmt : Fl ℝ → Str) (V : Attr → Value) : List Str :=
  (printSecs.flatMap (sectionLines fmt V)) ++ [List.replicate 50 '*', [' ']]

end Spec
end Emva
