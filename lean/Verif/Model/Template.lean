import Verif.Model.Attrs
import Verif.Model.Missing
import Verif.Model.ResultsDocs

/-!
What the template of an operation point (report/templates/op.tex) takes from the results, transcribed
by tools/gen_template.py, and how it shows the numbers.
-/
set_option autoImplicit false
namespace Emva
namespace Report
open Results

/-- `op.results.<section>.<attribute>.<key>` in report/templates/op.tex, in order of appearance (lines
21-169). -/
def templateRefs : List (Str × Str × Str) := [
  /- line 21: sensitivity.QE.short -/
  (['s', 'e', 'n', 's', 'i', 't', 'i', 'v', 'i', 't', 'y'], ['Q', 'E'], ['s', 'h', 'o', 'r', 't']),
  /- line 23: sensitivity.QE.symbol -/
  (['s', 'e', 'n', 's', 'i', 't', 'i', 'v', 'i', 't', 'y'], ['Q', 'E'], ['s', 'y', 'm', 'b', 'o', 'l']),
  /- line 24: sensitivity.QE.value -/
  (['s', 'e', 'n', 's', 'i', 't', 'i', 'v', 'i', 't', 'y'], ['Q', 'E'], ['v', 'a', 'l', 'u', 'e']),
  /- line 25: sensitivity.QE.unit -/
  (['s', 'e', 'n', 's', 'i', 't', 'i', 'v', 'i', 't', 'y'], ['Q', 'E'], ['u', 'n', 'i', 't']),
  /- line 27: sensitivity.K.short -/
  (['s', 'e', 'n', 's', 'i', 't', 'i', 'v', 'i', 't', 'y'], ['K'], ['s', 'h', 'o', 'r', 't']),
  /- line 29: sensitivity.K.symbol -/
  (['s', 'e', 'n', 's', 'i', 't', 'i', 'v', 'i', 't', 'y'], ['K'], ['s', 'y', 'm', 'b', 'o', 'l']),
  /- line 30: sensitivity.K.value -/
  (['s', 'e', 'n', 's', 'i', 't', 'i', 'v', 'i', 't', 'y'], ['K'], ['v', 'a', 'l', 'u', 'e']),
  /- line 31: sensitivity.K.unit -/
  (['s', 'e', 'n', 's', 'i', 't', 'i', 'v', 'i', 't', 'y'], ['K'], ['u', 'n', 'i', 't']),
  /- line 33: sensitivity.inverse_K.symbol -/
  (['s', 'e', 'n', 's', 'i', 't', 'i', 'v', 'i', 't', 'y'], ['i', 'n', 'v', 'e', 'r', 's', 'e', '_', 'K'], ['s', 'y', 'm', 'b', 'o', 'l']),
  /- line 34: sensitivity.inverse_K.value -/
  (['s', 'e', 'n', 's', 'i', 't', 'i', 'v', 'i', 't', 'y'], ['i', 'n', 'v', 'e', 'r', 's', 'e', '_', 'K'], ['v', 'a', 'l', 'u', 'e']),
  /- line 35: sensitivity.inverse_K.unit -/
  (['s', 'e', 'n', 's', 'i', 't', 'i', 'v', 'i', 't', 'y'], ['i', 'n', 'v', 'e', 'r', 's', 'e', '_', 'K'], ['u', 'n', 'i', 't']),
  /- line 39: sensitivity.sigma_d.symbol -/
  (['s', 'e', 'n', 's', 'i', 't', 'i', 'v', 'i', 't', 'y'], ['s', 'i', 'g', 'm', 'a', '_', 'd'], ['s', 'y', 'm', 'b', 'o', 'l']),
  /- line 40: sensitivity.sigma_d.value -/
  (['s', 'e', 'n', 's', 'i', 't', 'i', 'v', 'i', 't', 'y'], ['s', 'i', 'g', 'm', 'a', '_', 'd'], ['v', 'a', 'l', 'u', 'e']),
  /- line 41: sensitivity.sigma_d.unit -/
  (['s', 'e', 'n', 's', 'i', 't', 'i', 'v', 'i', 't', 'y'], ['s', 'i', 'g', 'm', 'a', '_', 'd'], ['u', 'n', 'i', 't']),
  /- line 43: sensitivity.sigma_y_dark.symbol -/
  (['s', 'e', 'n', 's', 'i', 't', 'i', 'v', 'i', 't', 'y'], ['s', 'i', 'g', 'm', 'a', '_', 'y', '_', 'd', 'a', 'r', 'k'], ['s', 'y', 'm', 'b', 'o', 'l']),
  /- line 44: sensitivity.sigma_y_dark.value -/
  (['s', 'e', 'n', 's', 'i', 't', 'i', 'v', 'i', 't', 'y'], ['s', 'i', 'g', 'm', 'a', '_', 'y', '_', 'd', 'a', 'r', 'k'], ['v', 'a', 'l', 'u', 'e']),
  /- line 45: sensitivity.sigma_y_dark.unit -/
  (['s', 'e', 'n', 's', 'i', 't', 'i', 'v', 'i', 't', 'y'], ['s', 'i', 'g', 'm', 'a', '_', 'y', '_', 'd', 'a', 'r', 'k'], ['u', 'n', 'i', 't']),
  /- line 47: sensitivity.SNR_max.short -/
  (['s', 'e', 'n', 's', 'i', 't', 'i', 'v', 'i', 't', 'y'], ['S', 'N', 'R', '_', 'm', 'a', 'x'], ['s', 'h', 'o', 'r', 't']),
  /- line 49: sensitivity.SNR_max.symbol -/
  (['s', 'e', 'n', 's', 'i', 't', 'i', 'v', 'i', 't', 'y'], ['S', 'N', 'R', '_', 'm', 'a', 'x'], ['s', 'y', 'm', 'b', 'o', 'l']),
  /- line 50: sensitivity.SNR_max.value -/
  (['s', 'e', 'n', 's', 'i', 't', 'i', 'v', 'i', 't', 'y'], ['S', 'N', 'R', '_', 'm', 'a', 'x'], ['v', 'a', 'l', 'u', 'e']),
  /- line 52: sensitivity.SNR_max_dB.symbol -/
  (['s', 'e', 'n', 's', 'i', 't', 'i', 'v', 'i', 't', 'y'], ['S', 'N', 'R', '_', 'm', 'a', 'x', '_', 'd', 'B'], ['s', 'y', 'm', 'b', 'o', 'l']),
  /- line 53: sensitivity.SNR_max_dB.value -/
  (['s', 'e', 'n', 's', 'i', 't', 'i', 'v', 'i', 't', 'y'], ['S', 'N', 'R', '_', 'm', 'a', 'x', '_', 'd', 'B'], ['v', 'a', 'l', 'u', 'e']),
  /- line 54: sensitivity.SNR_max_dB.unit -/
  (['s', 'e', 'n', 's', 'i', 't', 'i', 'v', 'i', 't', 'y'], ['S', 'N', 'R', '_', 'm', 'a', 'x', '_', 'd', 'B'], ['u', 'n', 'i', 't']),
  /- line 56: sensitivity.SNR_max_bit.symbol -/
  (['s', 'e', 'n', 's', 'i', 't', 'i', 'v', 'i', 't', 'y'], ['S', 'N', 'R', '_', 'm', 'a', 'x', '_', 'b', 'i', 't'], ['s', 'y', 'm', 'b', 'o', 'l']),
  /- line 57: sensitivity.SNR_max_bit.value -/
  (['s', 'e', 'n', 's', 'i', 't', 'i', 'v', 'i', 't', 'y'], ['S', 'N', 'R', '_', 'm', 'a', 'x', '_', 'b', 'i', 't'], ['v', 'a', 'l', 'u', 'e']),
  /- line 58: sensitivity.SNR_max_bit.unit -/
  (['s', 'e', 'n', 's', 'i', 't', 'i', 'v', 'i', 't', 'y'], ['S', 'N', 'R', '_', 'm', 'a', 'x', '_', 'b', 'i', 't'], ['u', 'n', 'i', 't']),
  /- line 60: sensitivity.inverse_SNR_max.symbol -/
  (['s', 'e', 'n', 's', 'i', 't', 'i', 'v', 'i', 't', 'y'], ['i', 'n', 'v', 'e', 'r', 's', 'e', '_', 'S', 'N', 'R', '_', 'm', 'a', 'x'], ['s', 'y', 'm', 'b', 'o', 'l']),
  /- line 61: sensitivity.inverse_SNR_max.value -/
  (['s', 'e', 'n', 's', 'i', 't', 'i', 'v', 'i', 't', 'y'], ['i', 'n', 'v', 'e', 'r', 's', 'e', '_', 'S', 'N', 'R', '_', 'm', 'a', 'x'], ['v', 'a', 'l', 'u', 'e']),
  /- line 62: sensitivity.inverse_SNR_max.unit -/
  (['s', 'e', 'n', 's', 'i', 't', 'i', 'v', 'i', 't', 'y'], ['i', 'n', 'v', 'e', 'r', 's', 'e', '_', 'S', 'N', 'R', '_', 'm', 'a', 'x'], ['u', 'n', 'i', 't']),
  /- line 64: sensitivity.u_p_min.short -/
  (['s', 'e', 'n', 's', 'i', 't', 'i', 'v', 'i', 't', 'y'], ['u', '_', 'p', '_', 'm', 'i', 'n'], ['s', 'h', 'o', 'r', 't']),
  /- line 66: sensitivity.u_p_min.symbol -/
  (['s', 'e', 'n', 's', 'i', 't', 'i', 'v', 'i', 't', 'y'], ['u', '_', 'p', '_', 'm', 'i', 'n'], ['s', 'y', 'm', 'b', 'o', 'l']),
  /- line 67: sensitivity.u_p_min.value -/
  (['s', 'e', 'n', 's', 'i', 't', 'i', 'v', 'i', 't', 'y'], ['u', '_', 'p', '_', 'm', 'i', 'n'], ['v', 'a', 'l', 'u', 'e']),
  /- line 68: sensitivity.u_p_min.unit -/
  (['s', 'e', 'n', 's', 'i', 't', 'i', 'v', 'i', 't', 'y'], ['u', '_', 'p', '_', 'm', 'i', 'n'], ['u', 'n', 'i', 't']),
  /- line 70: sensitivity.u_p_min_area.symbol -/
  (['s', 'e', 'n', 's', 'i', 't', 'i', 'v', 'i', 't', 'y'], ['u', '_', 'p', '_', 'm', 'i', 'n', '_', 'a', 'r', 'e', 'a'], ['s', 'y', 'm', 'b', 'o', 'l']),
  /- line 71: sensitivity.u_p_min_area.value -/
  (['s', 'e', 'n', 's', 'i', 't', 'i', 'v', 'i', 't', 'y'], ['u', '_', 'p', '_', 'm', 'i', 'n', '_', 'a', 'r', 'e', 'a'], ['v', 'a', 'l', 'u', 'e']),
  /- line 72: sensitivity.u_p_min_area.unit -/
  (['s', 'e', 'n', 's', 'i', 't', 'i', 'v', 'i', 't', 'y'], ['u', '_', 'p', '_', 'm', 'i', 'n', '_', 'a', 'r', 'e', 'a'], ['u', 'n', 'i', 't']),
  /- line 74: sensitivity.u_e_min.symbol -/
  (['s', 'e', 'n', 's', 'i', 't', 'i', 'v', 'i', 't', 'y'], ['u', '_', 'e', '_', 'm', 'i', 'n'], ['s', 'y', 'm', 'b', 'o', 'l']),
  /- line 75: sensitivity.u_e_min.value -/
  (['s', 'e', 'n', 's', 'i', 't', 'i', 'v', 'i', 't', 'y'], ['u', '_', 'e', '_', 'm', 'i', 'n'], ['v', 'a', 'l', 'u', 'e']),
  /- line 76: sensitivity.u_e_min.unit -/
  (['s', 'e', 'n', 's', 'i', 't', 'i', 'v', 'i', 't', 'y'], ['u', '_', 'e', '_', 'm', 'i', 'n'], ['u', 'n', 'i', 't']),
  /- line 78: sensitivity.u_e_min_area.symbol -/
  (['s', 'e', 'n', 's', 'i', 't', 'i', 'v', 'i', 't', 'y'], ['u', '_', 'e', '_', 'm', 'i', 'n', '_', 'a', 'r', 'e', 'a'], ['s', 'y', 'm', 'b', 'o', 'l']),
  /- line 79: sensitivity.u_e_min_area.value -/
  (['s', 'e', 'n', 's', 'i', 't', 'i', 'v', 'i', 't', 'y'], ['u', '_', 'e', '_', 'm', 'i', 'n', '_', 'a', 'r', 'e', 'a'], ['v', 'a', 'l', 'u', 'e']),
  /- line 80: sensitivity.u_e_min_area.unit -/
  (['s', 'e', 'n', 's', 'i', 't', 'i', 'v', 'i', 't', 'y'], ['u', '_', 'e', '_', 'm', 'i', 'n', '_', 'a', 'r', 'e', 'a'], ['u', 'n', 'i', 't']),
  /- line 83: sensitivity.u_p_sat.short -/
  (['s', 'e', 'n', 's', 'i', 't', 'i', 'v', 'i', 't', 'y'], ['u', '_', 'p', '_', 's', 'a', 't'], ['s', 'h', 'o', 'r', 't']),
  /- line 85: sensitivity.u_p_sat.symbol -/
  (['s', 'e', 'n', 's', 'i', 't', 'i', 'v', 'i', 't', 'y'], ['u', '_', 'p', '_', 's', 'a', 't'], ['s', 'y', 'm', 'b', 'o', 'l']),
  /- line 86: sensitivity.u_p_sat.value -/
  (['s', 'e', 'n', 's', 'i', 't', 'i', 'v', 'i', 't', 'y'], ['u', '_', 'p', '_', 's', 'a', 't'], ['v', 'a', 'l', 'u', 'e']),
  /- line 87: sensitivity.u_p_sat.unit -/
  (['s', 'e', 'n', 's', 'i', 't', 'i', 'v', 'i', 't', 'y'], ['u', '_', 'p', '_', 's', 'a', 't'], ['u', 'n', 'i', 't']),
  /- line 89: sensitivity.u_p_sat_area.symbol -/
  (['s', 'e', 'n', 's', 'i', 't', 'i', 'v', 'i', 't', 'y'], ['u', '_', 'p', '_', 's', 'a', 't', '_', 'a', 'r', 'e', 'a'], ['s', 'y', 'm', 'b', 'o', 'l']),
  /- line 90: sensitivity.u_p_sat_area.value -/
  (['s', 'e', 'n', 's', 'i', 't', 'i', 'v', 'i', 't', 'y'], ['u', '_', 'p', '_', 's', 'a', 't', '_', 'a', 'r', 'e', 'a'], ['v', 'a', 'l', 'u', 'e']),
  /- line 91: sensitivity.u_p_sat_area.unit -/
  (['s', 'e', 'n', 's', 'i', 't', 'i', 'v', 'i', 't', 'y'], ['u', '_', 'p', '_', 's', 'a', 't', '_', 'a', 'r', 'e', 'a'], ['u', 'n', 'i', 't']),
  /- line 93: sensitivity.u_e_sat.symbol -/
  (['s', 'e', 'n', 's', 'i', 't', 'i', 'v', 'i', 't', 'y'], ['u', '_', 'e', '_', 's', 'a', 't'], ['s', 'y', 'm', 'b', 'o', 'l']),
  /- line 94: sensitivity.u_e_sat.value -/
  (['s', 'e', 'n', 's', 'i', 't', 'i', 'v', 'i', 't', 'y'], ['u', '_', 'e', '_', 's', 'a', 't'], ['v', 'a', 'l', 'u', 'e']),
  /- line 95: sensitivity.u_e_sat.unit -/
  (['s', 'e', 'n', 's', 'i', 't', 'i', 'v', 'i', 't', 'y'], ['u', '_', 'e', '_', 's', 'a', 't'], ['u', 'n', 'i', 't']),
  /- line 97: sensitivity.u_e_sat_area.symbol -/
  (['s', 'e', 'n', 's', 'i', 't', 'i', 'v', 'i', 't', 'y'], ['u', '_', 'e', '_', 's', 'a', 't', '_', 'a', 'r', 'e', 'a'], ['s', 'y', 'm', 'b', 'o', 'l']),
  /- line 98: sensitivity.u_e_sat_area.value -/
  (['s', 'e', 'n', 's', 'i', 't', 'i', 'v', 'i', 't', 'y'], ['u', '_', 'e', '_', 's', 'a', 't', '_', 'a', 'r', 'e', 'a'], ['v', 'a', 'l', 'u', 'e']),
  /- line 99: sensitivity.u_e_sat_area.unit -/
  (['s', 'e', 'n', 's', 'i', 't', 'i', 'v', 'i', 't', 'y'], ['u', '_', 'e', '_', 's', 'a', 't', '_', 'a', 'r', 'e', 'a'], ['u', 'n', 'i', 't']),
  /- line 102: sensitivity.DR.short -/
  (['s', 'e', 'n', 's', 'i', 't', 'i', 'v', 'i', 't', 'y'], ['D', 'R'], ['s', 'h', 'o', 'r', 't']),
  /- line 104: sensitivity.DR.symbol -/
  (['s', 'e', 'n', 's', 'i', 't', 'i', 'v', 'i', 't', 'y'], ['D', 'R'], ['s', 'y', 'm', 'b', 'o', 'l']),
  /- line 105: sensitivity.DR.value -/
  (['s', 'e', 'n', 's', 'i', 't', 'i', 'v', 'i', 't', 'y'], ['D', 'R'], ['v', 'a', 'l', 'u', 'e']),
  /- line 107: sensitivity.DR_dB.symbol -/
  (['s', 'e', 'n', 's', 'i', 't', 'i', 'v', 'i', 't', 'y'], ['D', 'R', '_', 'd', 'B'], ['s', 'y', 'm', 'b', 'o', 'l']),
  /- line 108: sensitivity.DR_dB.value -/
  (['s', 'e', 'n', 's', 'i', 't', 'i', 'v', 'i', 't', 'y'], ['D', 'R', '_', 'd', 'B'], ['v', 'a', 'l', 'u', 'e']),
  /- line 109: sensitivity.DR_dB.unit -/
  (['s', 'e', 'n', 's', 'i', 't', 'i', 'v', 'i', 't', 'y'], ['D', 'R', '_', 'd', 'B'], ['u', 'n', 'i', 't']),
  /- line 113: spatial.DSNU1288.symbol -/
  (['s', 'p', 'a', 't', 'i', 'a', 'l'], ['D', 'S', 'N', 'U', '1', '2', '8', '8'], ['s', 'y', 'm', 'b', 'o', 'l']),
  /- line 114: spatial.DSNU1288.value -/
  (['s', 'p', 'a', 't', 'i', 'a', 'l'], ['D', 'S', 'N', 'U', '1', '2', '8', '8'], ['v', 'a', 'l', 'u', 'e']),
  /- line 115: spatial.DSNU1288.unit -/
  (['s', 'p', 'a', 't', 'i', 'a', 'l'], ['D', 'S', 'N', 'U', '1', '2', '8', '8'], ['u', 'n', 'i', 't']),
  /- line 117: spatial.DSNU1288_row.symbol -/
  (['s', 'p', 'a', 't', 'i', 'a', 'l'], ['D', 'S', 'N', 'U', '1', '2', '8', '8', '_', 'r', 'o', 'w'], ['s', 'y', 'm', 'b', 'o', 'l']),
  /- line 118: spatial.DSNU1288_row.value -/
  (['s', 'p', 'a', 't', 'i', 'a', 'l'], ['D', 'S', 'N', 'U', '1', '2', '8', '8', '_', 'r', 'o', 'w'], ['v', 'a', 'l', 'u', 'e']),
  /- line 119: spatial.DSNU1288_row.unit -/
  (['s', 'p', 'a', 't', 'i', 'a', 'l'], ['D', 'S', 'N', 'U', '1', '2', '8', '8', '_', 'r', 'o', 'w'], ['u', 'n', 'i', 't']),
  /- line 121: spatial.DSNU1288_col.symbol -/
  (['s', 'p', 'a', 't', 'i', 'a', 'l'], ['D', 'S', 'N', 'U', '1', '2', '8', '8', '_', 'c', 'o', 'l'], ['s', 'y', 'm', 'b', 'o', 'l']),
  /- line 122: spatial.DSNU1288_col.value -/
  (['s', 'p', 'a', 't', 'i', 'a', 'l'], ['D', 'S', 'N', 'U', '1', '2', '8', '8', '_', 'c', 'o', 'l'], ['v', 'a', 'l', 'u', 'e']),
  /- line 123: spatial.DSNU1288_col.unit -/
  (['s', 'p', 'a', 't', 'i', 'a', 'l'], ['D', 'S', 'N', 'U', '1', '2', '8', '8', '_', 'c', 'o', 'l'], ['u', 'n', 'i', 't']),
  /- line 125: spatial.DSNU1288_pixel.symbol -/
  (['s', 'p', 'a', 't', 'i', 'a', 'l'], ['D', 'S', 'N', 'U', '1', '2', '8', '8', '_', 'p', 'i', 'x', 'e', 'l'], ['s', 'y', 'm', 'b', 'o', 'l']),
  /- line 126: spatial.DSNU1288_pixel.value -/
  (['s', 'p', 'a', 't', 'i', 'a', 'l'], ['D', 'S', 'N', 'U', '1', '2', '8', '8', '_', 'p', 'i', 'x', 'e', 'l'], ['v', 'a', 'l', 'u', 'e']),
  /- line 127: spatial.DSNU1288_pixel.unit -/
  (['s', 'p', 'a', 't', 'i', 'a', 'l'], ['D', 'S', 'N', 'U', '1', '2', '8', '8', '_', 'p', 'i', 'x', 'e', 'l'], ['u', 'n', 'i', 't']),
  /- line 129: spatial.PRNU1288.symbol -/
  (['s', 'p', 'a', 't', 'i', 'a', 'l'], ['P', 'R', 'N', 'U', '1', '2', '8', '8'], ['s', 'y', 'm', 'b', 'o', 'l']),
  /- line 130: spatial.PRNU1288.value -/
  (['s', 'p', 'a', 't', 'i', 'a', 'l'], ['P', 'R', 'N', 'U', '1', '2', '8', '8'], ['v', 'a', 'l', 'u', 'e']),
  /- line 131: spatial.PRNU1288.unit -/
  (['s', 'p', 'a', 't', 'i', 'a', 'l'], ['P', 'R', 'N', 'U', '1', '2', '8', '8'], ['u', 'n', 'i', 't']),
  /- line 133: spatial.PRNU1288_row.symbol -/
  (['s', 'p', 'a', 't', 'i', 'a', 'l'], ['P', 'R', 'N', 'U', '1', '2', '8', '8', '_', 'r', 'o', 'w'], ['s', 'y', 'm', 'b', 'o', 'l']),
  /- line 134: spatial.PRNU1288_row.value -/
  (['s', 'p', 'a', 't', 'i', 'a', 'l'], ['P', 'R', 'N', 'U', '1', '2', '8', '8', '_', 'r', 'o', 'w'], ['v', 'a', 'l', 'u', 'e']),
  /- line 135: spatial.PRNU1288_row.unit -/
  (['s', 'p', 'a', 't', 'i', 'a', 'l'], ['P', 'R', 'N', 'U', '1', '2', '8', '8', '_', 'r', 'o', 'w'], ['u', 'n', 'i', 't']),
  /- line 137: spatial.PRNU1288_col.symbol -/
  (['s', 'p', 'a', 't', 'i', 'a', 'l'], ['P', 'R', 'N', 'U', '1', '2', '8', '8', '_', 'c', 'o', 'l'], ['s', 'y', 'm', 'b', 'o', 'l']),
  /- line 138: spatial.PRNU1288_col.value -/
  (['s', 'p', 'a', 't', 'i', 'a', 'l'], ['P', 'R', 'N', 'U', '1', '2', '8', '8', '_', 'c', 'o', 'l'], ['v', 'a', 'l', 'u', 'e']),
  /- line 139: spatial.PRNU1288_col.unit -/
  (['s', 'p', 'a', 't', 'i', 'a', 'l'], ['P', 'R', 'N', 'U', '1', '2', '8', '8', '_', 'c', 'o', 'l'], ['u', 'n', 'i', 't']),
  /- line 141: spatial.PRNU1288_pixel.symbol -/
  (['s', 'p', 'a', 't', 'i', 'a', 'l'], ['P', 'R', 'N', 'U', '1', '2', '8', '8', '_', 'p', 'i', 'x', 'e', 'l'], ['s', 'y', 'm', 'b', 'o', 'l']),
  /- line 142: spatial.PRNU1288_pixel.value -/
  (['s', 'p', 'a', 't', 'i', 'a', 'l'], ['P', 'R', 'N', 'U', '1', '2', '8', '8', '_', 'p', 'i', 'x', 'e', 'l'], ['v', 'a', 'l', 'u', 'e']),
  /- line 143: spatial.PRNU1288_pixel.unit -/
  (['s', 'p', 'a', 't', 'i', 'a', 'l'], ['P', 'R', 'N', 'U', '1', '2', '8', '8', '_', 'p', 'i', 'x', 'e', 'l'], ['u', 'n', 'i', 't']),
  /- line 147: linearity.LE_min.symbol -/
  (['l', 'i', 'n', 'e', 'a', 'r', 'i', 't', 'y'], ['L', 'E', '_', 'm', 'i', 'n'], ['s', 'y', 'm', 'b', 'o', 'l']),
  /- line 148: linearity.LE_min.value -/
  (['l', 'i', 'n', 'e', 'a', 'r', 'i', 't', 'y'], ['L', 'E', '_', 'm', 'i', 'n'], ['v', 'a', 'l', 'u', 'e']),
  /- line 149: linearity.LE_min.unit -/
  (['l', 'i', 'n', 'e', 'a', 'r', 'i', 't', 'y'], ['L', 'E', '_', 'm', 'i', 'n'], ['u', 'n', 'i', 't']),
  /- line 151: linearity.LE_max.symbol -/
  (['l', 'i', 'n', 'e', 'a', 'r', 'i', 't', 'y'], ['L', 'E', '_', 'm', 'a', 'x'], ['s', 'y', 'm', 'b', 'o', 'l']),
  /- line 152: linearity.LE_max.value -/
  (['l', 'i', 'n', 'e', 'a', 'r', 'i', 't', 'y'], ['L', 'E', '_', 'm', 'a', 'x'], ['v', 'a', 'l', 'u', 'e']),
  /- line 153: linearity.LE_max.unit -/
  (['l', 'i', 'n', 'e', 'a', 'r', 'i', 't', 'y'], ['L', 'E', '_', 'm', 'a', 'x'], ['u', 'n', 'i', 't']),
  /- line 157: dark_current.u_I_mean.symbol -/
  (['d', 'a', 'r', 'k', '_', 'c', 'u', 'r', 'r', 'e', 'n', 't'], ['u', '_', 'I', '_', 'm', 'e', 'a', 'n'], ['s', 'y', 'm', 'b', 'o', 'l']),
  /- line 158: dark_current.u_I_mean.value -/
  (['d', 'a', 'r', 'k', '_', 'c', 'u', 'r', 'r', 'e', 'n', 't'], ['u', '_', 'I', '_', 'm', 'e', 'a', 'n'], ['v', 'a', 'l', 'u', 'e']),
  /- line 159: dark_current.u_I_mean.unit -/
  (['d', 'a', 'r', 'k', '_', 'c', 'u', 'r', 'r', 'e', 'n', 't'], ['u', '_', 'I', '_', 'm', 'e', 'a', 'n'], ['u', 'n', 'i', 't']),
  /- line 161: dark_current.u_I_mean_DN.value -/
  (['d', 'a', 'r', 'k', '_', 'c', 'u', 'r', 'r', 'e', 'n', 't'], ['u', '_', 'I', '_', 'm', 'e', 'a', 'n', '_', 'D', 'N'], ['v', 'a', 'l', 'u', 'e']),
  /- line 162: dark_current.u_I_mean_DN.unit -/
  (['d', 'a', 'r', 'k', '_', 'c', 'u', 'r', 'r', 'e', 'n', 't'], ['u', '_', 'I', '_', 'm', 'e', 'a', 'n', '_', 'D', 'N'], ['u', 'n', 'i', 't']),
  /- line 164: dark_current.u_I_var.symbol -/
  (['d', 'a', 'r', 'k', '_', 'c', 'u', 'r', 'r', 'e', 'n', 't'], ['u', '_', 'I', '_', 'v', 'a', 'r'], ['s', 'y', 'm', 'b', 'o', 'l']),
  /- line 165: dark_current.u_I_var.value -/
  (['d', 'a', 'r', 'k', '_', 'c', 'u', 'r', 'r', 'e', 'n', 't'], ['u', '_', 'I', '_', 'v', 'a', 'r'], ['v', 'a', 'l', 'u', 'e']),
  /- line 166: dark_current.u_I_var.unit -/
  (['d', 'a', 'r', 'k', '_', 'c', 'u', 'r', 'r', 'e', 'n', 't'], ['u', '_', 'I', '_', 'v', 'a', 'r'], ['u', 'n', 'i', 't']),
  /- line 168: dark_current.u_I_var_DN.value -/
  (['d', 'a', 'r', 'k', '_', 'c', 'u', 'r', 'r', 'e', 'n', 't'], ['u', '_', 'I', '_', 'v', 'a', 'r', '_', 'D', 'N'], ['v', 'a', 'l', 'u', 'e']),
  /- line 169: dark_current.u_I_var_DN.unit -/
  (['d', 'a', 'r', 'k', '_', 'c', 'u', 'r', 'r', 'e', 'n', 't'], ['u', '_', 'I', '_', 'v', 'a', 'r', '_', 'D', 'N'], ['u', 'n', 'i', 't'])]

/-- `op.plots.<class>` in report/templates/op.tex (lines 11-231). -/
def templatePlots : List Str := [
  "PlotPTC".toList,
  "PlotSNR".toList,
  "PlotSensitivity".toList,
  "PlotUyDark".toList,
  "PlotLinearity".toList,
  "PlotDeviationLinearity".toList,
  "PlotHorizontalSpectrogramPRNU".toList,
  "PlotHorizontalSpectrogramDSNU".toList,
  "PlotVerticalSpectrogramPRNU".toList,
  "PlotVerticalSpectrogramDSNU".toList,
  "PlotLogarithmicHistogramDSNU".toList,
  "PlotLogarithmicHistogramPRNU".toList,
  "PlotAccumulatedLogHistogramDSNU".toList,
  "PlotAccumulatedLogHistogramPRNU".toList,
  "PlotHorizontalProfile".toList,
  "PlotVerticalProfile".toList]

/-- A number in the template: `'%.<digits>f' % value`, or `value|missingnumber(<digits>)`.
report/templates/op.tex lines 55-172. -/
structure Cell where
  attr : Attr
  digits : ℕ
  filtered : Bool

/-- The numbers of report/templates/op.tex (lines as above).
report/templates/op.tex lines 55-172. -/
def templateCells : List Cell := [
  ⟨.QE, 2, false⟩,
  ⟨.K, 3, false⟩,
  ⟨.inverse_K, 3, false⟩,
  ⟨.sigma_d, 3, false⟩,
  ⟨.sigma_y_dark, 3, false⟩,
  ⟨.SNR_max, 0, false⟩,
  ⟨.SNR_max_dB, 2, false⟩,
  ⟨.SNR_max_bit, 1, false⟩,
  ⟨.inverse_SNR_max, 3, false⟩,
  ⟨.u_p_min, 3, true⟩,
  ⟨.u_p_min_area, 3, true⟩,
  ⟨.u_e_min, 3, false⟩,
  ⟨.u_e_min_area, 3, true⟩,
  ⟨.u_p_sat, 0, false⟩,
  ⟨.u_p_sat_area, 3, true⟩,
  ⟨.u_e_sat, 0, false⟩,
  ⟨.u_e_sat_area, 0, true⟩,
  ⟨.DR, 0, false⟩,
  ⟨.DR_dB, 1, false⟩,
  ⟨.DSNU1288, 1, false⟩,
  ⟨.DSNU1288_row, 1, false⟩,
  ⟨.DSNU1288_col, 1, false⟩,
  ⟨.DSNU1288_pixel, 1, false⟩,
  ⟨.PRNU1288, 1, false⟩,
  ⟨.PRNU1288_row, 1, false⟩,
  ⟨.PRNU1288_col, 1, false⟩,
  ⟨.PRNU1288_pixel, 1, false⟩,
  ⟨.LE_min, 3, false⟩,
  ⟨.LE_max, 3, false⟩,
  ⟨.u_I_mean, 3, true⟩,
  ⟨.u_I_mean_DN, 3, true⟩,
  ⟨.u_I_var, 3, true⟩,
  ⟨.u_I_var_DN, 3, true⟩]

/-- `getattr(results, name)`: the attribute of a name. process/routines.py line 402. -/
def attrOfName : List (String × Attr) := [
  ("s2q", .s2q),
  ("index_start", .index_start),
  ("index_u_ysat", .index_u_ysat),
  ("index_sensitivity_max", .index_sensitivity_max),
  ("index_sensitivity_min", .index_sensitivity_min),
  ("R", .R),
  ("K", .K),
  ("inverse_K", .inverse_K),
  ("QE", .QE),
  ("sigma_y_dark", .sigma_y_dark),
  ("sigma_d", .sigma_d),
  ("u_p_min", .u_p_min),
  ("u_p_min_area", .u_p_min_area),
  ("u_e_min", .u_e_min),
  ("u_e_min_area", .u_e_min_area),
  ("u_p_sat", .u_p_sat),
  ("u_p_sat_area", .u_p_sat_area),
  ("u_e_sat", .u_e_sat),
  ("u_e_sat_area", .u_e_sat_area),
  ("SNR_max", .SNR_max),
  ("SNR_max_dB", .SNR_max_dB),
  ("SNR_max_bit", .SNR_max_bit),
  ("inverse_SNR_max", .inverse_SNR_max),
  ("DR", .DR),
  ("DR_dB", .DR_dB),
  ("index_linearity_min", .index_linearity_min),
  ("index_linearity_max", .index_linearity_max),
  ("linearity", .linearity),
  ("LE_min", .LE_min),
  ("LE_max", .LE_max),
  ("u_I_var_DN", .u_I_var_DN),
  ("u_I_var", .u_I_var),
  ("u_I_mean_DN", .u_I_mean_DN),
  ("u_I_mean", .u_I_mean),
  ("sigma_2_y_stack", .sigma_2_y_stack),
  ("sigma_2_y_stack_dark", .sigma_2_y_stack_dark),
  ("s_2_y_measured", .s_2_y_measured),
  ("s_2_y_measured_dark", .s_2_y_measured_dark),
  ("s_2_y", .s_2_y),
  ("s_2_y_dark", .s_2_y_dark),
  ("s_2_y_cav", .s_2_y_cav),
  ("s_2_y_cav_dark", .s_2_y_cav_dark),
  ("s_2_y_rav", .s_2_y_rav),
  ("s_2_y_rav_dark", .s_2_y_rav_dark),
  ("s_2_y_col", .s_2_y_col),
  ("s_2_y_col_dark", .s_2_y_col_dark),
  ("s_2_y_row", .s_2_y_row),
  ("s_2_y_row_dark", .s_2_y_row_dark),
  ("s_2_y_pixel", .s_2_y_pixel),
  ("s_2_y_pixel_dark", .s_2_y_pixel_dark),
  ("DSNU1288", .DSNU1288),
  ("DSNU1288_DN", .DSNU1288_DN),
  ("DSNU1288_row", .DSNU1288_row),
  ("DSNU1288_col", .DSNU1288_col),
  ("DSNU1288_pixel", .DSNU1288_pixel),
  ("PRNU1288", .PRNU1288),
  ("PRNU1288_row", .PRNU1288_row),
  ("PRNU1288_col", .PRNU1288_col),
  ("PRNU1288_pixel", .PRNU1288_pixel),
  ("histogram_PRNU", .histogram_PRNU),
  ("histogram_PRNU_accumulated", .histogram_PRNU_accumulated),
  ("histogram_DSNU", .histogram_DSNU),
  ("histogram_DSNU_accumulated", .histogram_DSNU_accumulated)]

/-- The value of an attribute as the template sees it (`linearity` and the histograms are dictionaries,
which the template does not show). process/routines.py lines 402-409. -/
def asRVal : Value → Option (RVal ℝ)
  | .int n => some (.int n)
  | .num x => some (ofNum x)
  | .lin _ => none
  | .hist _ => none

/-- A number of the template. report/report.py lines 241-252. -/
noncomputable def Cell.render (c : Cell) (v : RVal ℝ) : Except PyErr Str :=
  if c.filtered then missingNumber v c.digits else percentF c.digits v

end Report
end Emva
