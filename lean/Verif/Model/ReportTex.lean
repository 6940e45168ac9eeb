import Verif.Model.Jinja

/-!
The templates of the report (report/templates), transcribed by tools/gen_report.py.
-/
set_option autoImplicit false
set_option maxRecDepth 4000
namespace Emva
namespace Jinja

/-- report/templates/op_header.tex lines 1-16 -/
def opHeaderTex : List Node :=
  [/- line 1 -/ .text "\\begin{minipage}[t]{0.975\\linewidth}\n\\begin{multicols}{2}\n\\textbf{Camera setting} \\hfill\n\\\\[1mm]\n",
  /- line 5 -/ .items "key" "value" (.attr (.var "op") "camera_settings") ([/- line 5 -/ .text "\\textsl{",
  /- line 6 -/ .out (.var "key"),
  /- line 6 -/ .text "} \\hfill ",
  /- line 6 -/ .out (.var "value"),
  /- line 6 -/ .text "\n\\\\[1mm]\n"]),
  /- line 8 -/ .text "\\textbf{Operation point parameters}\n\\\\[1mm]\n",
  /- line 11 -/ .items "key" "value" (.attr (.var "op") "test_parameters") ([/- line 11 -/ .text "\\textsl{",
  /- line 12 -/ .out (.var "key"),
  /- line 12 -/ .text "} \\hfill ",
  /- line 12 -/ .out (.var "value"),
  /- line 12 -/ .text "\n\\\\[1mm]\n"]),
  /- line 14 -/ .text "\\end{multicols}\n\\end{minipage}"]

/-- report/templates/general_info.tex lines 1-54 -/
def generalInfoTex : List Node :=
  [/- line 1 -/ .text "\\begin{minipage}[t]{0.975\\linewidth}\n\\begin{multicols}{2}\n\\textsl{Vendor} \\hfill ",
  /- line 3 -/ .out (.missing (.attr (.var "basic") "vendor") (.lit "-")),
  /- line 3 -/ .text "\n\\\\[1mm]\n\\textsl{Model} \\hfill ",
  /- line 5 -/ .out (.missing (.attr (.var "basic") "model") (.lit "-")),
  /- line 5 -/ .text "\n\\\\[1mm]\n\\textsl{Data type} \\hfill ",
  /- line 7 -/ .out (.missing (.attr (.var "basic") "data_type") (.lit "-")),
  /- line 7 -/ .text "\n\\\\[1mm]\n\\textsl{Sensor type} \\hfill ",
  /- line 9 -/ .out (.missing (.attr (.var "basic") "sensor_type") (.lit "-")),
  /- line 9 -/ .text "\n\\\\[1mm]\n\\textsl{Diagonal} \\hfill ",
  /- line 11 -/ .out (.missing (.attr (.var "basic") "sensor_diagonal") (.lit "-")),
  /- line 11 -/ .text "\n\\\\[1mm]\n\\textsl{Lens category} \\hfill ",
  /- line 13 -/ .out (.missing (.attr (.var "basic") "lens_category") (.lit "-")),
  /- line 13 -/ .text "\n\\\\[1mm]\n\\textsl{Resolution} \\hfill ",
  /- line 15 -/ .out (.missing (.attr (.var "basic") "resolution") (.lit "-")),
  /- line 15 -/ .text " pixels\n\\\\[1mm]\n\\textsl{Pixel size} \\hfill ",
  /- line 17 -/ .out (.missing (.attr (.var "basic") "pixel_size") (.lit "-")),
  /- line 17 -/ .text " $\\mu m$\n\\\\[1mm]",
  /- line 19 -/ .ite (.eqStr (.attr (.var "basic") "sensor_type") "CCD") ([/- line 19 -/ .text "\\textsl{Readout type} \\hfill ",
  /- line 20 -/ .out (.missing (.attr (.var "basic") "readout_type") (.lit "-")),
  /- line 20 -/ .text "\n\\\\[1mm]\n\\textsl{Transfer type} \\hfill ",
  /- line 22 -/ .out (.missing (.attr (.var "basic") "transfer_type") (.lit "-")),
  /- line 22 -/ .text "\n\\\\[1mm]"]) ([/- line 24 -/ .ite (.eqStr (.attr (.var "basic") "sensor_type") "CMOS") ([/- line 24 -/ .text "\\textsl{Shutter type} \\hfill ",
  /- line 25 -/ .out (.missing (.attr (.var "basic") "shutter_type") (.lit "-")),
  /- line 25 -/ .text "\n\\\\[1mm]\n\\textsl{Overlap capabilities} \\hfill ",
  /- line 27 -/ .out (.missing (.attr (.var "basic") "overlap_capabilities") (.lit "-")),
  /- line 27 -/ .text "\n\\\\[1mm]"]) ([])]),
  /- line 29 -/ .text "\\textsl{Maximum readout rate} \\hfill  ",
  /- line 30 -/ .out (.missing (.attr (.var "basic") "maximum_readout_rate") (.lit "-")),
  /- line 30 -/ .text "\n\\\\[1mm]\n\\textsl{Dark current compensation} \\hfill   ",
  /- line 32 -/ .out (.missing (.attr (.var "basic") "dark_current_compensation") (.lit "-")),
  /- line 32 -/ .text "\n\\\\[1mm]\n\\textsl{Interface type} \\hfill  ",
  /- line 34 -/ .out (.missing (.attr (.var "basic") "interface_type") (.lit "-")),
  /- line 34 -/ .text "\n\\\\[1mm]\n%%%%%%%%%% SETUP\n",
  /- line 37 -/ .items "key" "value" (.var "setup") ([/- line 37 -/ .text "\\textsl{",
  /- line 38 -/ .out (.var "key"),
  /- line 38 -/ .text "} \\hfill ",
  /- line 38 -/ .out (.missing (.var "value") (.lit "-")),
  /- line 38 -/ .text "\n\\\\[1mm]\n"]),
  /- line 40 -/ .text "\\end{multicols}\n\\end{minipage}\n\\\\[5mm]\n",
  /- line 44 -/ .loop "op" (.var "operation_points") ([/- line 44 -/ .text "\n\t\\underline{\\textsl{Operation Point: \\textbf{",
  /- line 45 -/ .out (.attr (.var "op") "name"),
  /- line 45 -/ .text "} (Page \\pageref{",
  /- line 45 -/ .out (.attr (.var "op") "id"),
  /- line 45 -/ .text "})}}\n\n \t"] ++
  opHeaderTex ++
  [/- line 47 -/ .text "\n\\\\[5mm]\n"]),
  /- line 49 -/ .text "\n\n\\vfill\n\\begin{center}\n\\includegraphics[height=100mm,keepaspectratio]{",
  /- line 53 -/ .out (.missing (.attr (.var "basic") "qe_plot") (.attr (.var "marketing") "missingplot")),
  /- line 53 -/ .text "}\n\\end{center}"]

/-- report/templates/op.tex lines 1-235 -/
def opTex : List Node :=
  [/- line 1 -/ .text "\\newpage\n\\ReportSection{Operation Point: \\textbf{",
  /- line 2 -/ .out (.attr (.var "op") "name"),
  /- line 2 -/ .text "} (@",
  /- line 2 -/ .out (.missing (.attr (.attr (.var "op") "test_parameters") "Wavelength") (.lit "-")),
  /- line 2 -/ .text ")}\n\n\\underline{\\textsl{Summary sheet for Operation Point: \\textbf{",
  /- line 4 -/ .out (.attr (.var "op") "name"),
  /- line 4 -/ .text "}\\label{",
  /- line 4 -/ .out (.attr (.var "op") "id"),
  /- line 4 -/ .text "}} (@",
  /- line 4 -/ .out (.missing (.attr (.attr (.var "op") "test_parameters") "Wavelength") (.lit "-")),
  /- line 4 -/ .text " wavelength)}\n\n"] ++
  opHeaderTex ++
  [/- line 6 -/ .text "\n\\\\[10mm]\n%Plots\n\\begin{minipage}[t]{0.690\\linewidth}\n\n\\includegraphics[width=0.95\\linewidth,keepaspectratio]{",
  /- line 11 -/ .out (.attr (.attr (.var "op") "plots") "PlotPTC"),
  /- line 11 -/ .text "}\n\n\\includegraphics[width=0.95\\linewidth,keepaspectratio]{",
  /- line 13 -/ .out (.attr (.attr (.var "op") "plots") "PlotSNR"),
  /- line 13 -/ .text "}\n\\end{minipage}\n%Results\n\\begin{minipage}[t]{0.290\\linewidth}\n\n\\begin{tabular}{lr@{\\hspace{1.4mm}}l}\n\\multicolumn{3}{c}{\\textbf{Performance}} \\\\[2mm]\n\n\\multicolumn{3}{l}{\\textbf{",
  /- line 21 -/ .out (.attr (.attr (.attr (.attr (.var "op") "results") "sensitivity") "QE") "short"),
  /- line 21 -/ .text " }} \\\\\n\n",
  /- line 23 -/ .out (.attr (.attr (.attr (.attr (.var "op") "results") "sensitivity") "QE") "symbol"),
  /- line 23 -/ .text " &\n",
  /- line 24 -/ .out (.percent 2 (.attr (.attr (.attr (.attr (.var "op") "results") "sensitivity") "QE") "value")),
  /- line 24 -/ .text " &\n",
  /- line 25 -/ .out (.attr (.attr (.attr (.attr (.var "op") "results") "sensitivity") "QE") "unit"),
  /- line 25 -/ .text " \\\\[3mm]\n\n\\multicolumn{3}{l}{\\textbf{",
  /- line 27 -/ .out (.attr (.attr (.attr (.attr (.var "op") "results") "sensitivity") "K") "short"),
  /- line 27 -/ .text "}} \\\\\n\n",
  /- line 29 -/ .out (.attr (.attr (.attr (.attr (.var "op") "results") "sensitivity") "K") "symbol"),
  /- line 29 -/ .text " &\n",
  /- line 30 -/ .out (.percent 3 (.attr (.attr (.attr (.attr (.var "op") "results") "sensitivity") "K") "value")),
  /- line 30 -/ .text " &\n",
  /- line 31 -/ .out (.attr (.attr (.attr (.attr (.var "op") "results") "sensitivity") "K") "unit"),
  /- line 31 -/ .text " \\\\\n\n",
  /- line 33 -/ .out (.attr (.attr (.attr (.attr (.var "op") "results") "sensitivity") "inverse_K") "symbol"),
  /- line 33 -/ .text " &\n",
  /- line 34 -/ .out (.percent 3 (.attr (.attr (.attr (.attr (.var "op") "results") "sensitivity") "inverse_K") "value")),
  /- line 34 -/ .text " &\n",
  /- line 35 -/ .out (.attr (.attr (.attr (.attr (.var "op") "results") "sensitivity") "inverse_K") "unit"),
  /- line 35 -/ .text " \\\\[3mm]\n\n\\multicolumn{3}{l}{\\textbf{Temporal dark noise}} \\\\\n\n",
  /- line 39 -/ .out (.attr (.attr (.attr (.attr (.var "op") "results") "sensitivity") "sigma_d") "symbol"),
  /- line 39 -/ .text " &\n",
  /- line 40 -/ .out (.percent 3 (.attr (.attr (.attr (.attr (.var "op") "results") "sensitivity") "sigma_d") "value")),
  /- line 40 -/ .text " &\n",
  /- line 41 -/ .out (.attr (.attr (.attr (.attr (.var "op") "results") "sensitivity") "sigma_d") "unit"),
  /- line 41 -/ .text " \\\\\n\n",
  /- line 43 -/ .out (.attr (.attr (.attr (.attr (.var "op") "results") "sensitivity") "sigma_y_dark") "symbol"),
  /- line 43 -/ .text " &\n",
  /- line 44 -/ .out (.percent 3 (.attr (.attr (.attr (.attr (.var "op") "results") "sensitivity") "sigma_y_dark") "value")),
  /- line 44 -/ .text " &\n",
  /- line 45 -/ .out (.attr (.attr (.attr (.attr (.var "op") "results") "sensitivity") "sigma_y_dark") "unit"),
  /- line 45 -/ .text " \\\\[3mm]\n\n\\multicolumn{3}{l}{\\textbf{",
  /- line 47 -/ .out (.attr (.attr (.attr (.attr (.var "op") "results") "sensitivity") "SNR_max") "short"),
  /- line 47 -/ .text "}} \\\\\n\n",
  /- line 49 -/ .out (.attr (.attr (.attr (.attr (.var "op") "results") "sensitivity") "SNR_max") "symbol"),
  /- line 49 -/ .text " &\n",
  /- line 50 -/ .out (.percent 0 (.attr (.attr (.attr (.attr (.var "op") "results") "sensitivity") "SNR_max") "value")),
  /- line 50 -/ .text " \\\\\n\n& % ",
  /- line 52 -/ .out (.attr (.attr (.attr (.attr (.var "op") "results") "sensitivity") "SNR_max_dB") "symbol"),
  /- line 52 -/ .text " &\n",
  /- line 53 -/ .out (.percent 2 (.attr (.attr (.attr (.attr (.var "op") "results") "sensitivity") "SNR_max_dB") "value")),
  /- line 53 -/ .text " &\n",
  /- line 54 -/ .out (.attr (.attr (.attr (.attr (.var "op") "results") "sensitivity") "SNR_max_dB") "unit"),
  /- line 54 -/ .text " \\\\\n\n& % ",
  /- line 56 -/ .out (.attr (.attr (.attr (.attr (.var "op") "results") "sensitivity") "SNR_max_bit") "symbol"),
  /- line 56 -/ .text " &\n",
  /- line 57 -/ .out (.percent 1 (.attr (.attr (.attr (.attr (.var "op") "results") "sensitivity") "SNR_max_bit") "value")),
  /- line 57 -/ .text " &\n",
  /- line 58 -/ .out (.attr (.attr (.attr (.attr (.var "op") "results") "sensitivity") "SNR_max_bit") "unit"),
  /- line 58 -/ .text " \\\\\n\n",
  /- line 60 -/ .out (.attr (.attr (.attr (.attr (.var "op") "results") "sensitivity") "inverse_SNR_max") "symbol"),
  /- line 60 -/ .text " &\n",
  /- line 61 -/ .out (.percent 3 (.attr (.attr (.attr (.attr (.var "op") "results") "sensitivity") "inverse_SNR_max") "value")),
  /- line 61 -/ .text " &\n",
  /- line 62 -/ .out (.attr (.attr (.attr (.attr (.var "op") "results") "sensitivity") "inverse_SNR_max") "unit"),
  /- line 62 -/ .text " \\\\[3mm]\n\n\\multicolumn{3}{l}{\\textbf{",
  /- line 64 -/ .out (.attr (.attr (.attr (.attr (.var "op") "results") "sensitivity") "u_p_min") "short"),
  /- line 64 -/ .text "}} \\\\\n\n",
  /- line 66 -/ .out (.attr (.attr (.attr (.attr (.var "op") "results") "sensitivity") "u_p_min") "symbol"),
  /- line 66 -/ .text "  &\n",
  /- line 67 -/ .out (.missingNumber (.attr (.attr (.attr (.attr (.var "op") "results") "sensitivity") "u_p_min") "value") 3),
  /- line 67 -/ .text " &\n",
  /- line 68 -/ .out (.attr (.attr (.attr (.attr (.var "op") "results") "sensitivity") "u_p_min") "unit"),
  /- line 68 -/ .text " \\\\\n\n",
  /- line 70 -/ .out (.attr (.attr (.attr (.attr (.var "op") "results") "sensitivity") "u_p_min_area") "symbol"),
  /- line 70 -/ .text "  &\n",
  /- line 71 -/ .out (.missingNumber (.attr (.attr (.attr (.attr (.var "op") "results") "sensitivity") "u_p_min_area") "value") 3),
  /- line 71 -/ .text " &\n",
  /- line 72 -/ .out (.attr (.attr (.attr (.attr (.var "op") "results") "sensitivity") "u_p_min_area") "unit"),
  /- line 72 -/ .text " \\\\\n\n",
  /- line 74 -/ .out (.attr (.attr (.attr (.attr (.var "op") "results") "sensitivity") "u_e_min") "symbol"),
  /- line 74 -/ .text " &\n",
  /- line 75 -/ .out (.percent 3 (.attr (.attr (.attr (.attr (.var "op") "results") "sensitivity") "u_e_min") "value")),
  /- line 75 -/ .text " &\n",
  /- line 76 -/ .out (.attr (.attr (.attr (.attr (.var "op") "results") "sensitivity") "u_e_min") "unit"),
  /- line 76 -/ .text " \\\\\n\n",
  /- line 78 -/ .out (.attr (.attr (.attr (.attr (.var "op") "results") "sensitivity") "u_e_min_area") "symbol"),
  /- line 78 -/ .text " &\n",
  /- line 79 -/ .out (.missingNumber (.attr (.attr (.attr (.attr (.var "op") "results") "sensitivity") "u_e_min_area") "value") 3),
  /- line 79 -/ .text " &\n",
  /- line 80 -/ .out (.attr (.attr (.attr (.attr (.var "op") "results") "sensitivity") "u_e_min_area") "unit"),
  /- line 80 -/ .text " \\\\[3mm]\n\n\n\\multicolumn{3}{l}{\\textbf{",
  /- line 83 -/ .out (.attr (.attr (.attr (.attr (.var "op") "results") "sensitivity") "u_p_sat") "short"),
  /- line 83 -/ .text "}} \\\\\n\n",
  /- line 85 -/ .out (.attr (.attr (.attr (.attr (.var "op") "results") "sensitivity") "u_p_sat") "symbol"),
  /- line 85 -/ .text "  &\n",
  /- line 86 -/ .out (.percent 0 (.attr (.attr (.attr (.attr (.var "op") "results") "sensitivity") "u_p_sat") "value")),
  /- line 86 -/ .text " &\n",
  /- line 87 -/ .out (.attr (.attr (.attr (.attr (.var "op") "results") "sensitivity") "u_p_sat") "unit"),
  /- line 87 -/ .text " \\\\\n\n",
  /- line 89 -/ .out (.attr (.attr (.attr (.attr (.var "op") "results") "sensitivity") "u_p_sat_area") "symbol"),
  /- line 89 -/ .text "  &\n",
  /- line 90 -/ .out (.missingNumber (.attr (.attr (.attr (.attr (.var "op") "results") "sensitivity") "u_p_sat_area") "value") 3),
  /- line 90 -/ .text " &\n",
  /- line 91 -/ .out (.attr (.attr (.attr (.attr (.var "op") "results") "sensitivity") "u_p_sat_area") "unit"),
  /- line 91 -/ .text " \\\\\n\n",
  /- line 93 -/ .out (.attr (.attr (.attr (.attr (.var "op") "results") "sensitivity") "u_e_sat") "symbol"),
  /- line 93 -/ .text " &\n",
  /- line 94 -/ .out (.percent 0 (.attr (.attr (.attr (.attr (.var "op") "results") "sensitivity") "u_e_sat") "value")),
  /- line 94 -/ .text " &\n",
  /- line 95 -/ .out (.attr (.attr (.attr (.attr (.var "op") "results") "sensitivity") "u_e_sat") "unit"),
  /- line 95 -/ .text " \\\\\n\n",
  /- line 97 -/ .out (.attr (.attr (.attr (.attr (.var "op") "results") "sensitivity") "u_e_sat_area") "symbol"),
  /- line 97 -/ .text " &\n",
  /- line 98 -/ .out (.missingNumber (.attr (.attr (.attr (.attr (.var "op") "results") "sensitivity") "u_e_sat_area") "value") 0),
  /- line 98 -/ .text " &\n",
  /- line 99 -/ .out (.attr (.attr (.attr (.attr (.var "op") "results") "sensitivity") "u_e_sat_area") "unit"),
  /- line 99 -/ .text " \\\\[3mm]\n\n\n\\multicolumn{3}{l}{\\textbf{",
  /- line 102 -/ .out (.attr (.attr (.attr (.attr (.var "op") "results") "sensitivity") "DR") "short"),
  /- line 102 -/ .text "}} \\\\\n\n",
  /- line 104 -/ .out (.attr (.attr (.attr (.attr (.var "op") "results") "sensitivity") "DR") "symbol"),
  /- line 104 -/ .text " &\n",
  /- line 105 -/ .out (.percent 0 (.attr (.attr (.attr (.attr (.var "op") "results") "sensitivity") "DR") "value")),
  /- line 105 -/ .text " \\\\\n\n& % ",
  /- line 107 -/ .out (.attr (.attr (.attr (.attr (.var "op") "results") "sensitivity") "DR_dB") "symbol"),
  /- line 107 -/ .text " &\n",
  /- line 108 -/ .out (.percent 1 (.attr (.attr (.attr (.attr (.var "op") "results") "sensitivity") "DR_dB") "value")),
  /- line 108 -/ .text " &\n",
  /- line 109 -/ .out (.attr (.attr (.attr (.attr (.var "op") "results") "sensitivity") "DR_dB") "unit"),
  /- line 109 -/ .text " \\\\[3mm]\n\n\\multicolumn{3}{l}{\\textbf{Spatial Nonuniformities}} \\\\\n\n",
  /- line 113 -/ .out (.attr (.attr (.attr (.attr (.var "op") "results") "spatial") "DSNU1288") "symbol"),
  /- line 113 -/ .text " &\n",
  /- line 114 -/ .out (.percent 1 (.attr (.attr (.attr (.attr (.var "op") "results") "spatial") "DSNU1288") "value")),
  /- line 114 -/ .text " &\n",
  /- line 115 -/ .out (.attr (.attr (.attr (.attr (.var "op") "results") "spatial") "DSNU1288") "unit"),
  /- line 115 -/ .text " \\\\\n\n",
  /- line 117 -/ .out (.attr (.attr (.attr (.attr (.var "op") "results") "spatial") "DSNU1288_row") "symbol"),
  /- line 117 -/ .text " &\n",
  /- line 118 -/ .out (.percent 1 (.attr (.attr (.attr (.attr (.var "op") "results") "spatial") "DSNU1288_row") "value")),
  /- line 118 -/ .text " &\n",
  /- line 119 -/ .out (.attr (.attr (.attr (.attr (.var "op") "results") "spatial") "DSNU1288_row") "unit"),
  /- line 119 -/ .text " \\\\\n\n",
  /- line 121 -/ .out (.attr (.attr (.attr (.attr (.var "op") "results") "spatial") "DSNU1288_col") "symbol"),
  /- line 121 -/ .text " &\n",
  /- line 122 -/ .out (.percent 1 (.attr (.attr (.attr (.attr (.var "op") "results") "spatial") "DSNU1288_col") "value")),
  /- line 122 -/ .text " &\n",
  /- line 123 -/ .out (.attr (.attr (.attr (.attr (.var "op") "results") "spatial") "DSNU1288_col") "unit"),
  /- line 123 -/ .text " \\\\\n\n",
  /- line 125 -/ .out (.attr (.attr (.attr (.attr (.var "op") "results") "spatial") "DSNU1288_pixel") "symbol"),
  /- line 125 -/ .text " &\n",
  /- line 126 -/ .out (.percent 1 (.attr (.attr (.attr (.attr (.var "op") "results") "spatial") "DSNU1288_pixel") "value")),
  /- line 126 -/ .text " &\n",
  /- line 127 -/ .out (.attr (.attr (.attr (.attr (.var "op") "results") "spatial") "DSNU1288_pixel") "unit"),
  /- line 127 -/ .text " \\\\\n\n",
  /- line 129 -/ .out (.attr (.attr (.attr (.attr (.var "op") "results") "spatial") "PRNU1288") "symbol"),
  /- line 129 -/ .text " &\n",
  /- line 130 -/ .out (.percent 1 (.attr (.attr (.attr (.attr (.var "op") "results") "spatial") "PRNU1288") "value")),
  /- line 130 -/ .text " &\n",
  /- line 131 -/ .out (.attr (.attr (.attr (.attr (.var "op") "results") "spatial") "PRNU1288") "unit"),
  /- line 131 -/ .text " \\\\\n\n",
  /- line 133 -/ .out (.attr (.attr (.attr (.attr (.var "op") "results") "spatial") "PRNU1288_row") "symbol"),
  /- line 133 -/ .text " &\n",
  /- line 134 -/ .out (.percent 1 (.attr (.attr (.attr (.attr (.var "op") "results") "spatial") "PRNU1288_row") "value")),
  /- line 134 -/ .text " &\n",
  /- line 135 -/ .out (.attr (.attr (.attr (.attr (.var "op") "results") "spatial") "PRNU1288_row") "unit"),
  /- line 135 -/ .text " \\\\\n\n",
  /- line 137 -/ .out (.attr (.attr (.attr (.attr (.var "op") "results") "spatial") "PRNU1288_col") "symbol"),
  /- line 137 -/ .text " &\n",
  /- line 138 -/ .out (.percent 1 (.attr (.attr (.attr (.attr (.var "op") "results") "spatial") "PRNU1288_col") "value")),
  /- line 138 -/ .text " &\n",
  /- line 139 -/ .out (.attr (.attr (.attr (.attr (.var "op") "results") "spatial") "PRNU1288_col") "unit"),
  /- line 139 -/ .text " \\\\\n\n",
  /- line 141 -/ .out (.attr (.attr (.attr (.attr (.var "op") "results") "spatial") "PRNU1288_pixel") "symbol"),
  /- line 141 -/ .text " &\n",
  /- line 142 -/ .out (.percent 1 (.attr (.attr (.attr (.attr (.var "op") "results") "spatial") "PRNU1288_pixel") "value")),
  /- line 142 -/ .text " &\n",
  /- line 143 -/ .out (.attr (.attr (.attr (.attr (.var "op") "results") "spatial") "PRNU1288_pixel") "unit"),
  /- line 143 -/ .text " \\\\[3mm]\n\n\\multicolumn{3}{l}{\\textbf{Linearity error}} \\\\\n\n",
  /- line 147 -/ .out (.attr (.attr (.attr (.attr (.var "op") "results") "linearity") "LE_min") "symbol"),
  /- line 147 -/ .text " &\n",
  /- line 148 -/ .out (.percent 3 (.attr (.attr (.attr (.attr (.var "op") "results") "linearity") "LE_min") "value")),
  /- line 148 -/ .text " &\n",
  /- line 149 -/ .out (.attr (.attr (.attr (.attr (.var "op") "results") "linearity") "LE_min") "unit"),
  /- line 149 -/ .text " \\\\\n\n",
  /- line 151 -/ .out (.attr (.attr (.attr (.attr (.var "op") "results") "linearity") "LE_max") "symbol"),
  /- line 151 -/ .text " &\n",
  /- line 152 -/ .out (.percent 3 (.attr (.attr (.attr (.attr (.var "op") "results") "linearity") "LE_max") "value")),
  /- line 152 -/ .text " &\n",
  /- line 153 -/ .out (.attr (.attr (.attr (.attr (.var "op") "results") "linearity") "LE_max") "unit"),
  /- line 153 -/ .text " \\\\[3mm]\n\n\\multicolumn{3}{l}{\\textbf{Dark current}} \\\\\n\n",
  /- line 157 -/ .out (.attr (.attr (.attr (.attr (.var "op") "results") "dark_current") "u_I_mean") "symbol"),
  /- line 157 -/ .text " &\n",
  /- line 158 -/ .out (.missingNumber (.attr (.attr (.attr (.attr (.var "op") "results") "dark_current") "u_I_mean") "value") 3),
  /- line 158 -/ .text " &\n",
  /- line 159 -/ .out (.attr (.attr (.attr (.attr (.var "op") "results") "dark_current") "u_I_mean") "unit"),
  /- line 159 -/ .text " \\\\\n&\n",
  /- line 161 -/ .out (.missingNumber (.attr (.attr (.attr (.attr (.var "op") "results") "dark_current") "u_I_mean_DN") "value") 3),
  /- line 161 -/ .text " &\n",
  /- line 162 -/ .out (.attr (.attr (.attr (.attr (.var "op") "results") "dark_current") "u_I_mean_DN") "unit"),
  /- line 162 -/ .text " \\\\\n\n",
  /- line 164 -/ .out (.attr (.attr (.attr (.attr (.var "op") "results") "dark_current") "u_I_var") "symbol"),
  /- line 164 -/ .text " &\n",
  /- line 165 -/ .out (.missingNumber (.attr (.attr (.attr (.attr (.var "op") "results") "dark_current") "u_I_var") "value") 3),
  /- line 165 -/ .text " &\n",
  /- line 166 -/ .out (.attr (.attr (.attr (.attr (.var "op") "results") "dark_current") "u_I_var") "unit"),
  /- line 166 -/ .text " \\\\\n&\n",
  /- line 168 -/ .out (.missingNumber (.attr (.attr (.attr (.attr (.var "op") "results") "dark_current") "u_I_var_DN") "value") 3),
  /- line 168 -/ .text " &\n",
  /- line 169 -/ .out (.attr (.attr (.attr (.attr (.var "op") "results") "dark_current") "u_I_var_DN") "unit"),
  /- line 169 -/ .text "  \\\\[3mm]\n\n\\end{tabular}\n\\end{minipage}\n\n\n\n",
  /- line 176 -/ .ite (.isFalse (.attr (.var "op") "summary_only")) ([/- line 176 -/ .text "\n%Extra plots\n\\newpage\n\\begin{center}\n\\includegraphics[height=0.45\\textheight,keepaspectratio]{",
  /- line 180 -/ .out (.attr (.attr (.var "op") "plots") "PlotSensitivity"),
  /- line 180 -/ .text "}\n\\end{center}\n\\begin{center}\n\\includegraphics[height=0.45\\textheight,keepaspectratio]{",
  /- line 183 -/ .out (.attr (.attr (.var "op") "plots") "PlotUyDark"),
  /- line 183 -/ .text "}\n\\end{center}\n\\vfill\n\\newpage\n\\begin{center}\n\\includegraphics[height=0.45\\textheight,keepaspectratio]{",
  /- line 188 -/ .out (.attr (.attr (.var "op") "plots") "PlotLinearity"),
  /- line 188 -/ .text "}\n\\end{center}\n\\begin{center}\n\\includegraphics[height=0.45\\textheight,keepaspectratio]{",
  /- line 191 -/ .out (.attr (.attr (.var "op") "plots") "PlotDeviationLinearity"),
  /- line 191 -/ .text "}\n\\end{center}\n\\vfill\n\\newpage\n\\begin{center}\n\\includegraphics[height=0.45\\textheight,keepaspectratio]{",
  /- line 196 -/ .out (.attr (.attr (.var "op") "plots") "PlotHorizontalSpectrogramPRNU"),
  /- line 196 -/ .text "}\n\\end{center}\n\\begin{center}\n\\includegraphics[height=0.45\\textheight,keepaspectratio]{",
  /- line 199 -/ .out (.attr (.attr (.var "op") "plots") "PlotHorizontalSpectrogramDSNU"),
  /- line 199 -/ .text "}\n\\end{center}\n\\vfill\n\\newpage\n\\begin{center}\n\\includegraphics[height=0.45\\textheight,keepaspectratio]{",
  /- line 204 -/ .out (.attr (.attr (.var "op") "plots") "PlotVerticalSpectrogramPRNU"),
  /- line 204 -/ .text "}\n\\end{center}\n\\begin{center}\n\\includegraphics[height=0.45\\textheight,keepaspectratio]{",
  /- line 207 -/ .out (.attr (.attr (.var "op") "plots") "PlotVerticalSpectrogramDSNU"),
  /- line 207 -/ .text "}\n\\end{center}\n\\vfill\n\\newpage\n\\begin{center}\n\\includegraphics[height=0.45\\textheight,keepaspectratio]{",
  /- line 212 -/ .out (.attr (.attr (.var "op") "plots") "PlotLogarithmicHistogramDSNU"),
  /- line 212 -/ .text "}\n\\end{center}\n\\begin{center}\n\\includegraphics[height=0.45\\textheight,keepaspectratio]{",
  /- line 215 -/ .out (.attr (.attr (.var "op") "plots") "PlotLogarithmicHistogramPRNU"),
  /- line 215 -/ .text "}\n\\end{center}\n\\vfill\n\\newpage\n\\begin{center}\n\\includegraphics[height=0.45\\textheight,keepaspectratio]{",
  /- line 220 -/ .out (.attr (.attr (.var "op") "plots") "PlotAccumulatedLogHistogramDSNU"),
  /- line 220 -/ .text "}\n\\end{center}\n\\begin{center}\n\\includegraphics[height=0.45\\textheight,keepaspectratio]{",
  /- line 223 -/ .out (.attr (.attr (.var "op") "plots") "PlotAccumulatedLogHistogramPRNU"),
  /- line 223 -/ .text "}\n\\end{center}\n\\vfill\n\\newpage\n\\begin{center}\n\\includegraphics[height=0.45\\textheight,keepaspectratio]{",
  /- line 228 -/ .out (.attr (.attr (.var "op") "plots") "PlotHorizontalProfile"),
  /- line 228 -/ .text "}\n\\end{center}\n\\begin{center}\n\\includegraphics[height=0.45\\textheight,keepaspectratio]{",
  /- line 231 -/ .out (.attr (.attr (.var "op") "plots") "PlotVerticalProfile"),
  /- line 231 -/ .text "}\n\\end{center}\n\\vfill\n\n"]) ([])]

/-- report/templates/report.tex lines 1-50 -/
def reportTex : List Node :=
  [/- line 1 -/ .text "\\documentclass[a4paper,twoside,12pt,american,hidelinks]{article}\n\\usepackage[T1]{fontenc}\n\\usepackage[cp1257]{inputenc}\n\\usepackage{lmodern}\n\\usepackage{graphicx}\n\\usepackage{fancyhdr}\n\\usepackage{xcolor}\n\\usepackage{emvadatasheet}\n\\usepackage{lastpage}\n\\usepackage{tikz}\n\\usepackage{multicol}\n",
  /- line 12 -/ .ite (.isTrue (.attr (.var "marketing") "watermark")) ([/- line 12 -/ .text "\n\\usepackage[color={red!30}, fontsize=96pt, text={",
  /- line 13 -/ .out (.attr (.var "marketing") "watermark"),
  /- line 13 -/ .text "}]{draftwatermark}\n"]) ([]),
  /- line 14 -/ .text "\n\n\\title{}\n\\author{}\n\\date{}\n\\begin{document}\n\n\\newcommand{\\TheReportSection}{}\n\\newcommand{\\ReportSection}[1]{\\renewcommand{\\TheReportSection}{#1}}\n\n%First marketing cover page\n",
  /- line 25 -/ .ite (.isTrue (.var "cover_page")) ([/- line 25 -/ .text "\n\\input{",
  /- line 26 -/ .out (.var "cover_page"),
  /- line 26 -/ .text "}\n"]) ([]),
  /- line 27 -/ .text "\n\n%Cover preamble\n\\ReportSection{EMVA\\,1288 Datasheet}\n\\pagestyle{fancy}\n\\scriptsize\n%Cover header\n\\textbf{EMVA\\,1288 Datasheet}\n\\vspace*{5mm}\n\n\\begin{minipage}[t]{0.975\\linewidth}\nThis datasheet describes the specification according to the standard 1288\nStandard for Characterization and Presentation of Specification Data for\nImage Sensors and Cameras of European Machine Vision Association (EMVA)\n(See www.standard1288.org).\n\\end{minipage}\n\\vspace*{5mm}\n\n"] ++
  generalInfoTex ++
  [/- line 45 -/ .text "\n",
  /- line 46 -/ .loop "op" (.var "operation_points") ([/- line 46 -/ .text "\n \t"] ++
  opTex ++
  [/- line 47 -/ .text "\n"]),
  /- line 48 -/ .text "\n\n\\end{document}"]

/-- report/templates/emvadatasheet.sty lines 1-39 -/
def emvadatasheetSty : List Node :=
  [/- line 1 -/ .text "\n\\typeout{Document Style `emvadatasheet' <27.09.2012>, Version 1.0.}\n\n\n\\makeatletter\n\n%% PAGE LAYOUT\n\\setlength{\\textheight}{25cm}\n\\setlength{\\textwidth}{18.4cm} %Textbreite\n\\setlength{\\oddsidemargin}{1cm} %Rechter Rand der rechten Seite\n\\setlength{\\evensidemargin}{1cm} %Rechter Rand der linken Seite\n\\setlength{\\marginparwidth}{0cm} %Legt die Breite des Randnotizen-Bereichs fest.\n\\setlength{\\topmargin}{0cm}\n\\setlength{\\parindent}{0pt} %Einzug bei Anfaengen von Absaetzen\n\\setlength\\headheight{15mm} %Hoehe der Kopfzeile\n\n\\voffset-19mm %Vertikaler Versatz\n\\hoffset-23mm %Horizontaler Versatz\n\n\n\n% Header\n\\fancyhead{}%\n\\fancyhead[LO,LE]{\\includegraphics[height=12mm]{files/EMVA1288Logo.pdf}}\n\\fancyhead[C]{\\textbf{",
  /- line 25 -/ .out (.attr (.var "marketing") "vendor"),
  /- line 25 -/ .text " \\, ",
  /- line 25 -/ .out (.missing (.attr (.var "basic") "model") (.lit "-")),
  /- line 25 -/ .text "}}\n\\fancyhead[RE,RO]{\\includegraphics[height=12mm]{",
  /- line 26 -/ .out (.attr (.var "marketing") "logo"),
  /- line 26 -/ .text "}}\n\\renewcommand{\\headrulewidth}{0.5pt}\n\n% Footer\n\\fancyfoot{}%\n\\fancyfoot[LO,RE]{\\scriptsize\\sffamily \\TheReportSection}\n\\fancyfoot[LE,RO]{\\scriptsize\\sffamily\\textup\\thepage\\ of \\pageref{LastPage}}\n\\renewcommand{\\footrulewidth}{0.4pt}\n\n\\setlength{\\columnsep}{1cm}  % Spaltenabstand\n\n\\def\\ind#1{\\ensuremath{_{\\mbox{\\scriptsize #1}}}}\n\n\\makeatother"]

end Jinja
end Emva
