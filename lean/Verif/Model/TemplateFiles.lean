import Verif.Py.Chars
import Verif.Model.JinjaLexer

/-!
The texts of the templates (report/templates), copied by tools/gen_report.py, and how they are found and read
(report/report.py lines 230-239, 308, 314).
-/
set_option autoImplicit false
namespace Emva
namespace Jinja

/-- report/templates/report.tex lines 1-50 -/
noncomputable def reportTexFile : Str := chars! r#"\documentclass[a4paper,twoside,12pt,american,hidelinks]{article}
\usepackage[T1]{fontenc}
\usepackage[cp1257]{inputenc}
\usepackage{lmodern}
\usepackage{graphicx}
\usepackage{fancyhdr}
\usepackage{xcolor}
\usepackage{emvadatasheet}
\usepackage{lastpage}
\usepackage{tikz}
\usepackage{multicol}
%{ if marketing.watermark %}
\usepackage[color={red!30}, fontsize=96pt, text={%{{marketing.watermark%}}}]{draftwatermark}
%{ endif %}

\title{}
\author{}
\date{}
\begin{document}

\newcommand{\TheReportSection}{}
\newcommand{\ReportSection}[1]{\renewcommand{\TheReportSection}{#1}}

%First marketing cover page
%{ if cover_page %}
\input{%{{cover_page%}}}
%{ endif %}

%Cover preamble
\ReportSection{EMVA\,1288 Datasheet}
\pagestyle{fancy}
\scriptsize
%Cover header
\textbf{EMVA\,1288 Datasheet}
\vspace*{5mm}

\begin{minipage}[t]{0.975\linewidth}
This datasheet describes the specification according to the standard 1288
Standard for Characterization and Presentation of Specification Data for
Image Sensors and Cameras of European Machine Vision Association (EMVA)
(See www.standard1288.org).
\end{minipage}
\vspace*{5mm}

%{ include 'general_info.tex' %}
%{ for op in operation_points %}
 	%{ include 'op.tex' %}
%{ endfor %}

\end{document}
"#

/-- report/templates/general_info.tex lines 1-54 -/
noncomputable def generalInfoTexFile : Str := chars! r#"\begin{minipage}[t]{0.975\linewidth}
\begin{multicols}{2}
\textsl{Vendor} \hfill %{{ basic.vendor|missing %}}
\\[1mm]
\textsl{Model} \hfill %{{ basic.model|missing %}}
\\[1mm]
\textsl{Data type} \hfill %{{ basic.data_type|missing %}}
\\[1mm]
\textsl{Sensor type} \hfill %{{ basic.sensor_type|missing %}}
\\[1mm]
\textsl{Diagonal} \hfill %{{ basic.sensor_diagonal|missing %}}
\\[1mm]
\textsl{Lens category} \hfill %{{ basic.lens_category|missing %}}
\\[1mm]
\textsl{Resolution} \hfill %{{ basic.resolution|missing %}} pixels
\\[1mm]
\textsl{Pixel size} \hfill %{{ basic.pixel_size|missing %}} $\mu m$
\\[1mm]
%{- if basic.sensor_type == "CCD" -%}
\textsl{Readout type} \hfill %{{ basic.readout_type|missing %}}
\\[1mm]
\textsl{Transfer type} \hfill %{{ basic.transfer_type|missing %}}
\\[1mm]
%{- elif basic.sensor_type == "CMOS" -%}
\textsl{Shutter type} \hfill %{{ basic.shutter_type|missing %}}
\\[1mm]
\textsl{Overlap capabilities} \hfill %{{ basic.overlap_capabilities|missing %}}
\\[1mm]
%{- endif -%}
\textsl{Maximum readout rate} \hfill  %{{ basic.maximum_readout_rate|missing %}}
\\[1mm]
\textsl{Dark current compensation} \hfill   %{{ basic.dark_current_compensation|missing %}}
\\[1mm]
\textsl{Interface type} \hfill  %{{ basic.interface_type|missing %}}
\\[1mm]
%%%%%%%%%% SETUP
%{ for key, value in setup.items() -%}
\textsl{%{{ key %}}} \hfill %{{ value|missing %}}
\\[1mm]
%{ endfor -%}
\end{multicols}
\end{minipage}
\\[5mm]
%{ for op in operation_points %}
	\underline{\textsl{Operation Point: \textbf{%{{ op.name %}}} (Page \pageref{%{{ op.id %}}})}}

 	%{ include 'op_header.tex' %}
\\[5mm]
%{ endfor %}

\vfill
\begin{center}
\includegraphics[height=100mm,keepaspectratio]{%{{ basic.qe_plot|missing(marketing.missingplot) %}}}
\end{center}
"#

/-- report/templates/op.tex lines 1-235 -/
noncomputable def opTexFile : Str := chars! r#"\newpage
\ReportSection{Operation Point: \textbf{%{{ op.name %}}} (@%{{ op.test_parameters.Wavelength|missing %}})}

\underline{\textsl{Summary sheet for Operation Point: \textbf{%{{ op.name %}}}\label{%{{ op.id %}}}} (@%{{ op.test_parameters.Wavelength|missing %}} wavelength)}

%{ include 'op_header.tex' %}
\\[10mm]
%Plots
\begin{minipage}[t]{0.690\linewidth}

\includegraphics[width=0.95\linewidth,keepaspectratio]{%{{op.plots.PlotPTC %}}}

\includegraphics[width=0.95\linewidth,keepaspectratio]{%{{op.plots.PlotSNR %}}}
\end{minipage}
%Results
\begin{minipage}[t]{0.290\linewidth}

\begin{tabular}{lr@{\hspace{1.4mm}}l}
\multicolumn{3}{c}{\textbf{Performance}} \\[2mm]

\multicolumn{3}{l}{\textbf{%{{ op.results.sensitivity.QE.short %}} }} \\

%{{ op.results.sensitivity.QE.symbol %}} &
%{{ '%.2f' % op.results.sensitivity.QE.value %}} &
%{{ op.results.sensitivity.QE.unit %}} \\[3mm]

\multicolumn{3}{l}{\textbf{%{{ op.results.sensitivity.K.short %}}}} \\

%{{ op.results.sensitivity.K.symbol %}} &
%{{ '%.3f' % op.results.sensitivity.K.value %}} &
%{{ op.results.sensitivity.K.unit %}} \\

%{{ op.results.sensitivity.inverse_K.symbol %}} &
%{{ '%.3f' % op.results.sensitivity.inverse_K.value %}} &
%{{ op.results.sensitivity.inverse_K.unit %}} \\[3mm]

\multicolumn{3}{l}{\textbf{Temporal dark noise}} \\

%{{ op.results.sensitivity.sigma_d.symbol %}} &
%{{ '%.3f' % op.results.sensitivity.sigma_d.value %}} &
%{{ op.results.sensitivity.sigma_d.unit %}} \\

%{{ op.results.sensitivity.sigma_y_dark.symbol %}} &
%{{ '%.3f' % op.results.sensitivity.sigma_y_dark.value %}} &
%{{ op.results.sensitivity.sigma_y_dark.unit %}} \\[3mm]

\multicolumn{3}{l}{\textbf{%{{ op.results.sensitivity.SNR_max.short %}}}} \\

%{{ op.results.sensitivity.SNR_max.symbol %}} &
%{{ '%.0f' % op.results.sensitivity.SNR_max.value %}} \\

& % %{{ op.results.sensitivity.SNR_max_dB.symbol %}} &
%{{ '%.2f' % op.results.sensitivity.SNR_max_dB.value %}} &
%{{ op.results.sensitivity.SNR_max_dB.unit %}} \\

& % %{{ op.results.sensitivity.SNR_max_bit.symbol %}} &
%{{ '%.1f' % op.results.sensitivity.SNR_max_bit.value %}} &
%{{ op.results.sensitivity.SNR_max_bit.unit %}} \\

%{{ op.results.sensitivity.inverse_SNR_max.symbol %}} &
%{{ '%.3f' % op.results.sensitivity.inverse_SNR_max.value %}} &
%{{ op.results.sensitivity.inverse_SNR_max.unit %}} \\[3mm]

\multicolumn{3}{l}{\textbf{%{{ op.results.sensitivity.u_p_min.short %}}}} \\

%{{ op.results.sensitivity.u_p_min.symbol %}}  &
%{{ op.results.sensitivity.u_p_min.value|missingnumber(3) %}} &
%{{ op.results.sensitivity.u_p_min.unit %}} \\

%{{ op.results.sensitivity.u_p_min_area.symbol %}}  &
%{{ op.results.sensitivity.u_p_min_area.value|missingnumber(3) %}} &
%{{ op.results.sensitivity.u_p_min_area.unit %}} \\

%{{ op.results.sensitivity.u_e_min.symbol %}} &
%{{ '%.3f' % op.results.sensitivity.u_e_min.value %}} &
%{{ op.results.sensitivity.u_e_min.unit %}} \\

%{{ op.results.sensitivity.u_e_min_area.symbol %}} &
%{{ op.results.sensitivity.u_e_min_area.value|missingnumber(3) %}} &
%{{ op.results.sensitivity.u_e_min_area.unit %}} \\[3mm]


\multicolumn{3}{l}{\textbf{%{{ op.results.sensitivity.u_p_sat.short %}}}} \\

%{{ op.results.sensitivity.u_p_sat.symbol %}}  &
%{{ '%.0f' % op.results.sensitivity.u_p_sat.value %}} &
%{{ op.results.sensitivity.u_p_sat.unit %}} \\

%{{ op.results.sensitivity.u_p_sat_area.symbol %}}  &
%{{ op.results.sensitivity.u_p_sat_area.value|missingnumber(3) %}} &
%{{ op.results.sensitivity.u_p_sat_area.unit %}} \\

%{{ op.results.sensitivity.u_e_sat.symbol %}} &
%{{ '%.0f' % op.results.sensitivity.u_e_sat.value %}} &
%{{ op.results.sensitivity.u_e_sat.unit %}} \\

%{{ op.results.sensitivity.u_e_sat_area.symbol %}} &
%{{ op.results.sensitivity.u_e_sat_area.value|missingnumber(0) %}} &
%{{ op.results.sensitivity.u_e_sat_area.unit %}} \\[3mm]


\multicolumn{3}{l}{\textbf{%{{ op.results.sensitivity.DR.short %}}}} \\

%{{ op.results.sensitivity.DR.symbol %}} &
%{{ '%.0f' % op.results.sensitivity.DR.value %}} \\

& % %{{ op.results.sensitivity.DR_dB.symbol %}} &
%{{ '%.1f' % op.results.sensitivity.DR_dB.value %}} &
%{{ op.results.sensitivity.DR_dB.unit %}} \\[3mm]

\multicolumn{3}{l}{\textbf{Spatial Nonuniformities}} \\

%{{ op.results.spatial.DSNU1288.symbol %}} &
%{{ '%.1f' % op.results.spatial.DSNU1288.value %}} &
%{{ op.results.spatial.DSNU1288.unit %}} \\

%{{ op.results.spatial.DSNU1288_row.symbol %}} &
%{{ '%.1f' % op.results.spatial.DSNU1288_row.value %}} &
%{{ op.results.spatial.DSNU1288_row.unit %}} \\

%{{ op.results.spatial.DSNU1288_col.symbol %}} &
%{{ '%.1f' % op.results.spatial.DSNU1288_col.value %}} &
%{{ op.results.spatial.DSNU1288_col.unit %}} \\

%{{ op.results.spatial.DSNU1288_pixel.symbol %}} &
%{{ '%.1f' % op.results.spatial.DSNU1288_pixel.value %}} &
%{{ op.results.spatial.DSNU1288_pixel.unit %}} \\

%{{ op.results.spatial.PRNU1288.symbol %}} &
%{{ '%.1f' % op.results.spatial.PRNU1288.value %}} &
%{{ op.results.spatial.PRNU1288.unit %}} \\

%{{ op.results.spatial.PRNU1288_row.symbol %}} &
%{{ '%.1f' % op.results.spatial.PRNU1288_row.value %}} &
%{{ op.results.spatial.PRNU1288_row.unit %}} \\

%{{ op.results.spatial.PRNU1288_col.symbol %}} &
%{{ '%.1f' % op.results.spatial.PRNU1288_col.value %}} &
%{{ op.results.spatial.PRNU1288_col.unit %}} \\

%{{ op.results.spatial.PRNU1288_pixel.symbol %}} &
%{{ '%.1f' % op.results.spatial.PRNU1288_pixel.value %}} &
%{{ op.results.spatial.PRNU1288_pixel.unit %}} \\[3mm]

\multicolumn{3}{l}{\textbf{Linearity error}} \\

%{{ op.results.linearity.LE_min.symbol %}} &
%{{ '%.3f' % op.results.linearity.LE_min.value %}} &
%{{ op.results.linearity.LE_min.unit %}} \\

%{{ op.results.linearity.LE_max.symbol %}} &
%{{ '%.3f' % op.results.linearity.LE_max.value %}} &
%{{ op.results.linearity.LE_max.unit %}} \\[3mm]

\multicolumn{3}{l}{\textbf{Dark current}} \\

%{{ op.results.dark_current.u_I_mean.symbol %}} &
%{{ op.results.dark_current.u_I_mean.value|missingnumber(3) %}} &
%{{ op.results.dark_current.u_I_mean.unit %}} \\
&
%{{ op.results.dark_current.u_I_mean_DN.value|missingnumber(3) %}} &
%{{ op.results.dark_current.u_I_mean_DN.unit %}} \\

%{{ op.results.dark_current.u_I_var.symbol %}} &
%{{ op.results.dark_current.u_I_var.value|missingnumber(3) %}} &
%{{ op.results.dark_current.u_I_var.unit %}} \\
&
%{{ op.results.dark_current.u_I_var_DN.value|missingnumber(3) %}} &
%{{ op.results.dark_current.u_I_var_DN.unit %}}  \\[3mm]

\end{tabular}
\end{minipage}



%{ if not op.summary_only %}
%Extra plots
\newpage
\begin{center}
\includegraphics[height=0.45\textheight,keepaspectratio]{%{{ op.plots.PlotSensitivity %}}}
\end{center}
\begin{center}
\includegraphics[height=0.45\textheight,keepaspectratio]{%{{ op.plots.PlotUyDark %}}}
\end{center}
\vfill
\newpage
\begin{center}
\includegraphics[height=0.45\textheight,keepaspectratio]{%{{ op.plots.PlotLinearity %}}}
\end{center}
\begin{center}
\includegraphics[height=0.45\textheight,keepaspectratio]{%{{ op.plots.PlotDeviationLinearity %}}}
\end{center}
\vfill
\newpage
\begin{center}
\includegraphics[height=0.45\textheight,keepaspectratio]{%{{ op.plots.PlotHorizontalSpectrogramPRNU %}}}
\end{center}
\begin{center}
\includegraphics[height=0.45\textheight,keepaspectratio]{%{{ op.plots.PlotHorizontalSpectrogramDSNU %}}}
\end{center}
\vfill
\newpage
\begin{center}
\includegraphics[height=0.45\textheight,keepaspectratio]{%{{ op.plots.PlotVerticalSpectrogramPRNU %}}}
\end{center}
\begin{center}
\includegraphics[height=0.45\textheight,keepaspectratio]{%{{ op.plots.PlotVerticalSpectrogramDSNU %}}}
\end{center}
\vfill
\newpage
\begin{center}
\includegraphics[height=0.45\textheight,keepaspectratio]{%{{ op.plots.PlotLogarithmicHistogramDSNU %}}}
\end{center}
\begin{center}
\includegraphics[height=0.45\textheight,keepaspectratio]{%{{ op.plots.PlotLogarithmicHistogramPRNU %}}}
\end{center}
\vfill
\newpage
\begin{center}
\includegraphics[height=0.45\textheight,keepaspectratio]{%{{ op.plots.PlotAccumulatedLogHistogramDSNU %}}}
\end{center}
\begin{center}
\includegraphics[height=0.45\textheight,keepaspectratio]{%{{ op.plots.PlotAccumulatedLogHistogramPRNU %}}}
\end{center}
\vfill
\newpage
\begin{center}
\includegraphics[height=0.45\textheight,keepaspectratio]{%{{ op.plots.PlotHorizontalProfile %}}}
\end{center}
\begin{center}
\includegraphics[height=0.45\textheight,keepaspectratio]{%{{ op.plots.PlotVerticalProfile %}}}
\end{center}
\vfill

%{ endif %}
"#

/-- report/templates/op_header.tex lines 1-16 -/
noncomputable def opHeaderTexFile : Str := chars! r#"\begin{minipage}[t]{0.975\linewidth}
\begin{multicols}{2}
\textbf{Camera setting} \hfill
\\[1mm]
%{ for key, value in op.camera_settings.items() -%}
\textsl{%{{ key %}}} \hfill %{{ value %}}
\\[1mm]
%{ endfor -%}
\textbf{Operation point parameters}
\\[1mm]
%{ for key, value in op.test_parameters.items() -%}
\textsl{%{{ key %}}} \hfill %{{ value %}}
\\[1mm]
%{ endfor -%}
\end{multicols}
\end{minipage}
"#

/-- report/templates/emvadatasheet.sty lines 1-39 -/
noncomputable def emvadatasheetStyFile : Str := chars! r#"
\typeout{Document Style `emvadatasheet' <27.09.2012>, Version 1.0.}


\makeatletter

%% PAGE LAYOUT
\setlength{\textheight}{25cm}
\setlength{\textwidth}{18.4cm} %Textbreite
\setlength{\oddsidemargin}{1cm} %Rechter Rand der rechten Seite
\setlength{\evensidemargin}{1cm} %Rechter Rand der linken Seite
\setlength{\marginparwidth}{0cm} %Legt die Breite des Randnotizen-Bereichs fest.
\setlength{\topmargin}{0cm}
\setlength{\parindent}{0pt} %Einzug bei Anfaengen von Absaetzen
\setlength\headheight{15mm} %Hoehe der Kopfzeile

\voffset-19mm %Vertikaler Versatz
\hoffset-23mm %Horizontaler Versatz



% Header
\fancyhead{}%
\fancyhead[LO,LE]{\includegraphics[height=12mm]{files/EMVA1288Logo.pdf}}
\fancyhead[C]{\textbf{%{{ marketing.vendor %}} \, %{{ basic.model|missing %}}}}
\fancyhead[RE,RO]{\includegraphics[height=12mm]{%{{ marketing.logo %}}}}
\renewcommand{\headrulewidth}{0.5pt}

% Footer
\fancyfoot{}%
\fancyfoot[LO,RE]{\scriptsize\sffamily \TheReportSection}
\fancyfoot[LE,RO]{\scriptsize\sffamily\textup\thepage\ of \pageref{LastPage}}
\renewcommand{\footrulewidth}{0.4pt}

\setlength{\columnsep}{1cm}  % Spaltenabstand

\def\ind#1{\ensuremath{_{\mbox{\scriptsize #1}}}}

\makeatother
"#

/-- the directory of the templates. report/report.py lines 230-231, 239. -/
noncomputable def templateFiles : List (Str × Str) := [("report.tex".toList, reportTexFile),
  ("general_info.tex".toList, generalInfoTexFile),
  ("op.tex".toList, opTexFile),
  ("op_header.tex".toList, opHeaderTexFile),
  ("emvadatasheet.sty".toList, emvadatasheetStyFile)]

/-- `renderer.get_template(name)` and the templates that it includes, up to a given depth.
report/report.py lines 239, 308, 314 and report/templates/report.tex lines 45, 47. -/
def getTemplate (files : List (Str × Str)) : List Unit → Str → Option (List Node)
  | [], _ => none
  | _ :: n, name =>
    match Dict.get? files name with
    | none => none
    | some s => template (getTemplate files n) s

end Jinja
end Emva
