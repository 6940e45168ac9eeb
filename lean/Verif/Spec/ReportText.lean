import Verif.Spec.Written
import Verif.Props.C69

/-!
What the text of a report has to say (C92), written without the templates.
-/
set_option autoImplicit false
namespace Emva
namespace SheetSpec
open Jinja Report

/-- the entry of a dictionary, undefined if there is none -/
def entry (d : List (Str × Val)) (k : String) : Val := (Dict.get? d k.toList).getD .undefined

/-- `v.k` for a dictionary -/
def get (v : Val) (k : String) : Val :=
  match v with
  | .dict d => entry d k
  | _ => .undefined

/-- `v.k1.k2...` in nested dictionaries, undefined if something is missing -/
def look (v : Val) (ks : List String) : Val := ks.foldl get v

/-- what stands for a piece of information: a dash for `None` and `np.nan` -/
def shown (t : Texts) : Val → Str
  | .none => "-".toList
  | .npnan => "-".toList
  | v => written t v

/-- what stands for a number with `p` digits; `dash` says whether a dash stands for a missing number -/
def Number (dash : Bool) (p : ℕ) (v : Val) (s : Str) : Prop :=
  match v with
  | .float x => CellText p x s
  | .none => dash = true ∧ s = "-".toList
  | .npnan => s = (if dash then "-" else "nan").toList
  | _ => False

/-- `\textsl{label} \hfill value` and the end of the line, `gap` is the space before the value and `unit` follows it -/
def infoLine (label gap value unit : Str) : Str :=
  "\\textsl{".toList ++ label ++ "} \\hfill".toList ++ gap ++ value ++ unit ++ "\n\\\\[1mm]".toList

/-- the lines of a dictionary, in its order -/
def dictLines (f : Val → Str) (d : List (Str × Val)) : Str :=
  (d.map fun kv => infoLine kv.1 " ".toList (f kv.2) [] ++ "\n".toList).flatten

/-- a piece of basic information: key, label, gap and unit -/
abbrev Field := String × String × String × String

/-- the basic information of every sensor, before and behind the one that depends on the type of the sensor -/
def firstFields : List Field := [
  ("vendor", "Vendor", " ", ""), ("model", "Model", " ", ""), ("data_type", "Data type", " ", ""),
  ("sensor_type", "Sensor type", " ", ""), ("sensor_diagonal", "Diagonal", " ", ""),
  ("lens_category", "Lens category", " ", ""), ("resolution", "Resolution", " ", " pixels"),
  ("pixel_size", "Pixel size", " ", " $\\mu m$")]
def lastFields : List Field := [("maximum_readout_rate", "Maximum readout rate", "  ", ""),
  ("dark_current_compensation", "Dark current compensation", "   ", ""), ("interface_type", "Interface type", "  ", "")]

/-- the basic information of CCD and of CMOS sensors -/
def ccdFields : List Field := [("readout_type", "Readout type", " ", ""), ("transfer_type", "Transfer type", " ", "")]
def cmosFields : List Field :=
  [("shutter_type", "Shutter type", " ", ""), ("overlap_capabilities", "Overlap capabilities", " ", "")]

/-- the lines of basic information; `f` says what stands for a key -/
def fieldLines (f : String → Str) (l : List Field) : Str :=
  List.intercalate "\n".toList (l.map fun x => infoLine x.2.1.toList x.2.2.1.toList (f x.1) x.2.2.2.toList)

/-- the lines that depend on the type of the sensor -/
def sensorLines (f : String → Str) : Val → Str
  | .str s => if s = "CCD".toList then fieldLines f ccdFields else if s = "CMOS".toList then fieldLines f cmosFields else []
  | _ => []

/-- all the basic information -/
def basicLines (t : Texts) (b : List (Str × Val)) : Str :=
  fieldLines (fun k => shown t (entry b k)) firstFields ++
  sensorLines (fun k => shown t (entry b k)) (entry b "sensor_type") ++
  fieldLines (fun k => shown t (entry b k)) lastFields

/-- the watermark, if there is one -/
noncomputable def watermark (t : Texts) (v : Val) : Str :=
  if given v then "\n\\usepackage[color={red!30}, fontsize=96pt, text={".toList ++ written t v ++
    "}]{draftwatermark}\n".toList else []

/-- the cover page, if there is one -/
noncomputable def cover (t : Texts) (v : Val) : Str :=
  if given v then "\n\\input{".toList ++ written t v ++ "}\n".toList else []

/-- the plot of the quantum efficiency, or the one that stands for missing plots -/
def qePlot (t : Texts) (m b : List (Str × Val)) : Str :=
  match entry b "qe_plot" with
  | .none => written t (entry m "missingplot")
  | .npnan => written t (entry m "missingplot")
  | v => written t v

/-- texts with the given properties occur in this order (and do not overlap) -/
def InOrder : List (Str → Prop) → Str → Prop
  | [], _ => True
  | P :: Ps, s => ∃ a m b, s = a ++ m ++ b ∧ P m ∧ InOrder Ps b

/-- the camera settings and the test parameters of an operation point -/
def headerText (t : Texts) (settings params : List (Str × Val)) : Str :=
  "\\begin{minipage}[t]{0.975\\linewidth}\n\\begin{multicols}{2}\n\\textbf{Camera setting} \\hfill\n\\\\[1mm]\n".toList ++
  dictLines (written t) settings ++ "\\textbf{Operation point parameters}\n\\\\[1mm]\n".toList ++
  dictLines (written t) params ++ "\\end{multicols}\n\\end{minipage}".toList

/-- the entry of an operation point on the first page: the name, the page of its sheet, the settings -/
def Entry (t : Texts) (op : Val) (s : Str) : Prop :=
  ∃ settings params, look op ["camera_settings"] = .dict settings ∧ look op ["test_parameters"] = .dict params ∧
    s = "\n\t\\underline{\\textsl{Operation Point: \\textbf{".toList ++ written t (look op ["name"]) ++
      "} (Page \\pageref{".toList ++ written t (look op ["id"]) ++ "})}}\n\n \t".toList ++ headerText t settings params ++
      "\n\\\\[5mm]\n".toList

/-- the arrangement of a row of the table: symbol, number and unit; with two spaces behind the symbol; without a unit; with
the symbol as a comment; without a symbol -/
inductive Layout
  | full | wide | noUnit | comment | noSymbol
  deriving DecidableEq

/-- a row of the table -/
def rowText (l : Layout) (symbol number unit : Str) : Str :=
  match l with
  | .full => "\n".toList ++ symbol ++ " &\n".toList ++ number ++ " &\n".toList ++ unit ++ " ".toList
  | .wide => "\n".toList ++ symbol ++ "  &\n".toList ++ number ++ " &\n".toList ++ unit ++ " ".toList
  | .noUnit => "\n".toList ++ symbol ++ " &\n".toList ++ number ++ " \\\\".toList
  | .comment => "\n& % ".toList ++ symbol ++ " &\n".toList ++ number ++ " &\n".toList ++ unit ++ " ".toList
  | .noSymbol => "\n&\n".toList ++ number ++ " &\n".toList ++ unit ++ " ".toList

/-- the parts of the table: a title, the name of a result as a title, a number -/
inductive Line
  | title (s : String)
  | name (sec attr : String)
  | row (sec attr : String) (digits : ℕ) (dash : Bool) (layout : Layout)

/-- the table of the results -/
def table : List Line := [
  .title "\\textbf{Performance}",
  .name "sensitivity" "QE",
  .row "sensitivity" "QE" 2 false .full,
  .name "sensitivity" "K",
  .row "sensitivity" "K" 3 false .full,
  .row "sensitivity" "inverse_K" 3 false .full,
  .title "\\textbf{Temporal dark noise}",
  .row "sensitivity" "sigma_d" 3 false .full,
  .row "sensitivity" "sigma_y_dark" 3 false .full,
  .name "sensitivity" "SNR_max",
  .row "sensitivity" "SNR_max" 0 false .noUnit,
  .row "sensitivity" "SNR_max_dB" 2 false .comment,
  .row "sensitivity" "SNR_max_bit" 1 false .comment,
  .row "sensitivity" "inverse_SNR_max" 3 false .full,
  .name "sensitivity" "u_p_min",
  .row "sensitivity" "u_p_min" 3 true .wide,
  .row "sensitivity" "u_p_min_area" 3 true .wide,
  .row "sensitivity" "u_e_min" 3 false .full,
  .row "sensitivity" "u_e_min_area" 3 true .full,
  .name "sensitivity" "u_p_sat",
  .row "sensitivity" "u_p_sat" 0 false .wide,
  .row "sensitivity" "u_p_sat_area" 3 true .wide,
  .row "sensitivity" "u_e_sat" 0 false .full,
  .row "sensitivity" "u_e_sat_area" 0 true .full,
  .name "sensitivity" "DR",
  .row "sensitivity" "DR" 0 false .noUnit,
  .row "sensitivity" "DR_dB" 1 false .comment,
  .title "\\textbf{Spatial Nonuniformities}",
  .row "spatial" "DSNU1288" 1 false .full,
  .row "spatial" "DSNU1288_row" 1 false .full,
  .row "spatial" "DSNU1288_col" 1 false .full,
  .row "spatial" "DSNU1288_pixel" 1 false .full,
  .row "spatial" "PRNU1288" 1 false .full,
  .row "spatial" "PRNU1288_row" 1 false .full,
  .row "spatial" "PRNU1288_col" 1 false .full,
  .row "spatial" "PRNU1288_pixel" 1 false .full,
  .title "\\textbf{Linearity error}",
  .row "linearity" "LE_min" 3 false .full,
  .row "linearity" "LE_max" 3 false .full,
  .title "\\textbf{Dark current}",
  .row "dark_current" "u_I_mean" 3 true .full,
  .row "dark_current" "u_I_mean_DN" 3 true .noSymbol,
  .row "dark_current" "u_I_var" 3 true .full,
  .row "dark_current" "u_I_var_DN" 3 true .noSymbol]

/-- the plots of the summary and the other ones -/
def summaryPlots : List String := ["PlotPTC", "PlotSNR"]
def otherPlots : List String := ["PlotSensitivity", "PlotUyDark", "PlotLinearity", "PlotDeviationLinearity",
  "PlotHorizontalSpectrogramPRNU", "PlotHorizontalSpectrogramDSNU", "PlotVerticalSpectrogramPRNU",
  "PlotVerticalSpectrogramDSNU", "PlotLogarithmicHistogramDSNU", "PlotLogarithmicHistogramPRNU",
  "PlotAccumulatedLogHistogramDSNU", "PlotAccumulatedLogHistogramPRNU", "PlotHorizontalProfile", "PlotVerticalProfile"]

/-- a plot is included -/
def Plot (t : Texts) (op : Val) (name : String) (s : Str) : Prop :=
  s = "keepaspectratio]{".toList ++ written t (look op ["plots", name]) ++ "}\n".toList

/-- what stands for a part of the table -/
def LineText (t : Texts) (op : Val) : Line → Str → Prop
  | .title x, s => s = x.toList
  | .name sec attr, s => ∃ space, (space = [] ∨ space = " ".toList) ∧
      s = "\\textbf{".toList ++ written t (look op ["results", sec, attr, "short"]) ++ space ++ "}".toList
  | .row sec attr p dash l, s => ∃ number, Number dash p (look op ["results", sec, attr, "value"]) number ∧
      s = rowText l (written t (look op ["results", sec, attr, "symbol"])) number
        (written t (look op ["results", sec, attr, "unit"]))

/-- the sheet of an operation point: title and label, settings, plots, table, and the other plots unless only a summary is
asked for -/
def Sheet (t : Texts) (op : Val) (s : Str) : Prop :=
  ∃ a b c settings params, look op ["camera_settings"] = .dict settings ∧ look op ["test_parameters"] = .dict params ∧
    s = a ++ headerText t settings params ++ b ++ c ++ "\n".toList ∧
    InOrder [
      (fun x => x = "\\newpage\n\\ReportSection{Operation Point: \\textbf{".toList ++ written t (look op ["name"]) ++
        "} (@".toList ++ shown t (look op ["test_parameters", "Wavelength"]) ++ ")}".toList),
      (fun x => x = "\\textbf{".toList ++ written t (look op ["name"]) ++ "}\\label{".toList ++ written t (look op ["id"]) ++
        "}} (@".toList ++ shown t (look op ["test_parameters", "Wavelength"]) ++ " wavelength)}".toList)] a ∧
    InOrder (summaryPlots.map (Plot t op) ++ table.map (LineText t op)) b ∧
    if given (look op ["summary_only"]) then c = [] else InOrder (otherPlots.map (Plot t op)) c

/-- the value of a result can be shown -/
def CanShow (dash : Bool) : Val → Prop
  | .float _ => True
  | .npnan => True
  | .none => dash = true
  | _ => False

/-- the operation point has everything its sheet needs: dictionaries of settings and parameters, plots, and every number of
the table -/
def Complete (op : Val) : Prop :=
  (∃ settings, look op ["camera_settings"] = .dict settings) ∧ (∃ params, look op ["test_parameters"] = .dict params) ∧
  look op ["plots"] ≠ .undefined ∧
  ∀ sec attr p dash l, Line.row sec attr p dash l ∈ table → CanShow dash (look op ["results", sec, attr, "value"])

end SheetSpec
end Emva
