import Verif.Model.ReportTex
import Verif.Model.ReportDirs

/-!
Model of `ReportGenerator._stylesheet`, `_report` and `latex` (report/report.py lines 299-326), and
the dictionaries of `info_setup` and `info_op` (lines 15-41, 125-150).
-/
set_option autoImplicit false
namespace Emva
namespace Jinja

/-- The attributes of a report generator that the templates see, report.py lines 203-208. -/
structure Generator where
  marketing : List (Str × Val)
  basic : List (Str × Val)
  setup : List (Str × Val)
  ops : List Val
  coverPage : Val

/-- `_stylesheet`, report.py lines 306-310 -/
noncomputable def stylesheet (t : Texts) (g : Generator) : Except PyErr Str :=
  render t (fun n => if n = "marketing" then .dict g.marketing else if n = "basic" then .dict g.basic else .undefined)
    emvadatasheetSty

/-- `_report`, report.py lines 312-319 -/
noncomputable def report (t : Texts) (g : Generator) : Except PyErr Str :=
  render t (fun n => if n = "marketing" then .dict g.marketing else if n = "basic" then .dict g.basic
    else if n = "setup" then .dict g.setup else if n = "operation_points" then .list g.ops
    else if n = "cover_page" then g.coverPage else .undefined) reportTex

/-- `latex()`, report.py lines 299-304, 321-326: the files that are written (name and content) and how it ended -/
noncomputable def latex (t : Texts) (g : Generator) : List (Str × Str) × Except PyErr Unit :=
  match stylesheet t g with
  | .error e => ([], .error e)
  | .ok s =>
    match report t g with
    | .error e => ([("emvadatasheet.sty".toList, s)], .error e)
    | .ok r => ([("emvadatasheet.sty".toList, s), ("report.tex".toList, r)], .ok ())

/-- `info_setup(**kwargs)`, report.py lines 34-41 (texts and `None` only) -/
def infoSetup (kwargs : ReportDirs.Info) : ReportDirs.Info :=
  Dict.update (Dict.set (Dict.set (Dict.set (Dict.set (Dict.set [] "Light source".toList none)
    "Light source non uniformity".toList none) "Irradiation calibration accuracy".toList none)
    "Irradiation measurement error".toList none) "Standard version".toList none) kwargs

/-- `info_op()`, report.py lines 144-150 -/
def infoOp : List (Str × Val) := [("name".toList, .none), ("id".toList, .none), ("summary_only".toList, .none),
  ("results".toList, .none), ("camera_settings".toList, .dict []), ("test_parameters".toList, .dict [])]

/-- a dictionary of texts and `None` in the template. report/report.py lines 309-310, 315-317. -/
def ofInfo (d : ReportDirs.Info) : List (Str × Val) := d.map fun kv => (kv.1, match kv.2 with
  | some s => .str s
  | none => .none)

end Jinja
end Emva
