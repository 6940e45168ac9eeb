import Verif.Py.Dict
import Verif.Py.Err
import Verif.Py.Num

/-!
`Report1288.add` and `Report1288._plots` (report/report.py).

Dictionaries and results objects are mutable and shared in python: an object is a reference (`ℕ`) and
the state maps references to contents, so that adding the same dictionary twice is a matter of the
model and not of an assumption.
-/
set_option autoImplicit false
namespace Emva
namespace Report
open Py

/-- The values found in an operation point dictionary: `None`, a string, the dictionary of plot
paths, the results grouped by section (of the results object `ref`), anything else (`truthy` is its
truth value). report/report.py lines 376-383. -/
inductive OpVal
  | none
  | str (s : Str)
  | plots (d : Dict Str Str)
  | sections (ref : ℕ)
  | other (truthy : Bool) (tag : ℕ)
  deriving DecidableEq

/-- python's truth value (the sections are never an empty dictionary).
report/report.py lines 377, 379. -/
def OpVal.truthy : OpVal → Bool
  | .none => false
  | .str s => !s.isEmpty
  | .plots d => !d.isEmpty
  | .sections _ => true
  | .other b _ => b

/-- Keys. report/report.py line 377. -/
def kName : Str := "name".toList
/-- report/report.py line 376. -/
def kId : Str := "id".toList
/-- report/report.py line 381. -/
def kResults : Str := "results".toList
/-- report/report.py line 383. -/
def kPlots : Str := "plots".toList

/-- The names of the classes in `EVMA1288plots`, process/plotting.py lines 789-804. -/
def plotClasses : List Str := ["PlotPTC".toList, "PlotSNR".toList, "PlotSensitivity".toList, "PlotUyDark".toList,
  "PlotLinearity".toList, "PlotDeviationLinearity".toList, "PlotHorizontalSpectrogramPRNU".toList,
  "PlotHorizontalSpectrogramDSNU".toList, "PlotVerticalSpectrogramPRNU".toList, "PlotVerticalSpectrogramDSNU".toList,
  "PlotLogarithmicHistogramDSNU".toList, "PlotLogarithmicHistogramPRNU".toList,
  "PlotAccumulatedLogHistogramDSNU".toList, "PlotAccumulatedLogHistogramPRNU".toList,
  "PlotHorizontalProfile".toList, "PlotVerticalProfile".toList]

/-- The report object with everything `add` can change: the dictionaries, the ids of the results
objects, the list `self.ops`, the files written below the output directory.
report/report.py lines 204, 376-384. -/
structure State where
  outdir : Str
  dicts : ℕ → Dict Str OpVal
  resId : ℕ → Option ℕ
  ops : List ℕ
  files : List Str

/-- One call `report.add(op, data, results=given)`: what the code outside the report does.  `built` is
the outcome of `Results1288(data)`, `sections` of reading `results_by_section`, `draw cls` of making,
drawing and saving the plot `cls`, `mkdir` of creating the directory (an existing directory is not an
error). report/report.py lines 355, 379-383. -/
structure Call where
  op : ℕ
  given : Option ℕ
  built : Except PyErr ℕ
  sections : Except PyErr Unit
  mkdir : Except PyErr Unit
  draw : Str → Except PyErr Unit

/-- `'OP%d' % n`, report.py line 374 -/
def opId (n : ℕ) : Str := 'O' :: 'P' :: fmtNat n

/-- store a value in a dictionary. report/report.py lines 376-383. -/
def State.put (s : State) (r : ℕ) (k : Str) (v : OpVal) : State :=
  { s with dicts := fun x => if x = r then Dict.set (s.dicts r) k v else s.dicts x }

/-- The loop of `_plots`, report.py lines 343-351: the names so far, the files written. -/
def plotLoop (c : Call) (savedir id_ : Str) : List Str → Dict Str Str → State → State × Except PyErr (Dict Str Str)
  | [], names, s => (s, .ok names)
  | cls :: l, names, s =>
    match c.draw cls with
    | .error e => (s, .error e)
    | .ok _ =>
      let fname := cls ++ ".pdf".toList
      plotLoop c savedir id_ l (Dict.set names cls (pathJoin id_ [fname]))
        { s with files := s.files ++ [pathJoin savedir [fname]] }

/-- `_plots`, report.py lines 330-352. -/
def plots (c : Call) (id_ : Str) (s : State) : State × Except PyErr (Dict Str Str) :=
  let savedir := pathJoin s.outdir [id_]
  match c.mkdir with
  | .error e => (s, .error e)
  | .ok _ => plotLoop c savedir id_ plotClasses [] s

/-- report.py lines 377-378 -/
def theResults (c : Call) : Except PyErr ℕ :=
  match c.given with
  | some r => .ok r
  | none => c.built

/-- `add`, report.py lines 354-384: the state is also changed when an exception is raised. -/
def add (c : Call) (s : State) : State × Except PyErr Unit :=
  let n := s.ops.length + 1
  let s := s.put c.op kId (.str (opId n))
  match Dict.get? (s.dicts c.op) kName with
  | none => (s, .error .keyError)
  | some v =>
    let s := if v.truthy then s else s.put c.op kName (.str (opId n))
    match theResults c with
    | .error e => (s, .error e)
    | .ok r =>
      match c.sections with
      | .error e => (s, .error e)
      | .ok _ =>
        let s := s.put c.op kResults (.sections r)
        let s := { s with resId := fun x => if x = r then some n else s.resId x }
        match plots c (opId n) s with
        | (s, .error e) => (s, .error e)
        | (s, .ok names) =>
          let s := s.put c.op kPlots (.plots names)
          ({ s with ops := s.ops ++ [c.op] }, .ok ())

/-- A caller that makes the calls one after the other and goes on after an exception; the second
component says which calls succeeded. report/report.py line 355, called repeatedly. -/
def run : List Call → State → State × List Bool
  | [], s => (s, [])
  | c :: cs, s =>
    let (s', e) := add c s
    let (s'', l) := run cs s'
    (s'', succeeds e :: l)

end Report
end Emva
