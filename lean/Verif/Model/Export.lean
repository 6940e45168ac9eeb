import Verif.Model.Attrs
import Verif.Model.HistModel
import Verif.Model.Info
import Verif.Model.ResultsDocs
import Verif.Model.Template

/-!
Model of `Results1288.results`, `results_by_section` and `xml` (src/emva1288/process/results.py lines 1226-1257), hence of
`Emva1288.xml` (src/emva1288/process/__init__.py line 30).
-/
set_option autoImplicit false
namespace Emva
namespace Export
open Results Xml Info Report Routines

/-- `'bins'`. process/routines.py line 302. -/
def binsKey : Str := ['b', 'i', 'n', 's']
/-- `'values'`. process/routines.py line 302. -/
def valuesKey : Str := ['v', 'a', 'l', 'u', 'e', 's']
/-- `'model'`. process/routines.py line 302. -/
def modelKey : Str := ['m', 'o', 'd', 'e', 'l']

/-- the dictionary returned by `Histogram1288` (with the bins and values changed by the attribute), routines.py line 302 -/
def histDict (h : HistF ℝ) (model : List (Fl ℝ)) : List (Str × PyVal ℝ) :=
  [(binsKey, .arr h.bins), (valuesKey, .arr h.values), (modelKey, .arr model)]

/-- the `model` entry of the histogram attributes, results.py lines 1127-1130, 1153-1159, 1185-1187, 1209-1213 -/
noncomputable def modelOf : Attr → M ℝ (List (Fl ℝ))
  | .histogram_PRNU => do
    let y ← sumDiff
    let data ← lift (highPass (.plain y) 5)
    lift (normalModel (data.img.ravel.map Prod.fst) histogramQmax)
  | .histogram_PRNU_accumulated => do
    let y ← sumDiff
    let data ← lift (highPass (.plain y) 5)
    let d ← lift (absDev data.img.ravel)
    lift (normalModel (d.map Prod.fst) histogramQmax)
  | .histogram_DSNU => do
    let y ← sumDark
    lift (normalModel ((MImg.plain y).ravel.map Prod.fst) histogramQmax)
  | .histogram_DSNU_accumulated => do
    let y ← sumDark
    let d ← lift (absDev (MImg.plain y).ravel)
    lift (normalModel (d.map Prod.fst) histogramQmax)
  | _ => pure []

/-- a number or `None`; `np.nan` is a float. process/routines.py line 409. -/
def numVal : PyNum ℝ → PyVal ℝ
  | .none => .none
  | .npnan => .num .nan
  | .num x => .num x

/-- the value of an attribute as a python value.  (`linearity` has no `emva1288` block and is not exported.)
process/routines.py lines 402-409. -/
noncomputable def readVal (q : LSQ ℝ) (a : Attr) : M ℝ (PyVal ℝ) := do
  match ← read q a with
  | .int i => pure (.num (.fin (i : ℝ)))
  | .num x => pure (numVal x)
  | .lin l => pure (.arr l.relative_deviation)
  | .hist h => do
    let model ← modelOf a
    pure (.dict (histDict h model))

/-- `getattr(self, name)`. process/routines.py line 402. -/
def attrNamed (name : Str) : Option Attr :=
  (attrOfName.find? fun a => decide (a.1.toList = name)).map (·.2)

/-- the loop of `obj_to_dict` over the attributes on one object, routines.py lines 398-410 -/
noncomputable def resultsLoop (q : LSQ ℝ) : List (Str × List (Str × Str)) → M ℝ (List (Str × List (Str × PyVal ℝ)))
  | [] => pure []
  | (name, info) :: rest => do
    match attrNamed name with
    | none => lift (.error .attributeError)
    | some a => do
      let v ← readVal q a
      let d ← resultsLoop q rest
      pure ((name, withValue info v) :: d)

/-- `results`, results.py lines 1246-1252: the attributes of the class with an `emva1288` block; `lower` is `str.lower` -/
noncomputable def results (lower : Str → Str) (q : LSQ ℝ) : M ℝ (List (Str × List (Str × PyVal ℝ))) :=
  resultsLoop q (clsInfo lower resultsDocs)

/-- a dictionary of dictionaries as python value. process/routines.py lines 377-386. -/
def nested (d : List (Str × List (Str × List (Str × PyVal ℝ)))) : List (Str × PyVal ℝ) :=
  d.map fun s => (s.1, .dict (s.2.map fun m => (m.1, .dict m.2)))

/-- `xml(filename)`: the tree that is written, results.py lines 1226-1243, 1254-1257 -/
noncomputable def xml (env : Env ℝ) (q : LSQ ℝ) : M ℝ Elem := do
  let r ← results env.lower q
  let s ← lift (sectionsFirst r)
  lift (dictToXml env (nested s))

end Export
end Emva
