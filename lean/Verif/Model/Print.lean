import Verif.Model.Export

/-!
Model of `Results1288.print_results` (src/emva1288/process/results.py lines 1258-1275).
-/
set_option autoImplicit false
namespace Emva
namespace Print
open Results Xml Info Export

/-- what a call of `print` statements does: the lines that were written and how it ended.
process/results.py lines 1262-1275. -/
abbrev Out := List Str × Except PyErr Unit

/-- `'{:<n}'.format(s)` of a string. process/results.py line 1271. -/
def ljust (n : ℕ) (s : Str) : Str := s ++ List.replicate (n - s.length) ' '

/-- `'{:>n}'.format(s)` of a string. process/results.py line 1271. -/
def rjust (n : ℕ) (s : Str) : Str := List.replicate (n - s.length) ' ' ++ s

/-- `'short'`. process/results.py line 1271. -/
def shortKey : Str := ['s', 'h', 'o', 'r', 't']
/-- `'symbol'`. process/results.py line 1272. -/
def symbolKey : Str := ['s', 'y', 'm', 'b', 'o', 'l']

/-- python's `str` of a value: `fmt` for numbers, `repr` for arrays and dictionaries.
process/results.py lines 1272-1273. -/
def strVal (fmt : Fl ℝ → Str) (repr : PyVal ℝ → Str) : PyVal ℝ → Str
  | .none => noneStr
  | .num x => fmt x
  | .str s => s
  | .arr a => repr (.arr a)
  | .dict d => repr (.dict d)

/-- `info.get(key)`. process/results.py lines 1271-1273. -/
def getNone (info : List (Str × PyVal ℝ)) (key : Str) : PyVal ℝ := (Dict.get? info key).getD .none

/-- `'{:<50}'.format(v)`: `None`, arrays and dictionaries have no format with a width (a `TypeError`).  A number is formatted
like its `str` (the tags of a docstring are strings). process/results.py line 1271. -/
def format50 (fmt : Fl ℝ → Str) : PyVal ℝ → Except PyErr Str
  | .str s => .ok (ljust 50 s)
  | .num x => .ok (ljust 50 (fmt x))
  | _ => .error .typeError

/-- the line of one attribute, results.py lines 1271-1273 -/
def attrLine (fmt : Fl ℝ → Str) (repr : PyVal ℝ → Str) (info : List (Str × PyVal ℝ)) : Except PyErr Str := do
  let short ← format50 fmt (getNone info shortKey)
  .ok (short ++ ljust 30 (strVal fmt repr (getNone info symbolKey)) ++ rjust 10 (strVal fmt repr (getNone info valueKey)))

/-- the loop over the attributes of a section, results.py lines 1267-1273 -/
def printAttrs (fmt : Fl ℝ → Str) (repr : PyVal ℝ → Str) : List (Str × List (Str × PyVal ℝ)) → Out
  | [] => ([], .ok ())
  | (_, info) :: rest =>
    if Dict.has info valueKey then
      match attrLine fmt repr info with
      | .error e => ([], .error e)
      | .ok line =>
        let o := printAttrs fmt repr rest
        (line :: o.1, o.2)
    else printAttrs fmt repr rest

/-- the loop over the sections, results.py lines 1262-1273 -/
def printSections (fmt : Fl ℝ → Str) (repr : PyVal ℝ → Str) : List (Str × List (Str × List (Str × PyVal ℝ))) → Out
  | [] => ([], .ok ())
  | (sec, attributes) :: rest =>
    let head := [List.replicate 50 '*', sec, List.replicate 50 '-']
    match printAttrs fmt repr attributes with
    | (ls, .error e) => (head ++ ls, .error e)
    | (ls, .ok ()) =>
      let o := printSections fmt repr rest
      (head ++ ls ++ o.1, o.2)

/-- `results_by_section`, results.py lines 1254-1257 -/
noncomputable def bySection (lower : Str → Str) (q : LSQ ℝ) : M ℝ (List (Str × List (Str × List (Str × PyVal ℝ)))) := do
  let r ← results lower q
  lift (sectionsFirst r)

/-- `print_results()`, results.py lines 1258-1275: the lines written (without their line ends), how it ended, and the object
afterwards -/
noncomputable def printResults (lower : Str → Str) (fmt : Fl ℝ → Str) (repr : PyVal ℝ → Str) (q : LSQ ℝ) (r : Res ℝ) :
    Out × Res ℝ :=
  match bySection lower q r with
  | (.error e, r') => (([], .error e), r')
  | (.ok s, r') =>
    match printSections fmt repr s with
    | (ls, .error e) => ((ls, .error e), r')
    | (ls, .ok ()) => ((ls ++ [List.replicate 50 '*', [' ']], .ok ()), r')

end Print
end Emva
