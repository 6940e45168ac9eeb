import Verif.Model.Compare
import Verif.Model.Print

/-!
Model of the text that `routines.compare_xml` builds, returns and writes (src/emva1288/process/routines.py lines 521-620); the
rows are those of `compareXml`.
-/
set_option autoImplicit false
namespace Emva
namespace Xml
open Print

/-- `'True'`, `'False'`. process/routines.py line 545. -/
def boolStr (b : Bool) : Str := if b then ['T', 'r', 'u', 'e'] else ['F', 'a', 'l', 's', 'e']

/-- the text of a cell before it is padded: `t1` and `t2`, routines.py lines 579-580, 585-586, 606-607.  `fmt` is the text of
a number (`'{:<20}'.format` and `str` agree on floats), `repr` the text of arrays and dictionaries. -/
def cellText (fmt : Fl ℝ → Str) (repr : PyVal ℝ → Str) : Cell → Str
  | .value v => strVal fmt repr v
  | .array => ['A', 'r', 'r', 'a', 'y']

/-- what is added to `s` for a row, routines.py lines 537-539, 544-545, 552, 609-613, 615 -/
def rowText (fmt : Fl ℝ → Str) (repr : PyVal ℝ → Str) : Row → Str
  | .category name => List.replicate 70 '*' ++ ['\n'] ++ (name ++ ['\n']) ++ (List.replicate 70 '*' ++ ['\n'])
  | .present t1 t2 => ljust 35 ['P', 'R', 'E', 'S', 'E', 'N', 'T'] ++
      (ljust 20 (boolStr t1) ++ ljust 20 (boolStr t2) ++ ['F', 'A', 'I', 'L'] ++ ['\n'])
  | .entry name t1 t2 ok => ljust 35 name ++ (ljust 20 (cellText fmt repr t1) ++ ljust 20 (cellText fmt repr t2)) ++
      (if ok then ['O', 'K'] ++ ['\n'] else ['F', 'A', 'I', 'L'] ++ ['\n'])
  | .blank => ['\n']

/-- `compare_xml(x1, x2, filename)`: the text that is returned and the text that is written to the file `filename` (if it is
given and the end is reached), routines.py lines 521-620 -/
noncomputable def compareText (npInt : Bool) (fmt : Fl ℝ → Str) (repr : PyVal ℝ → Str) (filename : Option Str)
    (x1 x2 : Option (List (Str × PyVal ℝ))) : Except PyErr (Str × Option (Str × Str)) :=
  match x1, x2 with
  | some f1, some f2 => do
    let rows ← compareXml npInt (some f1) (some f2)
    let s := rows.flatMap (rowText fmt repr)
    match filename with
    | none => .ok (s, none)
    | some name => .ok (s, some (name, s))
  | _, _ => .ok ([], none)

end Xml
end Emva
