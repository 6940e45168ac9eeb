import Verif.Model.Camera
import Verif.Model.Results
import Verif.Py.Num

/-!
The filters of the report templates, `template_renderer` (report/report.py lines 240-255), and the
number formatting of the templates.
-/
set_option autoImplicit false
set_option linter.unusedSectionVars false
namespace Emva
namespace Report
open Py

/-- The values a template passes to a filter: `None`, the object `np.nan`, a computed float (possibly a
NaN, but another object than `np.nan`), an integer, a string, an undefined name of the template
(`jinja2.Undefined`).  Arrays and other objects are not modelled.
report/report.py lines 241, 248, the argument `value`. -/
inductive RVal (F : Type)
  | none
  | npnan
  | float (x : Fl F)
  | int (n : ℤ)
  | str (s : Str)
  | undefined
  deriving DecidableEq

variable {F : Type} [Field F] [LinearOrder F] [FloorRing F]

/-- `'{:.<p>f}'.format(x)` and `'%.<p>f' % x` of a finite number: correctly rounded (ties to even), the
sign is kept when the number rounds to zero (zero itself is unsigned, see `Fl`).
report/report.py lines 245-246. -/
def fmtFin (p : ℕ) (x : F) : Str :=
  let n := (Cam.rint (|x| * 10 ^ p)).natAbs
  if x < 0 then '-' :: fmtFixedNat p n else fmtFixedNat p n

/-- the same for any float. report/report.py lines 245-246. -/
def fmtFloat (p : ℕ) : Fl F → Str
  | .nan => "nan".toList
  | .inf false => "inf".toList
  | .inf true => "-inf".toList
  | .fin x => fmtFin p x

/-- `'{:.<p>f}'.format(value)`: a `TypeError` for `None` and undefined names, a `ValueError` for strings.
report/report.py line 246. -/
def formatValue (p : ℕ) : RVal F → Except PyErr Str
  | .none => .error .typeError
  | .npnan => .ok (fmtFloat p (.nan : Fl F))
  | .float x => .ok (fmtFloat p x)
  | .int n => .ok (fmtFin p (n : F))
  | .str _ => .error .valueError
  | .undefined => .error .typeError

/-- `value in (None, np.nan)`: identity or equality; a NaN is equal to nothing.
report/report.py lines 243, 250. -/
def inMissing : RVal F → Bool
  | .none => true
  | .npnan => true
  | .float _ => false
  | .int _ => false
  | .str _ => false
  | .undefined => false

/-- `missingnumber(value, precision)`, report.py lines 240-245 -/
def missingNumber (value : RVal F) (precision : ℕ) : Except PyErr Str :=
  if inMissing value then .ok ['-'] else formatValue precision value

/-- `missingfilter(value, default='-')`, report.py lines 247-251 -/
def missingFilter (value default : RVal F) : RVal F := if inMissing value then default else value

/-- `'%.<p>f' % value` (`%` raises a `TypeError` where `format` raises a `ValueError`).
report/templates/op.tex lines 55-172. -/
def percentF (p : ℕ) : RVal F → Except PyErr Str
  | .str _ => .error .typeError
  | v => formatValue p v

/-- A number returned by an attribute of the results. process/routines.py line 409. -/
def ofNum : Results.PyNum F → RVal F
  | .none => .none
  | .npnan => .npnan
  | .num x => .float x

end Report
end Emva
