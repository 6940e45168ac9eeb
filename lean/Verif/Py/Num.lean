import Verif.Py.Str
import Mathlib.Data.Rat.Defs
import Mathlib.Algebra.Field.Rat
import Mathlib.Data.Nat.Digits.Lemmas

/-!
Reading and printing decimal numbers: the plain decimal subset of `float(token)` and `int(token)`,
and `'%.<d>f' % x`, `'%i' % n`.

Simplification: `float()` also accepts exponents, underscores, `inf` and `nan`; these spellings are
not produced by the dataset generator and give `none` here.  (Theorems that do not depend on the
number syntax take `float`/`int` as parameters instead.)
-/
set_option autoImplicit false
namespace Emva
namespace Py

/-- ASCII decimal digit. Used for process/parser.py lines 169-171, 182-183. -/
def isDigit (c : Char) : Bool := '0'.toNat ≤ c.toNat && c.toNat ≤ '9'.toNat

/-- value of a digit. Used for process/parser.py lines 169-171, 182-183. -/
def digitVal (c : Char) : ℕ := c.toNat - '0'.toNat

/-- value of a string of digits. Used for process/parser.py lines 169-171, 182-183. -/
def digitsVal (s : Str) : ℕ := s.foldl (fun n c => 10 * n + digitVal c) 0

/-- unsigned decimal `12`, `12.`, `12.5`, `.5`. Used for process/parser.py lines 182-183, 200. -/
def decUnsigned (s : Str) : Option ℚ :=
  let ip := s.takeWhile isDigit
  match s.dropWhile isDigit with
  | [] => if ip = [] then none else some (digitsVal ip)
  | c :: fp => if c = '.' ∧ fp.all isDigit = true ∧ (ip ≠ [] ∨ fp ≠ []) then
      some ((digitsVal (ip ++ fp) : ℚ) / 10 ^ fp.length) else none

/-- `float(token)` for plain decimals. Used for process/parser.py lines 182-183, 200. -/
def decFloat : Str → Option ℚ
  | '-' :: s => (decUnsigned s).map (- ·)
  | '+' :: s => decUnsigned s
  | s => decUnsigned s

/-- unsigned integer. Used for process/parser.py lines 169-171. -/
def decNat (s : Str) : Option ℤ :=
  if s ≠ [] ∧ s.all isDigit = true then some (digitsVal s) else none

/-- `int(token)` for plain integers. Used for process/parser.py lines 169-171. -/
def decInt : Str → Option ℤ
  | '-' :: s => (decNat s).map (- ·)
  | '+' :: s => decNat s
  | s => decNat s

/-- The digit characters. Used for camera/dataset_generator.py lines 195, 216. -/
def digitChar (d : ℕ) : Char := Char.ofNat ('0'.toNat + d)

/-- `'%i' % n` for a natural number. Used for camera/dataset_generator.py lines 195, 216. -/
def fmtNat (n : ℕ) : Str := if n = 0 then ['0'] else ((Nat.digits 10 n).map digitChar).reverse

/-- `'%i' % n`. Used for camera/dataset_generator.py lines 195, 216. -/
def fmtInt (n : ℤ) : Str := if n < 0 then '-' :: fmtNat n.natAbs else fmtNat n.natAbs

/-- `'%.<d>f'` of the number `n / 10^d`: integer part, point, exactly `d` decimals.
Used for camera/dataset_generator.py lines 160, 163. -/
def fmtFixedNat (d n : ℕ) : Str :=
  let frac := ((List.range d).map fun i => digitChar (n / 10 ^ i % 10)).reverse
  fmtNat (n / 10 ^ d) ++ (if d = 0 then [] else '.' :: frac)

end Py
end Emva
