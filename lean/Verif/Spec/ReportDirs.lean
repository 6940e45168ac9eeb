import Verif.Model.ReportDirs

/-!
Specification for C82: the files a report refers to.
-/
set_option autoImplicit false
namespace Emva.Spec
open Emva ReportDirs Py

/-- A file system: the root is a directory and everything is inside a directory. -/
structure TreeFS (fs : FS) : Prop where
  root : fs [] = some .dir
  parent : ∀ p c, fs (p ++ [c]) ≠ none → fs p = some .dir

/-- a component of a path that names a file -/
def Proper (c : Str) : Prop := c ≠ [] ∧ c ≠ ['.'] ∧ c ≠ ['.', '.'] ∧ '/' ∉ c

/-- The name `v`, used in the directory `out` (where LaTeX is run), is a file with the content `c`. -/
def Refers (fs : FS) (out : Path) (v : Str) (c : ℕ) : Prop := fs (abspath out v) = some (.file c)

/-- the entry of a dictionary names a file (`None` and the empty string do not) -/
def Given (d : Info) (k f : Str) : Prop := f ≠ [] ∧ Dict.get? d k = some (some f)

/-- the entry of a dictionary is empty -/
def NotGiven (d : Info) (k : Str) : Prop := Dict.get? d k = some none ∨ Dict.get? d k = some (some [])

/-- the files that are given to a report -/
def Uploads (m b : Info) (f : Str) : Prop :=
  Given m "logo".toList f ∨ Given m "missingplot".toList f ∨ Given b "qe_plot".toList f

end Emva.Spec
