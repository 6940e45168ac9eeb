import Verif.Py.Num
import Verif.Py.Dict

/-!
What a reader of the report expects: the n-th operation point is called `OP<n>`, its plots are in the
directory of that name.
-/
set_option autoImplicit false
namespace Emva
namespace Report

/-- the identifier of the n-th operation point -/
def IdOf (n : ℕ) (s : Str) : Prop := ∃ d : Str, s = "OP".toList ++ d ∧ Py.decInt d = some (n : ℤ) ∧ d.all Py.isDigit = true

/-- exactly one path for every plot, in the directory `id` -/
def PlotPaths (classes : List Str) (id : Str) (d : Dict Str Str) : Prop :=
  (∀ cls ∈ classes, Dict.get? d cls = some (id ++ "/".toList ++ cls ++ ".pdf".toList)) ∧
  ∀ k, k ∉ classes → Dict.get? d k = none

end Report
end Emva
