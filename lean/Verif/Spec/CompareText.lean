import Verif.Spec.Compare

/-!
Specification of the text of `compare_xml`.
-/
set_option autoImplicit false
namespace Emva
namespace Spec
open Xml

/-- a text filled up with spaces to a width -/
def fill (n : ℕ) (s : Str) : Str := s ++ List.replicate (n - s.length) ' '

/-- a field of an attribute; `None` if the attribute or the field is absent -/
def fieldOf (f : List (Str × PyVal ℝ)) (c m key : Str) : PyVal ℝ :=
  match entryOf f c m with
  | some e => (Dict.get? e key).getD .none
  | none => .none

/-- the text of a value -/
def textOf (fmt : Fl ℝ → Str) (repr : PyVal ℝ → Str) : PyVal ℝ → Str
  | .none => "None".toList
  | .num x => fmt x
  | .str s => s
  | v => repr v

/-- the attribute is compared by its data: not both files have a value, both have data -/
def ByData (f1 f2 : List (Str × PyVal ℝ)) (c m : Str) : Prop :=
  (fieldOf f1 c m valueKey = .none ∨ fieldOf f2 c m valueKey = .none) ∧ fieldOf f1 c m dataKey ≠ .none ∧
    fieldOf f2 c m dataKey ≠ .none

open Classical in
/-- what is shown for the file `f` -/
noncomputable def cellOf (fmt : Fl ℝ → Str) (repr : PyVal ℝ → Str) (f1 f2 f : List (Str × PyVal ℝ)) (c m : Str) : Str :=
  if ByData f1 f2 c m then "Array".toList else textOf fmt repr (fieldOf f c m valueKey)

open Classical in
/-- the line of an attribute -/
noncomputable def entryLine (npInt : Bool) (fmt : Fl ℝ → Str) (repr : PyVal ℝ → Str) (f1 f2 : List (Str × PyVal ℝ)) (c m : Str) :
    Str :=
  fill 35 m ++ fill 20 (cellOf fmt repr f1 f2 f1 c m) ++ fill 20 (cellOf fmt repr f1 f2 f2 c m) ++
    if Match npInt (entryOf f1 c m) (entryOf f2 c m) then "OK".toList else "FAIL".toList

/-- the line of a category that is missing in a file -/
def missingLine (f1 f2 : List (Str × PyVal ℝ)) (c : Str) : Str :=
  fill 35 "PRESENT".toList ++ fill 20 (if c ∈ Dict.keys f1 then "True".toList else "False".toList) ++
    fill 20 (if c ∈ Dict.keys f2 then "True".toList else "False".toList) ++ "FAIL".toList

/-- the lines of a category with the attributes `ms` -/
noncomputable def categoryLines (npInt : Bool) (fmt : Fl ℝ → Str) (repr : PyVal ℝ → Str) (f1 f2 : List (Str × PyVal ℝ))
    (ms : Str → List Str) (c : Str) : List Str :=
  [List.replicate 70 '*', c, List.replicate 70 '*'] ++
    if c ∈ Dict.keys f1 ∧ c ∈ Dict.keys f2 then (ms c).map (entryLine npInt fmt repr f1 f2 c) ++ [[]]
    else [missingLine f1 f2 c]

/-- a text with the given lines -/
def unlines (ls : List Str) : Str := ls.flatMap fun l => l ++ ['\n']

/-- the two files have the same categories and attributes, and all attributes count as equal -/
def FilesAgree (npInt : Bool) (f1 f2 : List (Str × PyVal ℝ)) : Prop :=
  (∀ c, c ∈ Dict.keys f1 ↔ c ∈ Dict.keys f2) ∧
    ∀ c m, (m ∈ methodsOf f1 c ∨ m ∈ methodsOf f2 c) → Match npInt (entryOf f1 c m) (entryOf f2 c m)

end Spec
end Emva
