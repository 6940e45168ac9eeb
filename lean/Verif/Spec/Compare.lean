import Verif.Model.Compare

/-!
Specification of the report of `compare_xml`.
-/
set_option autoImplicit false
namespace Emva
namespace Spec
open Xml

/-- both numbers can be rounded, to the same value -/
def SameRounded (npInt : Bool) (x y : Fl ℝ) : Prop :=
  ∃ z, roundSignificant npInt x 7 = .ok z ∧ roundSignificant npInt y 7 = .ok z

/-- arrays that count as equal: not empty, same length and elementwise equal after rounding; or one of
them has a single element that equals every element of the other -/
def ArraysMatch (npInt : Bool) (a b : List (Fl ℝ)) : Prop :=
  (a ≠ [] ∧ List.Forall₂ (SameRounded npInt) a b) ∨
  (∃ x, a = [x] ∧ b ≠ [] ∧ ∀ y ∈ b, SameRounded npInt x y) ∨
  (∃ y, b = [y] ∧ a ≠ [] ∧ ∀ x ∈ a, SameRounded npInt x y)

/-- the entries (the dictionaries of an attribute in the two files, `none` if absent) count as equal -/
def Match (npInt : Bool) (m1 m2 : Option (List (Str × PyVal ℝ))) : Prop :=
  ∃ e1 e2, m1 = some e1 ∧ m2 = some e2 ∧
  ((∃ x y, Dict.get? e1 valueKey = some (.num x) ∧ Dict.get? e2 valueKey = some (.num y) ∧
      SameRounded npInt x y) ∨
   ((Dict.get? e1 valueKey ∈ [none, some .none] ∨ Dict.get? e2 valueKey ∈ [none, some .none]) ∧
    ∃ d1 d2, Dict.get? e1 dataKey = some (.dict d1) ∧ Dict.get? e2 dataKey = some (.dict d2) ∧
      (∀ k, k ∈ Dict.keys d1 ↔ k ∈ Dict.keys d2) ∧
      ∀ k a b, Dict.get? d1 k = some (.arr a) → Dict.get? d2 k = some (.arr b) → ArraysMatch npInt a b))

/-- an attribute as returned by `xml_to_dict` -/
def EntryRead (e : List (Str × PyVal ℝ)) : Prop :=
  (∃ dd, Dict.get? e dataKey = some (.dict dd) ∧ dd ≠ [] ∧ Dict.WF dd ∧ ∀ kv ∈ dd, ∃ a, kv.2 = .arr a) ∨
  (Dict.get? e dataKey = none ∧ ∃ v, Dict.get? e valueKey = some v ∧ (v = .none ∨ ∃ x, v = .num x))

/-- a dictionary as returned by `xml_to_dict` -/
def Readable (f : List (Str × PyVal ℝ)) : Prop :=
  Dict.WF f ∧ ∀ cv ∈ f, ∃ d, cv.2 = .dict d ∧ Dict.WF d ∧ ∀ mv ∈ d, ∃ e, mv.2 = .dict e ∧ EntryRead e

/-- the attribute in a file -/
def entryOf (f : List (Str × PyVal ℝ)) (c m : Str) : Option (List (Str × PyVal ℝ)) :=
  match Dict.get? f c with
  | some (.dict d) =>
    match Dict.get? d m with
    | some (.dict e) => some e
    | _ => none
  | _ => none

/-- no attribute has a `value` element with children (beside a `data` element) -/
def NoNestedValue (f : List (Str × PyVal ℝ)) : Prop :=
  ∀ c m e v, entryOf f c m = some e → Dict.get? e valueKey = some v → isDict v = false

/-- names of the attributes of a category -/
def methodsOf (f : List (Str × PyVal ℝ)) (c : Str) : List Str :=
  match Dict.get? f c with
  | some (.dict d) => Dict.keys d
  | _ => []

/-- increasing list of the members of `a` and `b` -/
def IsSortedUnion (a b l : List Str) : Prop :=
  List.Pairwise (· < ·) l ∧ ∀ x, x ∈ l ↔ x ∈ a ∨ x ∈ b

/-- verdict lines of one category: one per attribute of either file, in increasing order -/
def IsSection (npInt : Bool) (f1 f2 : List (Str × PyVal ℝ)) (c : Str) (rows : List Row) : Prop :=
  ∃ ms, IsSortedUnion (methodsOf f1 c) (methodsOf f2 c) ms ∧
    List.Forall₂ (fun m row => ∃ t1 t2 ok, row = .entry m t1 t2 ok ∧
      (ok = true ↔ Match npInt (entryOf f1 c m) (entryOf f2 c m))) ms rows

/-- the lines for one category -/
def IsCategory (npInt : Bool) (f1 f2 : List (Str × PyVal ℝ)) (c : Str) (rows : List Row) : Prop :=
  (c ∈ Dict.keys f1 ∧ c ∈ Dict.keys f2 ∧ ∃ body, rows = .category c :: body ++ [.blank] ∧
    IsSection npInt f1 f2 c body) ∨
  (¬(c ∈ Dict.keys f1 ∧ c ∈ Dict.keys f2) ∧
    rows = [.category c, .present (decide (c ∈ Dict.keys f1)) (decide (c ∈ Dict.keys f2))])

/-- a report: the lines of all categories of either file, in increasing order -/
def IsReport (npInt : Bool) (f1 f2 : List (Str × PyVal ℝ)) (rows : List Row) : Prop :=
  ∃ cs parts, IsSortedUnion (Dict.keys f1) (Dict.keys f2) cs ∧
    List.Forall₂ (IsCategory npInt f1 f2) cs parts ∧ rows = parts.flatten

/-- the verdicts of a report, in order -/
def verdicts (rows : List Row) : List Bool :=
  rows.filterMap fun
    | .present _ _ => some false
    | .entry _ _ _ ok => some ok
    | _ => none

end Spec
end Emva
