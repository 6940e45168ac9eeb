import Verif.Model.Xml
import Verif.Py.Array1
import Mathlib.Analysis.SpecialFunctions.Log.Base
import Mathlib.Data.List.Sort
import Mathlib.Data.List.Lex
import Mathlib.Data.Char

/-!
Model of `routines.round_significant` and `routines.compare_xml` (src/emva1288/process/routines.py lines
509-620).

`np.int` was removed in numpy 1.24; the parameter `npInt` tells whether it exists.
-/
set_option autoImplicit false
namespace Emva
namespace Xml

/-- rounding to the nearest integer, ties to even. process/routines.py line 515. -/
noncomputable def rint (x : ℝ) : ℤ :=
  let f := ⌊x⌋
  if x - f < 1 / 2 then f
  else if 1 / 2 < x - f then f + 1
  else if f % 2 = 0 then f else f + 1

/-- python's `round(x, n)` for a float, without rounding errors. process/routines.py line 515. -/
noncomputable def pyRound (x : ℝ) (n : ℤ) : ℝ := rint (x * 10 ^ n) / 10 ^ n

/-- `round_significant(v, sig)`, routines.py lines 509-515.  `int` of NaN is a `ValueError`, of an
infinity an `OverflowError`. -/
noncomputable def roundSignificant (npInt : Bool) (v : Fl ℝ) (sig : ℤ) : Except PyErr (Fl ℝ) :=
  if Fl.eqb v (.fin 0) then .ok (.fin 0)
  else if npInt = false then .error .attributeError
  else match v with
    | .nan => .error .valueError
    | .inf _ => .error .overflowError
    | .fin x => .ok (.fin (pyRound x (sig - ⌊Real.logb 10 |x|⌋ - 1)))

/-- `SIGNIFICANT_DIGITS`, routines.py line 20 -/
def significantDigits : ℤ := 7

/-- `round_array(a)`, routines.py line 518: `np.vectorize` rejects empty arrays. -/
noncomputable def roundArray (npInt : Bool) (a : List (Fl ℝ)) : Except PyErr (List (Fl ℝ)) :=
  if a = [] then .error .valueError
  else a.mapM fun v => roundSignificant npInt v significantDigits

/-- `r = (round_significant(v1) - round_significant(v2)) == 0.0` with `except: r = False`, routines.py
lines 574-578.  Other types than numbers make `round_significant` raise. -/
noncomputable def cmpValue (npInt : Bool) : PyVal ℝ → PyVal ℝ → Bool
  | .num x, .num y =>
    match roundSignificant npInt x significantDigits, roundSignificant npInt y significantDigits with
    | .ok a, .ok b => Fl.eqb (a - b) (.fin 0)
    | _, _ => false
  | _, _ => false

/-- `np.abs`. process/routines.py lines 515, 596. -/
noncomputable def flAbs (a : Fl ℝ) : Fl ℝ := if Fl.lt a (.fin 0) then Fl.fin 0 - a else a

/-- `a - b` of two arrays: lengths equal, or one of them has one element (broadcasting).
process/routines.py lines 596-597. -/
noncomputable def subArray (a b : List (Fl ℝ)) : Except PyErr (List (Fl ℝ)) :=
  if a.length = b.length then .ok (List.zipWith (· - ·) a b)
  else match a, b with
    | [x], b => .ok (b.map (x - ·))
    | a, [y] => .ok (a.map (· - y))
    | _, _ => .error .valueError

/-- the computation in lines 594-596, routines.py -/
noncomputable def maxDiff (npInt : Bool) (a b : List (Fl ℝ)) : Except PyErr (Fl ℝ) := do
  let a' ← roundArray npInt a
  let b' ← roundArray npInt b
  let d ← subArray a' b'
  Np.amax (d.map flAbs)

/-- `r` for one key of the data dictionaries, routines.py lines 593-598. -/
noncomputable def cmpArray (npInt : Bool) : Option (PyVal ℝ) → Option (PyVal ℝ) → Bool
  | some (.arr a), some (.arr b) =>
    match maxDiff npInt a b with
    | .ok m => Fl.eqb m (.fin 0)
    | .error _ => false
  | _, _ => false

/-- the loop over the keys, routines.py lines 592-601: `r` is the variable before the loop (`none`:
not yet assigned) -/
noncomputable def cmpLoop (npInt : Bool) (a1 a2 : List (Str × PyVal ℝ)) (r : Option Bool) :
    List Str → Option Bool
  | [] => r
  | k :: ks =>
    let r' := cmpArray npInt (Dict.get? a1 k) (Dict.get? a2 k)
    if r' then cmpLoop npInt a1 a2 (some r') ks else some false

/-- `set(k1) ^ set(k2)` is not empty. process/routines.py line 590. -/
def keysDiffer (a1 a2 : List (Str × PyVal ℝ)) : Bool :=
  !((Dict.keys a1).all (fun k => decide (k ∈ Dict.keys a2)) && (Dict.keys a2).all fun k => decide (k ∈ Dict.keys a1))

/-- what is printed for a value: the value itself (a number or a text), `Array`, or `str` of it.
process/routines.py lines 579-580, 586-587, 604-605. -/
inductive Cell
  | value (v : PyVal ℝ)
  | array

/-- `f[category][methodname].get(key, None)`; an absent method gives `None` too.
process/routines.py lines 556-569. -/
def getOr (m : Option (PyVal ℝ)) (key : Str) : PyVal ℝ :=
  match m with
  | some (.dict e) => (Dict.get? e key).getD .none
  | _ => .none

/-- a value is `None`. process/routines.py lines 574, 583. -/
def isNone : PyVal ℝ → Bool
  | .none => true
  | _ => false

/-- a value that `'{0:<20}'.format` rejects with `TypeError`. process/routines.py line 608. -/
def isDict : PyVal ℝ → Bool
  | .dict _ => true
  | _ => false

/-- One turn of the loop over the methods, routines.py lines 551-610: the two cells and the new value of
the variable `r`.  A `data` that is not a dictionary has no `keys` (it cannot come out of
`xml_to_dict`). -/
noncomputable def cmpMethod (npInt : Bool) (m1 m2 : Option (PyVal ℝ)) (r : Option Bool) :
    Except PyErr (Cell × Cell × Option Bool) :=
  let v1 := getOr m1 valueKey
  let v2 := getOr m2 valueKey
  let a1 := getOr m1 dataKey
  let a2 := getOr m2 dataKey
  if isNone v1 = false ∧ isNone v2 = false then
    if isDict v1 || isDict v2 then .error .typeError
    else .ok (.value v1, .value v2, some (cmpValue npInt v1 v2))
  else if isNone a1 = false ∧ isNone a2 = false then
    match a1, a2 with
    | .dict d1, .dict d2 =>
      if keysDiffer d1 d2 then .ok (.array, .array, some false)
      else .ok (.array, .array, cmpLoop npInt d1 d2 r (Dict.keys d1))
    | _, _ => .error .attributeError
  else .ok (.value v1, .value v2, some false)

/-- lines of the report. process/routines.py lines 537-546, 553, 608-614. -/
inductive Row
  | category (name : Str)
  | present (t1 t2 : Bool)
  | entry (name : Str) (t1 t2 : Cell) (ok : Bool)
  | blank

/-- `sorted(set(a) | set(b))`. process/routines.py lines 535-536, 551-552. -/
def sortedUnion (a b : List Str) : List Str := (a ++ b).dedup.mergeSort fun x y => decide (x ≤ y)

/-- the loop over the methods of a category, routines.py lines 551-613 -/
noncomputable def cmpMethods (npInt : Bool) (d1 d2 : List (Str × PyVal ℝ)) :
    List Str → Option Bool → Except PyErr (List Row × Option Bool)
  | [], r => .ok ([], r)
  | m :: ms, r => do
    let (t1, t2, r') ← cmpMethod npInt (Dict.get? d1 m) (Dict.get? d2 m) r
    match r' with
    | none => .error .unboundLocalError
    | some b => do
      let (rows, r'') ← cmpMethods npInt d1 d2 ms (some b)
      .ok (.entry m t1 t2 b :: rows, r'')

/-- `f[category]` as a dictionary. process/routines.py lines 548-549. -/
def asDict : Option (PyVal ℝ) → List (Str × PyVal ℝ)
  | some (.dict d) => d
  | _ => []

/-- the loop over the categories, routines.py lines 535-615 -/
noncomputable def cmpCategories (npInt : Bool) (f1 f2 : List (Str × PyVal ℝ)) :
    List Str → Option Bool → Except PyErr (List Row)
  | [], _ => .ok []
  | c :: cs, r =>
    if Dict.has f1 c && Dict.has f2 c then do
      let d1 := asDict (Dict.get? f1 c)
      let d2 := asDict (Dict.get? f2 c)
      let (rows, r') ← cmpMethods npInt d1 d2 (sortedUnion (Dict.keys d1) (Dict.keys d2)) r
      let rest ← cmpCategories npInt f1 f2 cs r'
      .ok (.category c :: rows ++ .blank :: rest)
    else do
      let rest ← cmpCategories npInt f1 f2 cs r
      .ok (.category c :: .present (Dict.has f1 c) (Dict.has f2 c) :: rest)

/-- `compare_xml(x1, x2)`, routines.py lines 521-620: the lines of the report (no line: the empty
string).  The arguments are what `xml_to_dict` returned. -/
noncomputable def compareXml (npInt : Bool) : Option (List (Str × PyVal ℝ)) → Option (List (Str × PyVal ℝ)) →
    Except PyErr (List Row)
  | some f1, some f2 => cmpCategories npInt f1 f2 (sortedUnion (Dict.keys f1) (Dict.keys f2)) none
  | _, _ => .ok []

end Xml
end Emva
