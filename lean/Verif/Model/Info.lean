import Verif.Model.Compare

/-!
Model of `routines.cls_1288_info`, `routines._sections_first` and `routines.obj_to_dict`
(src/emva1288/process/routines.py lines 305-410).
-/
set_option autoImplicit false
namespace Emva
namespace Info
open Xml

/-- the characters at which `str.splitlines` splits. process/routines.py line 336. -/
def isLineSep (c : Char) : Bool :=
  let n := c.toNat
  (10 ≤ n && n ≤ 13) || (28 ≤ n && n ≤ 30) || n == 0x85 || n == 0x2028 || n == 0x2029

/-- `s.splitlines()`; `acc` is the line being collected. process/routines.py line 336. -/
def splitlinesAux (acc : Str) : Str → List Str
  | [] => if acc = [] then [] else [acc]
  | '\r' :: '\n' :: s => acc :: splitlinesAux [] s
  | c :: s => if isLineSep c then acc :: splitlinesAux [] s else splitlinesAux (acc ++ [c]) s

/-- `s.splitlines()`. process/routines.py line 336. -/
def splitlines (s : Str) : List Str := splitlinesAux [] s

/-- `'.. emva1288::'`. process/routines.py line 345. -/
def directive : Str := ['.', '.', ' ', 'e', 'm', 'v', 'a', '1', '2', '8', '8', ':', ':']
/-- `'section'`. process/routines.py line 368. -/
def sectionKey : Str := ['s', 'e', 'c', 't', 'i', 'o', 'n']
/-- `'other'`. process/routines.py line 368. -/
def otherVal : Str := ['o', 't', 'h', 'e', 'r']

/-- The loop over the lines of a docstring with its `flag`: the lines collected in `tag_lines`,
routines.py lines 342-352. -/
def tagLines : Bool → List Str → List Str
  | _, [] => []
  | flag, line :: lines =>
    if Py.startsWith line directive then tagLines true lines
    else if flag then
      if Py.strip line = [] then tagLines false lines
      else line :: tagLines true lines
    else tagLines false lines

/-- `line.split(sep, n)`: at most `n` splits. process/routines.py line 360. -/
def splitMax (sep : Char) : ℕ → Str → List Str
  | 0, s => [s]
  | n + 1, s =>
    match s.span (fun c => decide (c ≠ sep)) with
    | (a, []) => [a]
    | (a, _ :: r) => a :: splitMax sep n r

/-- routines.py lines 360-365: key and value of a tag line, if it has exactly two non-empty parts.
`lower` is `str.lower`. -/
def parseTag (lower : Str → Str) (line : Str) : Option (Str × Str) :=
  match (((splitMax ':' 2 line).filter fun x => decide (Py.strip x ≠ [])).map Py.strip) with
  | [a, b] => some (lower a, b)
  | _ => none

/-- routines.py lines 358-368: the information of one attribute. -/
def attributeInfo (lower : Str → Str) (tags : List Str) : List (Str × Str) :=
  let d := (tags.filterMap (parseTag lower)).foldl (fun d kv => Dict.set d kv.1 kv.2) []
  Dict.setdefault d sectionKey otherVal

/-- One turn of the loop of `cls_1288_info`, routines.py lines 328-369; `doc` is
`getattr(cls, name).__doc__` (`none` for `None`). -/
def docInfo (lower : Str → Str) (doc : Option Str) : Option (List (Str × Str)) :=
  match doc with
  | none => none
  | some [] => none
  | some s =>
    match tagLines false ((splitlines s).map Py.strip) with
    | [] => none
    | tags => some (attributeInfo lower tags)

/-- `cls_1288_info(cls)`, routines.py lines 305-370.  `cls` lists the attributes of the class with their
docstrings. -/
def clsInfo (lower : Str → Str) (cls : List (Str × Option Str)) : List (Str × List (Str × Str)) :=
  (sortedUnion (Dict.keys cls) []).filterMap fun name =>
    match docInfo lower ((Dict.get? cls name).getD none) with
    | none => none
    | some i => some (name, i)

/-- `k['section']`. process/routines.py lines 379, 383. -/
def sectionOf {F : Type} (e : List (Str × PyVal F)) : Except PyErr Str :=
  match Dict.get? e sectionKey with
  | some (.str s) => .ok s
  | some _ => .error .typeError
  | none => .error .keyError

/-- the inner loop of `_sections_first`, routines.py lines 382-385 -/
def sectionLoop {F : Type} (sec : Str) : List (Str × List (Str × PyVal F)) → List (Str × List (Str × PyVal F)) →
    Except PyErr (List (Str × List (Str × PyVal F)))
  | d, [] => .ok d
  | d, (k, v) :: rest => do
    let s ← sectionOf v
    if s ≠ sec then sectionLoop sec d rest
    else sectionLoop sec (Dict.set d k v) rest

/-- `_sections_first(dct)`, routines.py lines 373-386. -/
def sectionsFirst {F : Type} (dct : List (Str × List (Str × PyVal F))) :
    Except PyErr (List (Str × List (Str × List (Str × PyVal F)))) := do
  let secs ← dct.mapM fun kv => sectionOf kv.2
  (sortedUnion secs []).mapM fun s => do
    let d ← sectionLoop s [] dct
    .ok (s, d)

/-- routines.py lines 405-409: the entry with the value of the attribute -/
def withValue {F : Type} (info : List (Str × Str)) (v : PyVal F) : List (Str × PyVal F) :=
  let e := info.map fun kv => (kv.1, PyVal.str kv.2)
  match v with
  | .dict d => Dict.set e dataKey (.dict d)
  | v => Dict.set e valueKey v

/-- `obj_to_dict(obj)`, routines.py lines 389-410; `val` is the value of an attribute (called if it is
callable). -/
def objToDict {F : Type} (lower : Str → Str) (cls : List (Str × Option Str)) (val : Str → Except PyErr (PyVal F)) :
    Except PyErr (List (Str × List (Str × PyVal F))) :=
  (clsInfo lower cls).mapM fun ki => do
    let v ← val ki.1
    .ok (ki.1, withValue ki.2 v)

end Info
end Emva
