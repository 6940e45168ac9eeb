import Verif.Py.Dict
import Verif.Py.Str
import Verif.Py.Err
import Verif.Py.Fl

/-!
Model of `routines.dict_to_xml` and `routines.xml_to_dict` (src/emva1288/process/routines.py lines
413-506).

The serialisation and the parser of lxml are not modelled at the text level: an xml file is an element
tree, and writing followed by parsing is the identity on trees except that an empty text is read as
`None` (`reread`).  `pretty_print` only adds white space to elements that have children; the text of
those is never looked at.
-/
set_option autoImplicit false
namespace Emva
namespace Xml

/-- The python values that occur: `None`, numbers, strings, 1-D arrays, dictionaries.
process/routines.py lines 428-440. -/
inductive PyVal (F : Type) : Type
  | none
  | num (x : Fl F)
  | str (s : Str)
  | arr (a : List (Fl F))
  | dict (d : List (Str × PyVal F))

/-- An lxml element. process/routines.py lines 426, 443. -/
inductive Elem : Type
  | mk (tag : Str) (text : Option Str) (children : List Elem)

/-- `e.tag`. process/routines.py lines 481, 483. -/
def Elem.tag : Elem → Str
  | .mk t _ _ => t

/-- What the routines use of lxml and of python's number formatting: valid tag names, characters
allowed in xml text, `str.lower`, `str(x)` of a number, `float(s)` (`none`: `ValueError`).
process/routines.py lines 426, 435-440, 481, 504. -/
structure Env (F : Type) where
  validTag : Str → Bool
  validChar : Char → Bool
  lower : Str → Str
  fmt : Fl F → Str
  float : Str → Option (Fl F)

variable {F : Type} (env : Env F)

/-- `' '.join(a)`. process/routines.py line 436. -/
def joinSpace : List Str → Str
  | [] => []
  | [w] => w
  | w :: ws => w ++ ' ' :: joinSpace ws

/-- `str(None)`. process/routines.py lines 440, 499. -/
def noneStr : Str := ['N', 'o', 'n', 'e']
/-- `'data'`. process/routines.py lines 407, 491. -/
def dataKey : Str := ['d', 'a', 't', 'a']
/-- `'value'`. process/routines.py lines 409, 498. -/
def valueKey : Str := ['v', 'a', 'l', 'u', 'e']

/-- `etree.SubElement(r, k)` followed by `e.text = s`: lxml raises `ValueError` for invalid tag names
and for control characters in a text. process/routines.py lines 426, 436, 440. -/
def leaf (k s : Str) : Except PyErr Elem :=
  if env.validTag k then
    if s.all env.validChar then .ok (.mk k (some s) []) else .error .valueError
  else .error .valueError

mutual
/-- One turn of the loop in `key_to_xml`, routines.py lines 425-442.  (`r.append(e)` moves the element,
which is the last child already, to the end: nothing changes.) -/
def valElem (k : Str) : PyVal F → Except PyErr Elem
  | .dict d =>
    if env.validTag k then do
      let es ← dictElems d
      .ok (.mk k none es)
    else .error .valueError
  | .arr a => leaf env k (joinSpace (a.map env.fmt))
  | .num x => leaf env k (env.fmt x)
  | .str s => leaf env k s
  | .none => leaf env k noneStr

/-- `key_to_xml(d, r)`: the children added to `r`, routines.py lines 418-443. -/
def dictElems : List (Str × PyVal F) → Except PyErr (List Elem)
  | [] => .ok []
  | (k, v) :: d => do
    let e ← valElem k v
    let es ← dictElems d
    .ok (e :: es)
end

/-- `dict_to_xml(d)`, routines.py lines 413-453: the tree with root `results`. -/
def dictToXml (d : List (Str × PyVal F)) : Except PyErr Elem := do
  let es ← dictElems env d
  .ok (.mk ['r', 'e', 's', 'u', 'l', 't', 's'] none es)

/-- an empty text is read as `None`. process/routines.py line 483. -/
def readText : Option Str → Option Str
  | some [] => none
  | x => x

mutual
/-- Writing the file and parsing it with lxml: an empty text becomes `None`.
process/routines.py lines 446-450, 463. -/
def reread : Elem → Elem
  | .mk t text ch => .mk t (readText text) (rereads ch)
/-- the same for the children. process/routines.py lines 446-450, 463. -/
def rereads : List Elem → List Elem
  | [] => []
  | e :: es => reread e :: rereads es
end

/-- `child.text` as a value. process/routines.py line 483. -/
def textVal : Option Str → PyVal F
  | none => .none
  | some s => .str s

mutual
/-- The value stored for a child, routines.py lines 475-480. -/
def elemVal : Elem → PyVal F
  | .mk _ text [] => textVal text
  | .mk _ _ (c :: cs) => .dict (elementToDict [] (c :: cs))
/-- `element_to_dict(r)`, routines.py lines 468-481, over the children of `r`; `dout` is the dictionary
built so far. -/
def elementToDict (dout : List (Str × PyVal F)) : List Elem → List (Str × PyVal F)
  | [] => dout
  | e :: es => elementToDict (Dict.set dout (env.lower e.tag) (elemVal e)) es
end

/-- `v.strip().split()` converted to a float array, routines.py lines 490-493.  `None` and dictionaries
have no `strip`. -/
def convArray : PyVal F → Except PyErr (PyVal F)
  | .str s => do
    let xs ← (Py.split (Py.strip s)).mapM fun w => match env.float w with
      | some x => .ok x
      | none => .error .valueError
    .ok (.arr xs)
  | _ => .error .attributeError

/-- routines.py lines 489-493: the loop over `value['data']`. -/
def convData (d : List (Str × PyVal F)) : Except PyErr (List (Str × PyVal F)) :=
  d.mapM fun kv => do
    let v ← convArray env kv.2
    .ok (kv.1, v)

/-- routines.py lines 495-502: the conversion of `value['value']`. -/
def convValue : PyVal F → Except PyErr (PyVal F)
  | .none => .ok .none
  | .str s =>
    if s = noneStr ∨ s = ['n', 'o', 'n', 'e'] then .ok .none
    else match env.float (Py.replaceChar ',' '.' s) with
      | some x => .ok (.num x)
      | none => .error .valueError
  | _ => .error .attributeError

/-- One turn of the inner loop, routines.py lines 488-503.  `'data' in None` and indexing a string with a
string raise `TypeError`, so does iterating over or into a `data` that is not a dictionary. -/
def convEntry : PyVal F → Except PyErr (PyVal F)
  | .dict e =>
    match Dict.get? e dataKey with
    | some (.dict dd) => do
      let dd' ← convData env dd
      .ok (.dict (Dict.set e dataKey (.dict dd')))
    | some _ => .error .typeError
    | none =>
      match Dict.get? e valueKey with
      | none => .error .keyError
      | some v => do
        let v' ← convValue env v
        .ok (.dict (Dict.set e valueKey v'))
  | _ => .error .typeError

/-- One turn of the outer loop, routines.py lines 486-503: `method.items()` of a string or `None` raises
`AttributeError`. -/
def convSection : PyVal F → Except PyErr (PyVal F)
  | .dict ms => do
    let ms' ← ms.mapM fun kv => do
      let v ← convEntry env kv.2
      .ok (kv.1, v)
    .ok (.dict ms')
  | _ => .error .attributeError

/-- `xml_to_dict(xml)`, routines.py lines 456-506.  `none` stands for every argument that is not the
name of a well-formed xml file: then `None` is returned (a string with xml text is no exception:
`etree.ElementTree` of lxml is a function without attribute `fromstring`). -/
def xmlToDict : Option Elem → Except PyErr (Option (List (Str × PyVal F)))
  | none => .ok none
  | some (.mk _ _ ch) => do
    let d ← (elementToDict env [] ch).mapM fun kv => do
      let v ← convSection env kv.2
      .ok (kv.1, v)
    .ok (some d)

end Xml
end Emva
