import Verif.Model.Xml

/-!
Results dictionaries as written by `Results1288.xml`: section -> attribute -> {tag: text, ...,
'value': number or None} or {..., 'data': {name: array or number}}.
-/
set_option autoImplicit false
namespace Emva
namespace Spec
open Xml
variable {F : Type}

/-- a member of a `data` dictionary -/
inductive DataVal (F : Type)
  | arr (a : List (Fl F))
  | num (x : Fl F)

/-- the result itself -/
inductive Payload (F : Type)
  | value (v : Option (Fl F))
  | data (d : List (Str × DataVal F))

/-- the dictionary of one attribute -/
structure Entry (F : Type) where
  info : List (Str × Str)
  payload : Payload F

/-- a results dictionary -/
abbrev ResultsDict (F : Type) := List (Str × List (Str × Entry F))

/-- as a python value -/
def DataVal.py : DataVal F → PyVal F
  | .arr a => .arr a
  | .num x => .num x

/-- what a reader gets: a number in `data` comes back as an array with one element -/
def DataVal.asRead : DataVal F → List (Fl F)
  | .arr a => a
  | .num x => [x]

/-- as a python value -/
def Entry.py (e : Entry F) : PyVal F :=
  .dict (e.info.map (fun kv => (kv.1, .str kv.2)) ++ match e.payload with
    | .value none => [(valueKey, .none)]
    | .value (some x) => [(valueKey, .num x)]
    | .data d => [(dataKey, .dict (d.map fun kv => (kv.1, kv.2.py)))])

/-- as a python dictionary -/
def ResultsDict.py (d : ResultsDict F) : List (Str × PyVal F) :=
  d.map fun s => (s.1, .dict (s.2.map fun m => (m.1, m.2.py)))

/-- the entry with lower-cased keys, numbers in `data` as arrays -/
def Entry.lower (low : Str → Str) (e : Entry F) : Entry F where
  info := e.info.map fun kv => (low kv.1, kv.2)
  payload := match e.payload with
    | .value v => .value v
    | .data d => .data (d.map fun kv => (low kv.1, .arr kv.2.asRead))

/-- the dictionary with lower-cased keys -/
def ResultsDict.lower (low : Str → Str) (d : ResultsDict F) : ResultsDict F :=
  d.map fun s => (low s.1, s.2.map fun m => (low m.1, m.2.lower low))

/-- the entry with every number replaced -/
def Entry.round (rnd : Fl F → Fl F) (e : Entry F) : Entry F where
  info := e.info
  payload := match e.payload with
    | .value v => .value (v.map rnd)
    | .data d => .data (d.map fun kv => (kv.1, match kv.2 with
      | .arr a => .arr (a.map rnd)
      | .num x => .num (rnd x)))

/-- the dictionary with every number replaced -/
def ResultsDict.round (rnd : Fl F → Fl F) (d : ResultsDict F) : ResultsDict F :=
  d.map fun s => (s.1, s.2.map fun m => (m.1, m.2.round rnd))

/-- what is assumed about python and lxml: `float(str(x))` is a number, `rnd x`; the text of a number is not empty, has
no white space and no comma, consists of characters allowed in xml and is not `None` or `none`;
`data`, `value` are valid lower-case tags. -/
structure TextEnv (env : Env F) (rnd : Fl F → Fl F) : Prop where
  float_fmt : ∀ x, env.float (env.fmt x) = some (rnd x)
  fmt_ne : ∀ x, env.fmt x ≠ []
  fmt_char : ∀ x, ∀ c ∈ env.fmt x, Py.isSpace c = false ∧ c ≠ ',' ∧ env.validChar c = true
  fmt_none : ∀ x, env.fmt x ≠ ['N', 'o', 'n', 'e'] ∧ env.fmt x ≠ ['n', 'o', 'n', 'e']
  char : ∀ c ∈ [' ', 'N', 'o', 'n', 'e'], env.validChar c = true
  tag : env.validTag dataKey = true ∧ env.validTag valueKey = true
  lower : env.lower dataKey = dataKey ∧ env.lower valueKey = valueKey

/-- the same with `float(str(x)) = x`, as for the numbers of python -/
abbrev GoodEnv (env : Env F) : Prop := TextEnv env id

/-- an entry that can be written and read: valid tags, non-empty texts of allowed characters, tags
different from `data` and `value`, `data` not empty and without empty arrays, no two tags and no two
`data` keys equal up to case -/
structure Entry.Ok (env : Env F) (e : Entry F) : Prop where
  tags : ∀ kv ∈ e.info, env.validTag kv.1 = true ∧ kv.2 ≠ [] ∧ kv.2.all env.validChar = true
  keys : ∀ kv ∈ e.info, env.lower kv.1 ≠ dataKey ∧ env.lower kv.1 ≠ valueKey
  nodup : (e.info.map fun kv => env.lower kv.1).Nodup
  data : ∀ d, e.payload = .data d → d ≠ [] ∧ (∀ kv ∈ d, env.validTag kv.1 = true ∧ kv.2.asRead ≠ []) ∧
    (d.map fun kv => env.lower kv.1).Nodup

/-- a results dictionary that can be written and read, except that keys may collide -/
structure ResultsDict.Ok (env : Env F) (d : ResultsDict F) : Prop where
  sections : ∀ s ∈ d, env.validTag s.1 = true ∧ s.2 ≠ []
  entries : ∀ s ∈ d, ∀ m ∈ s.2, env.validTag m.1 = true ∧ m.2.Ok env

/-- no two section names and no two attribute names of a section are equal up to case -/
def ResultsDict.Distinct (env : Env F) (d : ResultsDict F) : Prop :=
  (d.map fun s => env.lower s.1).Nodup ∧ ∀ s ∈ d, (s.2.map fun m => env.lower m.1).Nodup

/-- the entry `k: v` is in the dictionary or in a dictionary inside it -/
inductive Inside {F : Type} : List (Str × PyVal F) → Str → PyVal F → Prop
  | here {d : List (Str × PyVal F)} {k : Str} {v : PyVal F} (h : (k, v) ∈ d) : Inside d k v
  | deep {d d' : List (Str × PyVal F)} {k k' : Str} {v : PyVal F} (h : (k', .dict d') ∈ d) (h' : Inside d' k v) : Inside d k v

/-- a character that an xml text cannot contain would be written for the value -/
def BadText {F : Type} (env : Env F) : PyVal F → Prop
  | .dict _ => False
  | .str s => ∃ c ∈ s, env.validChar c = false
  | .num x => ∃ c ∈ env.fmt x, env.validChar c = false
  | .none => ∃ c ∈ "None".toList, env.validChar c = false
  | .arr a => (∃ x ∈ a, ∃ c ∈ env.fmt x, env.validChar c = false) ∨ 2 ≤ a.length ∧ env.validChar ' ' = false

/-- an entry somewhere in the dictionary that cannot be written as an xml element -/
def Unwritable {F : Type} (env : Env F) (d : List (Str × PyVal F)) : Prop :=
  ∃ k v, Inside d k v ∧ (env.validTag k = false ∨ BadText env v)

end Spec
end Emva
