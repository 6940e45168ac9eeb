import Verif.Model.Missing

/-!
The part of jinja2 that the templates of the report use (report/templates, rendered in report/report.py lines 306-319): values,
attribute access, the filters of report.py lines 240-255, `if`, `for` and output.
-/
set_option autoImplicit false
namespace Emva
namespace Jinja
open Report

/-- The values a template sees: an undefined name, `None`, the object `np.nan`, floats, texts, lists, dictionaries, and any other
object with its `str` and its truth value.
report/report.py lines 309-310, 315-319, the values passed to `render`. -/
inductive Val : Type
  | undefined
  | none
  | npnan
  | float (x : Fl ℝ)
  | str (s : Str)
  | obj (text : Str) (truthy : Bool)
  | list (l : List Val)
  | dict (d : List (Str × Val))

/-- python's `str` of floats and of lists and dictionaries. report/report.py lines 309, 315. -/
structure Texts where
  float : Fl ℝ → Str
  container : Val → Str

/-- `str(value)`: what `%{{ value %}}` writes (no escaping, report.py lines 232-239) -/
def Val.text (t : Texts) : Val → Str
  | .undefined => []
  | .none => "None".toList
  | .npnan => "nan".toList
  | .float x => t.float x
  | .str s => s
  | .obj s _ => s
  | .list l => t.container (.list l)
  | .dict d => t.container (.dict d)

/-- `bool(value)`. report/templates/report.tex lines 12, 25 and op.tex line 176. -/
noncomputable def Val.truthy : Val → Bool
  | .undefined => false
  | .none => false
  | .npnan => true
  | .float x => !Fl.eqb x (.fin 0)
  | .str s => !s.isEmpty
  | .obj _ b => b
  | .list l => !l.isEmpty
  | .dict d => !d.isEmpty

/-- the names of the methods of a dictionary: `d.name` is the method and not the entry.
report/templates/general_info.tex line 37 and op_header.tex lines 5, 11. -/
def dictMethods : List String := ["clear", "copy", "fromkeys", "get", "items", "keys", "move_to_end", "pop", "popitem",
  "setdefault", "update", "values"]

/-- `value.name` (`Environment.getattr` of jinja2): the attribute, else the entry, else undefined; an `UndefinedError` for an
undefined value.  Attributes of other objects than dictionaries are not modelled (the templates use none).
report/templates/op.tex lines 2-172. -/
def Val.attr (name : String) : Val → Except PyErr Val
  | .undefined => .error .undefinedError
  | .dict d => .ok (if name ∈ dictMethods then .obj [] true else (Dict.get? d name.toList).getD .undefined)
  | _ => .ok .undefined

/-- the value as the filters see it. report/report.py lines 243, 250. -/
def Val.toR : Val → Option (RVal ℝ)
  | .undefined => some .undefined
  | .none => some .none
  | .npnan => some .npnan
  | .float x => some (.float x)
  | .str s => some (.str s)
  | _ => Option.none

/-- `value|missingnumber(p)`, report.py lines 241-246; lists, dictionaries and other objects have no format `.<p>f` -/
noncomputable def missingNumber (p : ℕ) (v : Val) : Except PyErr Val :=
  match v.toR with
  | some r => do
    let s ← Report.missingNumber r p
    .ok (.str s)
  | Option.none => .error .typeError

/-- `'%.<p>f' % value`. report/templates/op.tex lines 55-172. -/
noncomputable def percent (p : ℕ) (v : Val) : Except PyErr Val :=
  match v.toR with
  | some r => do
    let s ← percentF p r
    .ok (.str s)
  | Option.none => .error .typeError

/-- `value|missing(default)`, report.py lines 248-252: `None` and `np.nan` are replaced, an undefined value is not -/
def missing (default : Val) : Val → Val
  | .none => default
  | .npnan => default
  | v => v

/-- the expressions of the templates.
report/templates/general_info.tex lines 3-53 and op.tex lines 2-235. -/
inductive Expr : Type
  | var (name : String)
  | lit (s : String)
  | attr (e : Expr) (name : String)
  | missing (e default : Expr)
  | missingNumber (e : Expr) (digits : ℕ)
  | percent (digits : ℕ) (e : Expr)
  deriving DecidableEq

/-- the variables: undefined unless set. report/report.py lines 309-310, 315-319. -/
abbrev Env := String → Val

/-- `for v in ..` sets the variable `v` in the body. report/templates/report.tex line 46. -/
def Env.set (env : Env) (name : String) (v : Val) : Env := fun n => if n = name then v else env n

/-- the value of an expression.
report/templates/general_info.tex lines 3-53 and op.tex lines 2-235. -/
noncomputable def eval (env : Env) : Expr → Except PyErr Val
  | .var name => .ok (env name)
  | .lit s => .ok (.str s.toList)
  | .attr e name => do
    let v ← eval env e
    v.attr name
  | .missing e d => do
    let v ← eval env e
    let x ← eval env d
    .ok (Jinja.missing x v)
  | .missingNumber e p => do
    let v ← eval env e
    Jinja.missingNumber p v
  | .percent p e => do
    let v ← eval env e
    Jinja.percent p v

/-- the conditions of the templates.
report/templates/general_info.tex lines 19, 24 and op.tex line 176. -/
inductive Cond : Type
  | isTrue (e : Expr)
  | isFalse (e : Expr)
  | eqStr (e : Expr) (s : String)

/-- `value == 'text'`. report/templates/general_info.tex lines 19, 24. -/
def Val.eqStr (s : Str) : Val → Bool
  | .str x => decide (x = s)
  | _ => false

/-- the value of a condition.
report/templates/general_info.tex lines 19, 24 and op.tex line 176. -/
noncomputable def evalCond (env : Env) : Cond → Except PyErr Bool
  | .isTrue e => do
    let v ← eval env e
    .ok v.truthy
  | .isFalse e => do
    let v ← eval env e
    .ok (!v.truthy)
  | .eqStr e s => do
    let v ← eval env e
    .ok (v.eqStr s.toList)

/-- the statements of the templates (`include` puts the statements of the other file in its place).
report/templates/report.tex lines 12-48. -/
inductive Node : Type
  | text (s : String)
  | out (e : Expr)
  | ite (c : Cond) (t e : List Node)
  | loop (name : String) (e : Expr) (body : List Node)
  | items (key value : String) (e : Expr) (body : List Node)

/-- the values of `for x in value`: the elements of a list, the keys of a dictionary, the letters of a text, nothing if
undefined; a `TypeError` for other values.
report/templates/report.tex line 46 and general_info.tex line 44. -/
def Val.elems : Val → Except PyErr (List Val)
  | .undefined => .ok []
  | .list l => .ok l
  | .dict d => .ok (d.map fun kv => .str kv.1)
  | .str s => .ok (s.map fun c => .str [c])
  | _ => .error .typeError

/-- `value.items()`: an `UndefinedError` unless the value is a dictionary.
report/templates/general_info.tex line 37 and op_header.tex lines 5, 11. -/
def Val.items : Val → Except PyErr (List (Str × Val))
  | .dict d => .ok d
  | _ => .error .undefinedError

/-- the texts of the runs of a loop, one after the other.
report/templates/report.tex lines 46-48. -/
def concatM {α : Type} (f : α → Except PyErr Str) : List α → Except PyErr Str
  | [] => .ok []
  | x :: l => do
    let a ← f x
    let b ← concatM f l
    .ok (a ++ b)

mutual
/-- the text of a statement. report/report.py lines 309, 315. -/
noncomputable def renderNode (t : Texts) (env : Env) : Node → Except PyErr Str
  | .text s => .ok s.toList
  | .out e => do
    let v ← eval env e
    .ok (v.text t)
  | .ite c a b => do
    let x ← evalCond env c
    if x then render t env a else render t env b
  | .loop name e body => do
    let v ← eval env e
    let l ← v.elems
    concatM (fun x => render t (env.set name x) body) l
  | .items key value e body => do
    let v ← eval env e
    let l ← v.items
    concatM (fun kv => render t ((env.set key (.str kv.1)).set value kv.2) body) l

/-- the text of a sequence of statements: `template.render(**env)`.
report/report.py lines 309, 315. -/
noncomputable def render (t : Texts) (env : Env) : List Node → Except PyErr Str
  | [] => .ok []
  | n :: l => do
    let a ← renderNode t env n
    let b ← render t env l
    .ok (a ++ b)
end

end Jinja
end Emva
