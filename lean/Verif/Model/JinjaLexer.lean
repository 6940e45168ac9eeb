import Verif.Model.Jinja

/-!
How jinja2 reads a template: the lexer (texts, `%{{ .. %}}`, `%{ .. %}` and `%{# .. %#}`, the delimiters of report/report.py
lines 232-239) and the parser of the statements and expressions that the templates use (report/templates).

The result is `none` for a `TemplateSyntaxError`, and for the parts of the language that are not modelled: other statements,
operators and filters, floats, escapes in literals, the sign `+` in delimiters, `raw` blocks, letters outside of ASCII in names.
-/
set_option autoImplicit false
namespace Emva
namespace Jinja
open Py

/-- `%{`, report/report.py line 233 -/
def blockStart : Str := ['%', '{']
/-- `%}`, report/report.py line 234 -/
def blockEnd : Str := ['%', '}']
/-- `%{{`, report/report.py line 235 -/
def variableStart : Str := ['%', '{', '{']
/-- `%}}`, report/report.py line 236 -/
def variableEnd : Str := ['%', '}', '}']
/-- `%{#`, report/report.py line 237 -/
def commentStart : Str := ['%', '{', '#']
/-- `%#}`, report/report.py line 238 -/
def commentEnd : Str := ['%', '#', '}']

/-- the rest of a text after a prefix, `none` if it does not start with it. report/report.py lines 233-238. -/
def afterPrefix : Str → Str → Option Str
  | [], s => some s
  | _ :: _, [] => none
  | p :: ps, c :: s => if p = c then afterPrefix ps s else none

/-- the three delimiters that end a text. report/report.py lines 233, 235, 237. -/
inductive Opening : Type
  | comment
  | var
  | block
  deriving DecidableEq

/-- the delimiter at the start of a text and what follows: the longer ones are tried first. report/report.py lines 233-237. -/
def opening (s : Str) : Option (Opening × Str) :=
  match afterPrefix commentStart s with
  | some r => some (.comment, r)
  | none =>
    match afterPrefix variableStart s with
    | some r => some (.var, r)
    | none =>
      match afterPrefix blockStart s with
      | some r => some (.block, r)
      | none => none

/-- the text up to the first delimiter, and what follows. report/report.py lines 232-239. -/
def splitTag : Str → Str × Option (Opening × Str)
  | [] => ([], none)
  | c :: r =>
    match opening (c :: r) with
    | some o => ([], some o)
    | none =>
      let p := splitTag r
      (c :: p.1, p.2)

/-- `text.rstrip()`. report/templates/general_info.tex lines 19, 24, 29. -/
def rstrip (s : Str) : Str := (s.reverse.dropWhile isSpace).reverse

/-- The tokens between two delimiters. report/templates/op.tex lines 2-172. -/
inductive Token : Type
  | name (s : Str)
  | int (n : ℕ)
  | str (s : Str)
  | op (s : Str)
  deriving DecidableEq

/-- the first letter of a name. report/templates/op.tex lines 2-172. -/
def isNameStart (c : Char) : Bool :=
  let n := c.toNat
  (65 ≤ n && n ≤ 90) || (97 ≤ n && n ≤ 122) || n == 95

/-- the letters of a name. report/templates/op.tex lines 2-172. -/
def isNameChar (c : Char) : Bool := isNameStart c || isDigit c

/-- the operators of one letter that the templates use. report/templates/op.tex lines 24, 158 and op_header.tex line 5. -/
def opChars : List Char := ['.', '|', '(', ')', ',', '%']

/-- one token, which starts with `c`, and the rest. report/templates/op.tex lines 2-172 and general_info.tex lines 3-53. -/
def lexTok (c : Char) (r : Str) : Option (Token × Str) :=
  if isNameStart c then some (.name (c :: r.takeWhile isNameChar), r.dropWhile isNameChar)
  else if isDigit c then
    let ds := r.takeWhile isDigit
    let rest := r.dropWhile isDigit
    -- `03` is no integer, `3.5` a float, `3a` an error
    if c = '0' && ds ≠ [] then none
    else if (rest.headD ' ') = '.' || isNameStart (rest.headD ' ') then none
    else some (.int (digitsVal (c :: ds)), rest)
  else if c = '\'' || c = '"' then
    let body := r.takeWhile (· ≠ c)
    match r.dropWhile (· ≠ c) with
    | [] => none
    | _ :: rest => if '\\' ∈ body then none else some (.str body, rest)
  else if c = '=' then
    match r with
    | '=' :: rest => some (.op ['=', '='], rest)
    | _ => none
  else if c ∈ opChars then some (.op [c], r)
  else none

/-- The tokens up to the closing delimiter, whether the delimiter has a minus sign, and the rest.  The first argument bounds the
number of steps.  report/report.py lines 234, 236 and report/templates/op_header.tex line 5. -/
def lexTag (close : Str) : Str → Str → Option (List Token × Bool × Str)
  | [], _ => none
  | _ :: n, s =>
    match afterPrefix ('-' :: close) s with
    | some r => some ([], true, r)
    | none =>
      match afterPrefix close s with
      | some r => some ([], false, r)
      | none =>
        match s with
        | [] => none
        | c :: r =>
          if isSpace c then lexTag close n r
          else
            match lexTok c r with
            | none => none
            | some (t, r') =>
              match lexTag close n r' with
              | none => none
              | some (ts, x) => some (t :: ts, x)

/-- The rest after a comment and whether its end has a minus sign. report/report.py line 238. -/
def afterComment : Str → Option (Bool × Str)
  | [] => none
  | c :: r =>
    match afterPrefix ('-' :: commentEnd) (c :: r) with
    | some x => some (true, x)
    | none =>
      match afterPrefix commentEnd (c :: r) with
      | some x => some (false, x)
      | none => afterComment r

/-- What a template consists of: texts, outputs and statements. report/templates/report.tex lines 1-50. -/
inductive Piece : Type
  | text (s : Str)
  | out (l : List Token)
  | stmt (l : List Token)
  deriving DecidableEq

/-- an empty text gives nothing. report/templates/op.tex line 4. -/
def data (s : Str) : List Piece := if s = [] then [] else [.text s]

/-- the minus sign behind an opening delimiter. report/templates/general_info.tex lines 19, 24, 29. -/
def minus : Str → Bool × Str
  | '-' :: r => (true, r)
  | r => (false, r)

/-- The pieces of a template; the first argument bounds the number of steps. report/report.py lines 232-239. -/
def lex : Str → Str → Option (List Piece)
  | [], _ => none
  | _ :: n, s =>
    match splitTag s with
    | (a, none) => some (data a)
    | (a, some (o, r)) =>
      let m := minus r
      let a := if m.1 then rstrip a else a
      match o with
      | .comment =>
        match afterComment m.2 with
        | none => none
        | some (st, r') =>
          match lex n (if st then r'.dropWhile isSpace else r') with
          | none => none
          | some l => some (data a ++ l)
      | .var =>
        match lexTag variableEnd (' ' :: m.2) m.2 with
        | none => none
        | some (ts, st, r') =>
          match lex n (if st then r'.dropWhile isSpace else r') with
          | none => none
          | some l => some (data a ++ .out ts :: l)
      | .block =>
        match lexTag blockEnd (' ' :: m.2) m.2 with
        | none => none
        | some (ts, st, r') =>
          match lex n (if st then r'.dropWhile isSpace else r') with
          | none => none
          | some l => some (data a ++ .stmt ts :: l)

/-- names with a meaning of their own. report/templates/op.tex line 176. -/
def reserved : List Str := ["and".toList, "else".toList, "false".toList, "False".toList, "if".toList, "in".toList, "is".toList,
  "none".toList, "None".toList, "not".toList, "or".toList, "true".toList, "True".toList]

/-- `.a.b.c` behind an expression. report/templates/op.tex lines 2-172. -/
def attrs : Expr → List Token → Expr × List Token
  | e, .op ['.'] :: .name n :: l => attrs (.attr e (String.ofList n)) l
  | e, l => (e, l)

/-- `x.a.b.c` and the rest. report/templates/op.tex lines 2-172. -/
def path : List Token → Option (Expr × List Token)
  | .name n :: l => if n ∈ reserved then none else some (attrs (.var (String.ofList n)) l)
  | _ => none

/-- the digits of the format `%.<p>f`. report/templates/op.tex lines 24-153. -/
def formatDigits : Str → Option ℕ
  | '%' :: '.' :: r =>
    if r.dropWhile isDigit = ['f'] && r.takeWhile isDigit ≠ [] then some (digitsVal (r.takeWhile isDigit)) else none
  | _ => none

/-- An expression: a format, a filter or a name with attributes.
report/templates/op.tex lines 2, 24, 158 and general_info.tex line 53; the default of the filter is in report.py line 248. -/
def parseExpr : List Token → Option Expr
  | .str f :: .op ['%'] :: l =>
    match formatDigits f, path l with
    | some d, some (e, []) => some (.percent d e)
    | _, _ => none
  | l =>
    match path l with
    | some (e, []) => some e
    | some (e, [.op ['|'], .name f]) => if f = "missing".toList then some (.missing e (.lit "-")) else none
    | some (e, .op ['|'] :: .name f :: .op ['('] :: r) =>
      if f = "missing".toList then
        match path r with
        | some (d, [.op [')']]) => some (.missing e d)
        | _ => none
      else if f = "missingnumber".toList then
        match r with
        | [.int d, .op [')']] => some (.missingNumber e d)
        | _ => none
      else none
    | _ => none

/-- The condition of an `if`. report/templates/general_info.tex lines 19, 24, report.tex line 12 and op.tex line 176. -/
def parseCond : List Token → Option Cond
  | .name n :: l =>
    if n = "not".toList then
      match path l with
      | some (e, []) => some (.isFalse e)
      | _ => none
    else
      match path (.name n :: l) with
      | some (e, []) => some (.isTrue e)
      | some (e, [.op ['=', '='], .str s]) => some (.eqStr e (String.ofList s))
      | _ => none
  | _ => none

/-- The head of a `for`: its node without the body. report/templates/report.tex line 46 and op_header.tex line 5. -/
def parseFor : List Token → Option (List Node → Node)
  | .name x :: .name i :: l =>
    if i = "in".toList ∧ x ∉ reserved then
      match path l with
      | some (e, []) => some (.loop (String.ofList x) e)
      | _ => none
    else none
  | .name k :: .op [','] :: .name v :: .name i :: l =>
    if i = "in".toList ∧ k ∉ reserved ∧ v ∉ reserved then
      match path l with
      | some (.attr e "items", [.op ['('], .op [')']]) => some (.items (String.ofList k) (String.ofList v) e)
      | _ => none
    else none
  | _ => none

/-- the statements that end a body. report/templates/report.tex lines 14, 48 and general_info.tex line 24. -/
def closing : List Str := ["elif".toList, "else".toList, "endif".toList, "endfor".toList]

mutual
/-- The nodes up to the end or to a statement that ends a body, and the rest; `inc` gives the nodes of other templates.  The
first argument bounds the number of steps. report/templates/report.tex lines 1-50. -/
def parse (inc : Str → Option (List Node)) : List Unit → List Piece → Option (List Node × List Piece)
  | [], _ => none
  | _ :: n, l =>
    match l with
    | [] => some ([], [])
    | .text s :: l =>
      match parse inc n l with
      | none => none
      | some (ns, r) => some (.text (String.ofList s) :: ns, r)
    | .out ts :: l =>
      match parseExpr ts, parse inc n l with
      | some e, some (ns, r) => some (.out e :: ns, r)
      | _, _ => none
    | .stmt [] :: _ => none
    | .stmt (.name w :: ts) :: l =>
      if w ∈ closing then some ([], .stmt (.name w :: ts) :: l)
      else if w = "include".toList then
        match ts with
        | [.str f] =>
          match inc f, parse inc n l with
          | some a, some (ns, r) => some (a ++ ns, r)
          | _, _ => none
        | _ => none
      else if w = "for".toList then
        match parseFor ts, parse inc n l with
        | some f, some (body, .stmt [.name e] :: r) =>
          if e = "endfor".toList then
            match parse inc n r with
            | none => none
            | some (ns, r') => some (f body :: ns, r')
          else none
        | _, _ => none
      else if w = "if".toList then
        match parseIf inc n ts l with
        | none => none
        | some (x, r) =>
          match parse inc n r with
          | none => none
          | some (ns, r') => some (x :: ns, r')
      else none
    | .stmt (_ :: _) :: _ => none

/-- An `if` after its first word: condition, body, and `elif`, `else` or `endif`.
report/templates/general_info.tex lines 19-29. -/
def parseIf (inc : Str → Option (List Node)) : List Unit → List Token → List Piece → Option (Node × List Piece)
  | [], _, _ => none
  | _ :: n, ts, l =>
    match parseCond ts, parse inc n l with
    | some c, some (a, .stmt (.name w :: ts') :: r) =>
      if w = "elif".toList then
        match parseIf inc n ts' r with
        | none => none
        | some (x, r') => some (.ite c a [x], r')
      else if ts' ≠ [] then none
      else if w = "endif".toList then some (.ite c a [], r)
      else if w = "else".toList then
        match parse inc n r with
        | some (b, .stmt [.name e] :: r') => if e = "endif".toList then some (.ite c a b, r') else none
        | _ => none
      else none
    | _, _ => none
end

/-- one line end at the end of the file is dropped. report/report.py lines 232-239 (`keep_trailing_newline` is not set). -/
def chop (s : Str) : Str := if s.getLast? = some '\n' then s.dropLast else s

/-- `renderer.get_template(name)`: the nodes of a template from the text of its file. report/report.py lines 308, 314. -/
def template (inc : Str → Option (List Node)) (s : Str) : Option (List Node) :=
  let s := chop (universalNewlines s)
  match lex (' ' :: s) s with
  | none => none
  | some l =>
    match parse inc (() :: l.flatMap fun _ => [(), ()]) l with
    | some (ns, []) => some ns
    | _ => none

end Jinja
end Emva
