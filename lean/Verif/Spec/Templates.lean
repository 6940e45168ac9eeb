import Verif.Model.JinjaLexer

/-!
Templates as they are written: what a text with delimiters says, independently of how it is taken apart.
-/
set_option autoImplicit false
namespace Emva
namespace Spec
open Jinja Py

/-- a token as it is written; `q` is the quotation mark of a literal -/
def writeTok (q : Char) : Token → Str
  | .name s => s
  | .int n => fmtNat n
  | .str s => q :: (s ++ [q])
  | .op s => s

/-- names, literals and operators that can be written -/
def TokOK (q : Char) : Token → Prop
  | .name s => ∃ c r, s = c :: r ∧ isNameStart c = true ∧ ∀ x ∈ r, isNameChar x = true
  | .int _ => True
  | .str s => (q = '\'' ∨ q = '"') ∧ q ∉ s ∧ '\\' ∉ s
  | .op s => s = ['=', '='] ∨ ∃ c ∈ opChars, s = [c]

/-- a token with the white space before it -/
structure Item where
  space : Str
  quote : Char
  tok : Token

/-- white space only -/
def Blanks (s : Str) : Prop := ∀ c ∈ s, isSpace c = true

/-- names and numbers do not follow each other directly, nor a point a number -/
def Touch : Token → Token → Prop
  | .name _, .name _ => False
  | .name _, .int _ => False
  | .int _, .name _ => False
  | .int _, .int _ => False
  | .int _, .op s => s ≠ ['.']
  | _, _ => True

/-- tokens with white space between them where it is needed -/
def Spaced : List Item → Prop
  | [] => True
  | [a] => Blanks a.space ∧ TokOK a.quote a.tok
  | a :: b :: l => Blanks a.space ∧ TokOK a.quote a.tok ∧ (b.space ≠ [] ∨ Touch a.tok b.tok) ∧ Spaced (b :: l)

/-- the tokens as they are written -/
def writeItems (l : List Item) : Str := l.flatMap fun a => a.space ++ writeTok a.quote a.tok

/-- what is between two texts: an output, a statement, or a comment, with or without minus signs -/
inductive Tag : Type
  | tag (var : Bool) (left : Bool) (items : List Item) (space : Str) (right : Bool)
  | comment (left : Bool) (body : Str) (right : Bool)

/-- a minus sign -/
def sign (b : Bool) : Str := if b then ['-'] else []

/-- a tag as it is written -/
def Tag.write : Tag → Str
  | .tag true l items sp r => "%{{".toList ++ sign l ++ writeItems items ++ sp ++ sign r ++ "%}}".toList
  | .tag false l items sp r => "%{".toList ++ sign l ++ writeItems items ++ sp ++ sign r ++ "%}".toList
  | .comment l body r => "%{#".toList ++ sign l ++ body ++ sign r ++ "%#}".toList

/-- the minus sign of the opening delimiter -/
def Tag.left : Tag → Bool
  | .tag _ l _ _ _ => l
  | .comment l _ _ => l

/-- the minus sign of the closing delimiter -/
def Tag.right : Tag → Bool
  | .tag _ _ _ _ r => r
  | .comment _ _ r => r

/-- a tag is not empty; a comment does not contain its end, and the minus signs are those of the delimiters -/
def Tag.OK : Tag → Prop
  | .tag _ _ items sp _ => items ≠ [] ∧ Spaced items ∧ Blanks sp
  | .comment l body r => ¬ "%#}".toList <:+: body ∧ (l = false → body.head? ≠ some '-') ∧ (r = false → body.getLast? ≠ some '-') ∧
      body ≠ []

/-- what a tag says: its tokens, nothing for a comment -/
def Tag.pieces : Tag → List Piece
  | .tag true _ items _ _ => [.out (items.map (·.tok))]
  | .tag false _ items _ _ => [.stmt (items.map (·.tok))]
  | .comment _ _ _ => []

/-- a text, then tags and texts in turn -/
def source (t : Str) (l : List (Tag × Str)) : Str := t ++ l.flatMap fun p => p.1.write ++ p.2

/-- a text between two tags: the white space next to a minus sign is dropped -/
def trim (left right : Bool) (s : Str) : Str :=
  let s := if left then s.dropWhile isSpace else s
  if right then (s.reverse.dropWhile isSpace).reverse else s

/-- a text, if it is not empty -/
def textPiece (s : Str) : List Piece := if s = [] then [] else [.text s]

/-- what a template says; `b`: there is a minus sign before the first text -/
def contents (b : Bool) (t : Str) : List (Tag × Str) → List Piece
  | [] => textPiece (trim b false t)
  | (g, s) :: l => textPiece (trim b g.left t) ++ g.pieces ++ contents g.right s l

/-- no text contains a delimiter, and the tags can be read -/
def LayoutOK (t : Str) (l : List (Tag × Str)) : Prop :=
  ¬ "%{".toList <:+: t ∧ ∀ p ∈ l, p.1.OK ∧ ¬ "%{".toList <:+: p.2

/-- a name with attributes, which is no word of the language -/
inductive Path : Expr → List Token → Prop
  | var (n : String) (h : n.toList ∉ reserved) : Path (.var n) [.name n.toList]
  | attr (e : Expr) (l : List Token) (n : String) (h : Path e l) : Path (.attr e n) (l ++ [.op ['.'], .name n.toList])

/-- expressions and their tokens -/
inductive ReadsExpr : Expr → List Token → Prop
  | path (e : Expr) (l : List Token) (h : Path e l) : ReadsExpr e l
  | percent (d : ℕ) (e : Expr) (l : List Token) (h : Path e l) :
      ReadsExpr (.percent d e) (.str ("%.".toList ++ fmtNat d ++ "f".toList) :: .op ['%'] :: l)
  | missingNumber (d : ℕ) (e : Expr) (l : List Token) (h : Path e l) : ReadsExpr (.missingNumber e d)
      (l ++ [.op ['|'], .name "missingnumber".toList, .op ['('], .int d, .op [')']])
  | dash (e : Expr) (l : List Token) (h : Path e l) : ReadsExpr (.missing e (.lit "-")) (l ++ [.op ['|'], .name "missing".toList])
  | missing (e d : Expr) (l m : List Token) (h : Path e l) (hd : Path d m) : ReadsExpr (.missing e d)
      (l ++ [.op ['|'], .name "missing".toList, .op ['(']] ++ m ++ [.op [')']])

/-- conditions and their tokens -/
inductive ReadsCond : Cond → List Token → Prop
  | isTrue (e : Expr) (l : List Token) (h : Path e l) : ReadsCond (.isTrue e) l
  | isFalse (e : Expr) (l : List Token) (h : Path e l) : ReadsCond (.isFalse e) (.name "not".toList :: l)
  | eqStr (e : Expr) (l : List Token) (s : String) (h : Path e l) : ReadsCond (.eqStr e s) (l ++ [.op ['=', '='], .str s.toList])

mutual
/-- the statements that a sequence of pieces stands for; `inc` are the statements of other templates -/
inductive Reads (inc : Str → Option (List Node)) : List Node → List Piece → Prop
  | nil : Reads inc [] []
  | text (s : String) (l : List Node) (p : List Piece) (h : Reads inc l p) : Reads inc (.text s :: l) (.text s.toList :: p)
  | out (e : Expr) (ts : List Token) (l : List Node) (p : List Piece) (he : ReadsExpr e ts) (h : Reads inc l p) :
      Reads inc (.out e :: l) (.out ts :: p)
  | include (f : Str) (a l : List Node) (p : List Piece) (hf : inc f = some a) (h : Reads inc l p) :
      Reads inc (a ++ l) (.stmt [.name "include".toList, .str f] :: p)
  | loop (x : String) (e : Expr) (ts : List Token) (body l : List Node) (p q : List Piece) (hx : x.toList ∉ reserved) (he : Path e ts)
      (hb : Reads inc body p) (h : Reads inc l q) : Reads inc (.loop x e body :: l)
        (.stmt (.name "for".toList :: .name x.toList :: .name "in".toList :: ts) :: (p ++ .stmt [.name "endfor".toList] :: q))
  | items (k v : String) (e : Expr) (ts : List Token) (body l : List Node) (p q : List Piece) (hk : k.toList ∉ reserved)
      (hv : v.toList ∉ reserved) (he : Path e ts) (hb : Reads inc body p) (h : Reads inc l q) : Reads inc (.items k v e body :: l)
        (.stmt (.name "for".toList :: .name k.toList :: .op [','] :: .name v.toList :: .name "in".toList ::
            (ts ++ [.op ['.'], .name "items".toList, .op ['('], .op [')']])) :: (p ++ .stmt [.name "endfor".toList] :: q))
  | cond (n : Node) (ts : List Token) (l : List Node) (p q : List Piece) (hn : ReadsIf inc n ts p) (h : Reads inc l q) :
      Reads inc (n :: l) (.stmt (.name "if".toList :: ts) :: (p ++ q))

/-- an `if` from its condition to its `endif` -/
inductive ReadsIf (inc : Str → Option (List Node)) : Node → List Token → List Piece → Prop
  | plain (c : Cond) (ts : List Token) (a : List Node) (p : List Piece) (hc : ReadsCond c ts) (ha : Reads inc a p) :
      ReadsIf inc (.ite c a []) ts (p ++ [.stmt [.name "endif".toList]])
  | elif (c : Cond) (ts us : List Token) (a : List Node) (x : Node) (p q : List Piece) (hc : ReadsCond c ts) (ha : Reads inc a p)
      (hx : ReadsIf inc x us q) : ReadsIf inc (.ite c a [x]) ts (p ++ .stmt (.name "elif".toList :: us) :: q)
  | else (c : Cond) (ts : List Token) (a b : List Node) (p q : List Piece) (hc : ReadsCond c ts) (ha : Reads inc a p)
      (hb : Reads inc b q) : ReadsIf inc (.ite c a b) ts
        (p ++ .stmt [.name "else".toList] :: (q ++ [.stmt [.name "endif".toList]]))
end

end Spec
end Emva
