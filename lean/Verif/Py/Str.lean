import Mathlib.Data.List.Basic
import Mathlib.Data.Int.Notation
import Mathlib.Data.Nat.Notation

/-!
Python `str` as `List Char`, with the string methods the modelled code uses.
-/
set_option autoImplicit false
namespace Emva

/-- A python string, e.g. process/parser.py lines 217, 236. -/
abbrev Str := List Char

namespace Py

/-- `c.isspace()` (the characters `str.split()` and `str.strip()` treat as white space).
Used for process/parser.py lines 217, 236. -/
def isSpace (c : Char) : Bool :=
  let n := c.toNat
  (9 ≤ n && n ≤ 13) || (28 ≤ n && n ≤ 32) || n == 0x85 || n == 0xA0 || n == 0x1680 ||
    (0x2000 ≤ n && n ≤ 0x200A) || n == 0x2028 || n == 0x2029 || n == 0x202F || n == 0x205F ||
    n == 0x3000

/-- `s.strip()`. Used for process/parser.py lines 217, 236. -/
def strip (s : Str) : Str := ((s.dropWhile isSpace).reverse.dropWhile isSpace).reverse

/-- Loop of `s.split()`: `cur` is the word being collected.
Used for process/parser.py line 217. -/
def splitAux : Str → Str → List Str
  | cur, [] => if cur = [] then [] else [cur]
  | cur, c :: cs =>
    if isSpace c then (if cur = [] then splitAux [] cs else cur :: splitAux [] cs)
    else splitAux (cur ++ [c]) cs

/-- `s.split()`: maximal runs of non white space. Used for process/parser.py line 217. -/
def split (s : Str) : List Str := splitAux [] s

/-- `s.split(sep)` for a one-character separator: always at least one piece, empty pieces kept.
Used for process/parser.py line 83. -/
def splitOnChar (sep : Char) : Str → List Str
  | [] => [[]]
  | c :: cs =>
    if c = sep then [] :: splitOnChar sep cs
    else match splitOnChar sep cs with
      | [] => [[c]]
      | w :: ws => (c :: w) :: ws

/-- `s.replace(a, b)` for single characters. Used for process/parser.py lines 182-183, 200. -/
def replaceChar (a b : Char) (s : Str) : Str := s.map fun c => if c = a then b else c

/-- `s.startswith(p)`. Used for process/parser.py line 237. -/
def startsWith (s p : Str) : Bool := p.isPrefixOf s

/-- `s.endswith('/')` and friends. Used for process/parser.py line 83, in `os.path.join`. -/
def endsWithChar (s : Str) (c : Char) : Bool := s.getLast? == some c

/-- Universal newline translation done by `open(fname, 'r')`: `\r\n` and `\r` become `\n`.
Used for process/parser.py lines 227, 236. -/
def universalNewlines : Str → Str
  | [] => []
  | '\r' :: '\n' :: cs => '\n' :: universalNewlines cs
  | c :: cs => (if c = '\r' then '\n' else c) :: universalNewlines cs

/-- `f.readlines()` on the translated text: every line keeps its `'\n'`, a final line without
terminator is kept if it is not empty. Used for process/parser.py line 236. -/
def readlinesAux : Str → Str → List Str
  | cur, [] => if cur = [] then [] else [cur]
  | cur, c :: cs => if c = '\n' then (cur ++ ['\n']) :: readlinesAux [] cs
      else readlinesAux (cur ++ [c]) cs

/-- `open(fname, 'r').readlines()`. Used for process/parser.py line 236. -/
def readlines (s : Str) : List Str := readlinesAux [] (universalNewlines s)

/-- `'/'.join(parts)`. Used for process/parser.py line 82, in `os.path.normpath`. -/
def joinSlash : List Str → Str
  | [] => []
  | [w] => w
  | w :: ws => w ++ '/' :: joinSlash ws

/-- The loop of `posixpath.normpath` over the components; `init` is "path starts with `/`".
Used for process/parser.py line 82. -/
def normComps (init : Bool) : List Str → List Str → List Str
  | acc, [] => acc
  | acc, comp :: cs =>
    if comp = [] ∨ comp = ['.'] then normComps init acc cs
    else if comp ≠ ['.', '.'] ∨ (init = false ∧ acc = []) ∨ acc.getLast? = some ['.', '.'] then
      normComps init (acc ++ [comp]) cs
    else normComps init acc.dropLast cs

/-- `os.path.normpath` (posix). Used for process/parser.py line 82. -/
def normpath (p : Str) : Str :=
  if p = [] then ['.'] else
    let slashes : Str :=
      if startsWith p ['/'] then
        (if startsWith p ['/', '/'] && !startsWith p ['/', '/', '/'] then ['/', '/'] else ['/'])
      else []
    let q := slashes ++ joinSlash (normComps (startsWith p ['/']) [] (splitOnChar '/' p))
    if q = [] then ['.'] else q

/-- One step of `os.path.join` (posix). Used for process/parser.py line 83. -/
def join1 (path b : Str) : Str :=
  if startsWith b ['/'] then b
  else if path = [] ∨ endsWithChar path '/' = true then path ++ b
  else path ++ '/' :: b

/-- `os.path.join(path, *parts)` (posix).
Used for process/parser.py line 83, process/loader.py line 133. -/
def pathJoin (path : Str) (parts : List Str) : Str := parts.foldl join1 path

/-- `os.path.dirname` (posix): everything up to the last slash, trailing slashes removed unless the
head consists of slashes only. Used for process/parser.py line 232. -/
def dirname (p : Str) : Str :=
  let head := (p.reverse.dropWhile (· != '/')).reverse
  if head.all (· == '/') then head else (head.reverse.dropWhile (· == '/')).reverse

end Py
end Emva
