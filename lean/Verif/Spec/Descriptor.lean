import Verif.Py.Str
import Verif.Py.Dict

/-!
What an EMVA1288 descriptor text means, stated without reference to the parser:
the content lines of a text, the grammar of statement sequences, and the data set described.
-/
set_option autoImplicit false
namespace Emva.Spec
open Emva.Py

/-- The words of a string: the non-empty pieces between white space characters. -/
def words (s : Str) : List Str := (s.splitOnP isSpace).filter (· ≠ [])

/-- The token lines of a text: it is cut at every line end (CR or LF), every line is cut into
words; empty lines and lines whose first word starts with `#` are dropped. -/
def content (text : Str) : List (List Str) :=
  ((text.splitOnP fun c => c = '\n' ∨ c = '\r').map words).filter fun l =>
    match l with
    | [] => false
    | w :: _ => w.head? ≠ some '#'

/-- A statement of a descriptor. -/
inductive Stmt (K : Type)
  | version (t : Str)
  | format (bits width height : ℤ)
  | series (exposure photons : K) (names : List Str)
  | other

/-- "the next line is an image line" -/
def nextIsImage (ls : List (List Str)) : Prop := ∃ l, ls.head? = some l ∧ l.head? = some ['i']

/-- The documented grammar.  A series is a header followed by at least two image lines, and takes all
the image lines that follow.  Unknown commands are skipped. -/
inductive Grammar {K : Type} (pf : Str → Option K) (pi : Str → Option ℤ) (zero : K) :
    List (List Str) → List (Stmt K) → Prop
  | nil : Grammar pf pi zero [] []
  | version {t more ls ss} : Grammar pf pi zero ls ss →
      Grammar pf pi zero ((['v'] :: t :: more) :: ls) (.version t :: ss)
  | format {a b c x y z ls ss} : pi a = some x → pi b = some y → pi c = some z →
      Grammar pf pi zero ls ss →
      Grammar pf pi zero ([['n'], a, b, c] :: ls) (.format x y z :: ss)
  | bright {e p x y names ls ss} : pf (replaceChar ',' '.' e) = some x →
      pf (replaceChar ',' '.' p) = some y → 2 ≤ names.length → ¬ nextIsImage ls →
      Grammar pf pi zero ls ss →
      Grammar pf pi zero ([['b'], e, p] :: (names.map (fun n => [['i'], n]) ++ ls))
        (.series x y names :: ss)
  | dark {e x names ls ss} : pf (replaceChar ',' '.' e) = some x → 2 ≤ names.length →
      ¬ nextIsImage ls → Grammar pf pi zero ls ss →
      Grammar pf pi zero ([['d'], e] :: (names.map (fun n => [['i'], n]) ++ ls))
        (.series x zero names :: ss)
  | other {c t more ls ss} : c ∉ [['v'], ['n'], ['b'], ['d']] → Grammar pf pi zero ls ss →
      Grammar pf pi zero ((c :: t :: more) :: ls) (.other :: ss)

variable {K : Type}

/-- The formats declared. -/
def formats (ss : List (Stmt K)) : List (ℤ × ℤ × ℤ) :=
  ss.filterMap fun | .format x y z => some (x, y, z) | _ => none

/-- The versions declared. -/
def versions (ss : List (Stmt K)) : List Str :=
  ss.filterMap fun | .version t => some t | _ => none

/-- The series described, in file order. -/
def seriesOf (ss : List (Stmt K)) : List (K × K × List Str) :=
  ss.filterMap fun | .series e p n => some (e, p, n) | _ => none

/-- Two series collide when both are temporal (2 images) or both are not, and they have the same
exposure and photon count. -/
def Collide (s t : K × K × List Str) : Prop :=
  (s.2.2.length = 2 ↔ t.2.2.length = 2) ∧ s.1 = t.1 ∧ s.2.1 = t.2.1

/-- At most one format line and no two colliding series. -/
def Consistent (ss : List (Stmt K)) : Prop :=
  (formats ss).length ≤ 1 ∧ (seriesOf ss).Pairwise fun s t => ¬ Collide s t

end Emva.Spec
