import Verif.Model.Info

/-!
Specification of the documentation tags and of the grouping by section.
-/
set_option autoImplicit false
namespace Emva
namespace Spec
open Xml Info

/-- a line of white space -/
def Blank (l : Str) : Prop := ∀ c ∈ l, Py.isSpace c = true

/-- a line that starts (after white space) with the directive -/
def IsDirective (l : Str) : Prop := ∃ r, Py.strip l = directive ++ r

/-- line `i` belongs to an emva1288 block: it is not blank and no directive, there is a directive above
it, and no blank line in between -/
def InBlock (ls : List Str) (i : ℕ) : Prop :=
  ∃ l, ls[i]? = some l ∧ ¬ Blank l ∧ ¬ IsDirective l ∧
    ∃ j d, j < i ∧ ls[j]? = some d ∧ IsDirective d ∧ ∀ m x, j < m → m < i → ls[m]? = some x → ¬ Blank x

/-- `s` with its white space removed at both ends is `t`, not empty -/
def Trimmed (s t : Str) : Prop := Py.strip s = t ∧ t ≠ []

/-- the line has exactly two non-blank parts among the first three separated by colons (the third part
keeps its colons), the tag and the value -/
def TagLine (l tag val : Str) : Prop :=
  (∃ a b, l = a ++ ':' :: b ∧ ':' ∉ a ∧ ':' ∉ b ∧ Trimmed a tag ∧ Trimmed b val) ∨
  (∃ a b c, l = a ++ ':' :: b ++ ':' :: c ∧ ':' ∉ a ∧ ':' ∉ b ∧
    ((Blank a ∧ Trimmed b tag ∧ Trimmed c val) ∨ (Blank b ∧ Trimmed a tag ∧ Trimmed c val) ∨
     (Blank c ∧ Trimmed a tag ∧ Trimmed b val)))

/-- line `i` of a block gives the key `k` the value `v` -/
def Gives (lower : Str → Str) (ls : List Str) (i : ℕ) (k v : Str) : Prop :=
  InBlock ls i ∧ ∃ l tag, ls[i]? = some l ∧ TagLine (Py.strip l) tag v ∧ k = lower tag

/-- the last line that gives the key `k` gives the value `v` -/
def LastGives (lower : Str → Str) (ls : List Str) (k v : Str) : Prop :=
  ∃ i, Gives lower ls i k v ∧ ∀ j w, i < j → ¬ Gives lower ls j k w

/-- `s` cut into lines: joined by line separators (`\r\n` is one) they give `s`; the last line has no
separator only if it is not empty -/
inductive IsLines : Str → List Str → Prop
  | nil : IsLines [] []
  | last (l : Str) : l ≠ [] → (∀ c ∈ l, isLineSep c = false) → IsLines l [l]
  | crlf (l s : Str) (ls : List Str) : (∀ c ∈ l, isLineSep c = false) → IsLines s ls →
      IsLines (l ++ '\r' :: '\n' :: s) (l :: ls)
  | sep (l s : Str) (c : Char) (ls : List Str) : (∀ c ∈ l, isLineSep c = false) → isLineSep c = true →
      ¬(c = '\r' ∧ ∃ t, s = '\n' :: t) → IsLines s ls → IsLines (l ++ c :: s) (l :: ls)

end Spec
end Emva
