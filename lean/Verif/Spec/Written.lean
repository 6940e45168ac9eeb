import Verif.Model.Jinja

/-!
What is written for a value, and whether something is given (C92, C93); of the model only the type of the values is used.
-/
set_option autoImplicit false
namespace Emva
namespace SheetSpec
open Jinja

/-- what is written for a value: nothing for one that is missing, `None` and `nan` by name, texts as they are -/
def written (t : Texts) : Val → Str
  | .undefined => []
  | .none => ['N', 'o', 'n', 'e']
  | .npnan => ['n', 'a', 'n']
  | .float x => t.float x
  | .str s => s
  | .obj s _ => s
  | v => t.container v

/-- whether something is given: not missing, not `None` and not `False`, zero or empty -/
noncomputable def given : Val → Bool
  | .undefined => false
  | .none => false
  | .npnan => true
  | .float x => decide (x ≠ .fin 0)
  | .str s => decide (s ≠ [])
  | .obj _ b => b
  | .list l => decide (l.length ≠ 0)
  | .dict d => decide (d.length ≠ 0)

end SheetSpec
end Emva
