import Lean.Elab.Tactic.Basic
import Lean.Elab.Term

/-!
`chars! "text"` is the list of the letters of a text, written out (the kernel computes with lists faster than with strings), and
`kernel_rfl` proves an equation that holds by computation: the term is `Eq.refl`, checked by the kernel.
-/
set_option autoImplicit false
namespace Emva

open Lean Elab in
/-- the letters of a literal, in pieces of a hundred letters -/
elab "chars! " s:str : term => do
  let rec go (n : Nat) (l : List Char) : MetaM Expr := match n with
    | 0 => return toExpr l
    | n + 1 => if l.length ≤ 100 then return toExpr l else do Meta.mkAppM ``HAppend.hAppend #[toExpr (l.take 100), ← go n (l.drop 100)]
  go s.getString.length s.getString.toList

open Lean Elab Tactic Meta in
/-- an equation by computation, left to the kernel -/
elab "kernel_rfl" : tactic => do
  let g ← getMainGoal
  let some (_, lhs, _) := (← instantiateMVars (← g.getType)).consumeMData.eq? | throwError "not an equation"
  g.assign (← mkEqRefl lhs)

end Emva
