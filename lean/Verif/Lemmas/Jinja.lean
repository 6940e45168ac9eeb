import Verif.Model.ReportText
import Verif.Lemmas.Written

/-!
Lemmas about rendering: sequences, parts of a sequence, finding statements in a template.
-/
set_option autoImplicit false
namespace Emva
namespace Jinja
open SheetSpec (written given text_eq truthy_eq)
variable {t : Texts} {env : Env}

@[simp] theorem render_nil : render t env [] = .ok [] := by rw [render]

theorem render_cons (n : Node) (l : List Node) : render t env (n :: l) = (do
    let a ← renderNode t env n
    let b ← render t env l
    .ok (a ++ b)) := by rw [render]

theorem render_cons_ok {n : Node} {l : List Node} {s : Str} : render t env (n :: l) = .ok s ↔
    ∃ a b, renderNode t env n = .ok a ∧ render t env l = .ok b ∧ s = a ++ b := by
  rw [render_cons]
  rcases renderNode t env n with e | a
  · simp [bind, Except.bind]
  · rcases render t env l with e | b
    · simp [bind, Except.bind]
    · simp only [bind, Except.bind, Except.ok.injEq]
      constructor
      · rintro rfl; exact ⟨_, _, rfl, rfl, rfl⟩
      · rintro ⟨_, _, rfl, rfl, rfl⟩; rfl

theorem render_append_ok {l m : List Node} {s : Str} : render t env (l ++ m) = .ok s ↔
    ∃ a b, render t env l = .ok a ∧ render t env m = .ok b ∧ s = a ++ b := by
  induction l generalizing s with
  | nil => simp
  | cons n l ih =>
    rw [List.cons_append, render_cons_ok]
    simp only [render_cons_ok, ih]
    constructor
    · rintro ⟨a, _, h1, ⟨b, c, h2, h3, rfl⟩, rfl⟩
      exact ⟨a ++ b, c, ⟨a, b, h1, h2, rfl⟩, h3, by simp⟩
    · rintro ⟨_, c, ⟨a, b, h1, h2, rfl⟩, h3, rfl⟩
      exact ⟨a, b ++ c, h1, ⟨b, c, h2, h3, rfl⟩, by simp⟩

theorem renderNode_text (s : String) : renderNode t env (.text s) = .ok s.toList := by rw [renderNode]

theorem renderNode_out_ok {e : Expr} {s : Str} : renderNode t env (.out e) = .ok s ↔ ∃ v, eval env e = .ok v ∧ s = written t v := by
  rw [renderNode]
  rcases eval env e with x | v
  · simp [bind, Except.bind]
  · simp [bind, Except.bind, eq_comm, text_eq]

theorem renderNode_ite_ok {c : Cond} {a b : List Node} {s : Str} : renderNode t env (.ite c a b) = .ok s ↔
    (evalCond env c = .ok true ∧ render t env a = .ok s) ∨ (evalCond env c = .ok false ∧ render t env b = .ok s) := by
  rw [renderNode]
  rcases evalCond env c with x | v
  · simp [bind, Except.bind]
  · cases v <;> simp [bind, Except.bind]

theorem renderNode_loop_ok {name : String} {e : Expr} {body : List Node} {s : Str} :
    renderNode t env (.loop name e body) = .ok s ↔
    ∃ v l, eval env e = .ok v ∧ v.elems = .ok l ∧ concatM (fun x => render t (env.set name x) body) l = .ok s := by
  rw [renderNode]
  rcases eval env e with x | v
  · simp [bind, Except.bind]
  · rcases h : v.elems with x | l <;> simp [bind, Except.bind, h]

theorem renderNode_items_ok {key value : String} {e : Expr} {body : List Node} {s : Str} :
    renderNode t env (.items key value e body) = .ok s ↔
    ∃ v l, eval env e = .ok v ∧ v.items = .ok l ∧
      concatM (fun kv : Str × Val => render t ((env.set key (.str kv.1)).set value kv.2) body) l = .ok s := by
  rw [renderNode]
  rcases eval env e with x | v
  · simp [bind, Except.bind]
  · rcases h : v.items with x | l <;> simp [bind, Except.bind, h]

theorem concatM_ok {α : Type} {f : α → Except PyErr Str} {l : List α} {s : Str} : concatM f l = .ok s ↔
    ∃ ss : List Str, l.map f = ss.map .ok ∧ s = ss.flatten := by
  induction l generalizing s with
  | nil =>
    simp only [concatM, Except.ok.injEq, List.map_nil]
    constructor
    · rintro rfl; exact ⟨[], rfl, rfl⟩
    · rintro ⟨ss, h, rfl⟩
      cases ss with
      | nil => rfl
      | cons a b => simp at h
  | cons x l ih =>
    rw [concatM]
    rcases hx : f x with e | a
    · simp only [bind, Except.bind, reduceCtorEq, List.map_cons, hx, false_iff]
      rintro ⟨ss, h, -⟩
      cases ss with
      | nil => simp at h
      | cons a b => simp at h
    · rcases hl : concatM f l with e | b
      · simp only [bind, Except.bind, reduceCtorEq, List.map_cons, hx, false_iff]
        rintro ⟨ss, h, -⟩
        cases ss with
        | nil => simp at h
        | cons c d =>
          simp only [List.map_cons, List.cons.injEq, Except.ok.injEq] at h
          have := ih.2 ⟨d, h.2, rfl⟩
          rw [hl] at this
          cases this
      · simp only [bind, Except.bind, Except.ok.injEq, List.map_cons, hx]
        obtain ⟨ss, h1, h2⟩ := ih.1 hl
        constructor
        · rintro rfl
          exact ⟨a :: ss, by simp [h1], by simp [h2]⟩
        · rintro ⟨ss', h, rfl⟩
          cases ss' with
          | nil => simp at h
          | cons c d =>
            simp only [List.map_cons, List.cons.injEq, Except.ok.injEq] at h
            have := ih.2 ⟨d, h.2, rfl⟩
            rw [hl, Except.ok.injEq] at this
            simp [h.1, this]

/-- a statement without parts -/
inductive Leaf : Type
  | text (s : String)
  | out (e : Expr)
  deriving DecidableEq

/-- the statement as a leaf -/
def Node.leaf? : Node → Option Leaf
  | .text s => some (.text s)
  | .out e => some (.out e)
  | _ => none

/-- a leaf as a statement -/
def Leaf.node : Leaf → Node
  | .text s => .text s
  | .out e => .out e

theorem leaf?_eq {n : Node} {x : Leaf} (h : n.leaf? = some x) : n = x.node := by
  cases n <;> simp [Node.leaf?] at h <;> subst h <;> rfl

/-- `l` is a part of the second list -/
def subIn {α : Type} [DecidableEq α] (l : List α) : List α → Bool
  | [] => l.isEmpty
  | a :: m => l.isPrefixOf (a :: m) || subIn l m

theorem infix_of_subIn {α : Type} [DecidableEq α] {l m : List α} (h : subIn l m = true) : l <:+: m := by
  induction m with
  | nil => simp only [subIn, List.isEmpty_iff] at h; subst h; exact List.infix_refl _
  | cons a m ih =>
    rw [subIn, Bool.or_eq_true] at h
    rcases h with h | h
    · exact (List.isPrefixOf_iff_prefix.1 h).isInfix
    · exact List.IsInfix.trans (ih h) (List.suffix_cons a m).isInfix

theorem leaves_eq {l : List Node} {x : List Leaf} (h : l.map Node.leaf? = x.map some) : l = x.map Leaf.node := by
  induction l generalizing x with
  | nil => cases x <;> simp at h ⊢
  | cons n l ih =>
    cases x with
    | nil => simp at h
    | cons y x =>
      simp only [List.map_cons, List.cons.injEq] at h
      rw [List.map_cons, ← ih h.2, ← leaf?_eq h.1]

/-- a part of the statements gives a part of the text -/
theorem render_part {x : List Leaf} {l : List Node} (h : subIn (x.map some) (l.map Node.leaf?) = true) {s : Str}
    (hs : render t env l = .ok s) : ∃ y, render t env (x.map Leaf.node) = .ok y ∧ y <:+: s := by
  obtain ⟨a, b, hab⟩ := infix_of_subIn h
  rw [eq_comm, List.map_eq_append_iff] at hab
  obtain ⟨l1, l2, rfl, h1, h2⟩ := hab
  obtain ⟨l3, l4, rfl, h3, h4⟩ := List.map_eq_append_iff.1 h1
  rw [leaves_eq h4, render_append_ok] at hs
  obtain ⟨u, v, hu, hv, rfl⟩ := hs
  obtain ⟨u1, u2, -, h6, rfl⟩ := render_append_ok.1 hu
  exact ⟨u2, h6, u1, v, rfl⟩

theorem eval_attr_ok {e : Expr} {name : String} {v : Val} : eval env (.attr e name) = .ok v ↔
    ∃ w, eval env e = .ok w ∧ w.attr name = .ok v := by
  rw [eval]
  rcases eval env e with x | w <;> simp [bind, Except.bind]

theorem eval_missing_ok {e d : Expr} {v : Val} : eval env (.missing e d) = .ok v ↔
    ∃ w x, eval env e = .ok w ∧ eval env d = .ok x ∧ v = missing x w := by
  rw [eval]
  rcases eval env e with x | w <;> rcases eval env d with y | z <;> simp [bind, Except.bind, eq_comm]

/-- an entry of a dictionary, undefined if it is missing -/
theorem attr_dict (d : List (Str × Val)) (name : String) (h : name ∉ dictMethods) :
    (Val.dict d).attr name = .ok ((Dict.get? d name.toList).getD .undefined) := by
  rw [Val.attr, if_neg h]

end Jinja
end Emva
