import Verif.Lemmas.Jinja
import Verif.Spec.ReportText

/-!
Finding the parts of a text in a template, in their order; texts that depend on few variables.
-/
set_option autoImplicit false
namespace Emva
namespace Jinja
open SheetSpec (written given text_eq truthy_eq)
variable {t : Texts} {env : Env}

/-- a statement, with the text as letters -/
inductive Tok : Type
  | chars (s : Str)
  | out (e : Expr)
  | other (n : Node)

/-- a statement as a token -/
def Tok.ofNode : Node → Tok
  | .text s => .chars s.toList
  | .out e => .out e
  | n => .other n

/-- the text of a token -/
noncomputable def Tok.render (t : Texts) (env : Env) : Tok → Except PyErr Str
  | .chars s => .ok s
  | .out e => renderNode t env (.out e)
  | .other n => renderNode t env n

/-- the text of tokens -/
inductive Toks (t : Texts) (env : Env) : List Tok → Str → Prop
  | nil : Toks t env [] []
  | cons {x : Tok} {l : List Tok} {a b : Str} : x.render t env = .ok a → Toks t env l b → Toks t env (x :: l) (a ++ b)

theorem ofNode_render (n : Node) : (Tok.ofNode n).render t env = renderNode t env n := by
  cases n <;> simp [Tok.ofNode, Tok.render, renderNode_text]

theorem toks_of_render {l : List Node} {s : Str} (h : render t env l = .ok s) : Toks t env (l.map Tok.ofNode) s := by
  induction l generalizing s with
  | nil => simp at h; subst h; exact .nil
  | cons n l ih =>
    obtain ⟨a, b, h1, h2, rfl⟩ := render_cons_ok.1 h
    exact .cons (by rw [ofNode_render, h1]) (ih h2)

/-- an item of a part -/
inductive Item : Type
  | chars (s : String)
  | out (e : Expr)

/-- what a token has to be for an item -/
def Item.is (i : Item) (x : Tok) : Bool :=
  match i, x with
  | .chars s, .chars c => decide (s.toList = c)
  | .out e, .out e' => decide (e = e')
  | _, _ => false

/-- the text of an item -/
def Item.Text (t : Texts) (env : Env) : Item → Str → Prop
  | .chars s, x => x = s.toList
  | .out e, x => ∃ v, eval env e = .ok v ∧ x = written t v

/-- the text of items -/
def ItemsText (t : Texts) (env : Env) : List Item → Str → Prop
  | [], x => x = []
  | i :: l, x => ∃ a b, i.Text t env a ∧ ItemsText t env l b ∧ x = a ++ b

/-- takes the items from the beginning of the tokens -/
def takeItems : List Item → List Tok → Option (List Tok)
  | [], l => some l
  | _ :: _, [] => none
  | i :: is, x :: l => if i.is x then takeItems is l else none

theorem takeItems_text {is : List Item} {l r : List Tok} {s : Str} (h : takeItems is l = some r) (hs : Toks t env l s) :
    ∃ a b, ItemsText t env is a ∧ Toks t env r b ∧ s = a ++ b := by
  induction is generalizing l s with
  | nil => simp [takeItems] at h; subst h; exact ⟨[], s, rfl, hs, rfl⟩
  | cons i is ih =>
    cases hs with
    | nil => simp [takeItems] at h
    | @cons x l a b hx hl =>
      rw [takeItems] at h
      split at h
      · rename_i hi
        obtain ⟨c, d, h1, h2, rfl⟩ := ih h hl
        refine ⟨a ++ c, d, ⟨a, c, ?_, h1, rfl⟩, h2, by simp⟩
        cases i <;> cases x <;> simp only [Item.is, decide_eq_true_eq, reduceCtorEq, Bool.false_eq_true] at hi
        · subst hi
          simp only [Tok.render, Except.ok.injEq] at hx
          exact hx.symm
        · subst hi
          exact renderNode_out_ok.1 hx
      · cases h

/-- a part of the text: a fixed text, or items between two fixed texts -/
inductive Part : Type
  | fixed (s : String)
  | line (pre : String) (items : List Item) (post : String)

/-- the text of a part -/
def Part.Text (t : Texts) (env : Env) : Part → Str → Prop
  | .fixed s, x => x = s.toList
  | .line a is b, x => ∃ m, ItemsText t env is m ∧ x = a.toList ++ m ++ b.toList

/-- what follows `p` in the text -/
def afterInfix (p : Str) : Str → Option Str
  | [] => if p.isEmpty then some [] else none
  | c :: s => if p.isPrefixOf (c :: s) then some ((c :: s).drop p.length) else afterInfix p s

theorem afterInfix_eq {p s r : Str} (h : afterInfix p s = some r) : ∃ a, s = a ++ p ++ r := by
  induction s with
  | nil =>
    simp only [afterInfix] at h
    split at h
    · rename_i hp; simp at hp h; subst hp h; exact ⟨[], rfl⟩
    · cases h
  | cons c s ih =>
    rw [afterInfix] at h
    split at h
    · rename_i hp
      obtain ⟨y, hy⟩ := List.isPrefixOf_iff_prefix.1 hp
      simp only [Option.some.injEq] at h
      refine ⟨[], ?_⟩
      rw [← h, ← hy]; simp
    · obtain ⟨a, ha⟩ := ih h
      exact ⟨c :: a, by rw [ha]; simp⟩

/-- the part begins in the token `x`, the rest of the tokens behind it -/
def Part.here (p : Part) (x : Tok) (l : List Tok) : Option (List Tok) :=
  match x with
  | .chars c =>
    match p with
    | .fixed s => (afterInfix s.toList c).map fun r => .chars r :: l
    | .line a is b =>
      if a.toList.isSuffixOf c then
        match takeItems is l with
        | some (.chars y :: r) => if b.toList.isPrefixOf y then some (.chars (y.drop b.toList.length) :: r) else none
        | _ => none
      else none
  | _ => none

/-- the first place of the part, the rest of the tokens behind it -/
def Part.find (p : Part) : List Tok → Option (List Tok)
  | [] => none
  | x :: l =>
    match p.here x l with
    | some r => some r
    | none => p.find l

theorem here_text {p : Part} {x : Tok} {l r : List Tok} {s : Str} (h : p.here x l = some r) (hs : Toks t env (x :: l) s) :
    ∃ a m b, s = a ++ m ++ b ∧ p.Text t env m ∧ Toks t env r b := by
  cases hs with
  | @cons _ _ u v hx hl =>
    cases x with
    | out e => simp [Part.here] at h
    | other n => simp [Part.here] at h
    | chars c =>
      simp only [Tok.render, Except.ok.injEq] at hx
      subst hx
      cases p with
      | fixed q =>
        simp only [Part.here, Option.map_eq_some_iff] at h
        obtain ⟨y, hy, rfl⟩ := h
        obtain ⟨a, rfl⟩ := afterInfix_eq hy
        exact ⟨a, q.toList, y ++ v, by simp, rfl, .cons rfl hl⟩
      | line a is b =>
        simp only [Part.here] at h
        split at h
        swap
        · cases h
        rename_i hsuf
        obtain ⟨a', rfl⟩ := List.isSuffixOf_iff_suffix.1 hsuf
        split at h
        swap
        · cases h
        rename_i y r' htake
        split at h
        swap
        · cases h
        rename_i hpre
        obtain ⟨y', rfl⟩ := List.isPrefixOf_iff_prefix.1 hpre
        simp only [Option.some.injEq] at h
        obtain ⟨m, w, hm, hw, rfl⟩ := takeItems_text htake hl
        cases hw with
        | @cons _ _ c d hc hd =>
          simp only [Tok.render, Except.ok.injEq] at hc
          subst hc h
          refine ⟨a', a.toList ++ m ++ b.toList, y' ++ d, by simp, ⟨m, hm, rfl⟩, .cons ?_ hd⟩
          simp [Tok.render]

theorem find_text {p : Part} {l r : List Tok} {s : Str} (h : p.find l = some r) (hs : Toks t env l s) :
    ∃ a m b, s = a ++ m ++ b ∧ p.Text t env m ∧ Toks t env r b := by
  induction l generalizing s with
  | nil => simp [Part.find] at h
  | cons x l ih =>
    rw [Part.find] at h
    split at h
    · rename_i hh
      simp only [Option.some.injEq] at h
      subst h
      exact here_text hh hs
    · cases hs with
      | @cons _ _ u v hx hl =>
        obtain ⟨a, m, b, rfl, h1, h2⟩ := ih h hl
        exact ⟨u ++ a, m, b, by simp, h1, h2⟩

/-- the parts are found one behind the other -/
def inOrder : List Part → List Tok → Bool
  | [], _ => true
  | p :: ps, l =>
    match p.find l with
    | some r => inOrder ps r
    | none => false

theorem inOrder_toks {α : Type} (part : α → Part) (P : α → Str → Prop)
    (l : List α) (hP : ∀ x ∈ l, ∀ s, (part x).Text t env s → P x s) (toks : List Tok) (s : Str) (h : inOrder (l.map part) toks = true) (hs : Toks t env toks s) :
    SheetSpec.InOrder (l.map P) s := by
  induction l generalizing toks s with
  | nil => trivial
  | cons x l ih =>
    rw [List.map_cons, inOrder] at h
    split at h
    · rename_i r hr
      obtain ⟨a, m, b, rfl, h1, h2⟩ := find_text hr hs
      exact ⟨a, m, b, rfl, hP _ (by simp) _ h1, ih (fun y hy => hP y (by simp [hy])) r b h h2⟩
    · cases h

/-- The parts of a template are parts of the text, in the same order. -/
theorem render_inOrder {α : Type} (part : α → Part) (P : α → Str → Prop)
    {l : List α} (hP : ∀ x ∈ l, ∀ s, (part x).Text t env s → P x s) {nodes : List Node} {s : Str} (h : inOrder (l.map part) (nodes.map Tok.ofNode) = true)
    (hs : render t env nodes = .ok s) : SheetSpec.InOrder (l.map P) s :=
  inOrder_toks part P l hP _ s h (toks_of_render hs)

/-- One part of a template is a part of the text. -/
theorem render_find {p : Part} {nodes : List Node} {s : Str} (h : (p.find (nodes.map Tok.ofNode)).isSome = true)
    (hs : render t env nodes = .ok s) : ∃ m, p.Text t env m ∧ m <:+: s := by
  obtain ⟨r, hr⟩ := Option.isSome_iff_exists.1 h
  obtain ⟨a, m, b, rfl, h1, -⟩ := find_text hr (toks_of_render hs)
  exact ⟨m, h1, a, b, rfl⟩

theorem render_ok_iff {l : List Node} : (∃ s, render t env l = .ok s) ↔ ∀ n ∈ l, ∃ s, renderNode t env n = .ok s := by
  induction l with
  | nil => simp
  | cons n l ih =>
    simp only [render_cons_ok, List.mem_cons, forall_eq_or_imp, ← ih]
    constructor
    · rintro ⟨_, a, b, h1, h2, rfl⟩; exact ⟨⟨a, h1⟩, b, h2⟩
    · rintro ⟨⟨a, h1⟩, b, h2⟩; exact ⟨_, a, b, h1, h2, rfl⟩

/-! ### paths in nested dictionaries -/

/-- `v.k1.k2...` -/
def Expr.path (v : String) (ks : List String) : Expr := ks.foldl .attr (.var v)

theorem look_snoc (v : Val) (ks : List String) (k : String) : SheetSpec.look v (ks ++ [k]) = SheetSpec.get (SheetSpec.look v ks) k := by
  simp only [SheetSpec.look, List.foldl_append, List.foldl_cons, List.foldl_nil]

theorem path_snoc (v : String) (ks : List String) (k : String) : Expr.path v (ks ++ [k]) = .attr (Expr.path v ks) k := by
  simp [Expr.path, List.foldl_append]

theorem look_attr {w x : Val} {k : String} (hk : k ∉ dictMethods) (h : w.attr k = .ok x) :
    x = SheetSpec.get w k ∧ w ≠ .undefined := by
  cases w <;> simp_all [Val.attr, SheetSpec.entry, SheetSpec.get, eq_comm]

theorem eval_path {v : String} {ks : List String} (hk : ∀ k ∈ ks, k ∉ dictMethods) {x : Val}
    (h : eval env (Expr.path v ks) = .ok x) : x = SheetSpec.look (env v) ks := by
  induction ks using List.reverseRecOn generalizing x with
  | nil => simpa [Expr.path, eval, SheetSpec.look, eq_comm] using h
  | append_singleton ks k ih =>
    rw [path_snoc, eval_attr_ok] at h
    obtain ⟨w, hw, h⟩ := h
    obtain rfl := ih (fun k hk' => hk k (by simp [hk'])) hw
    rw [look_snoc]
    exact (look_attr (hk k (by simp)) h).1

theorem eval_path_ok {v : String} {ks : List String} {k : String} (hk : ∀ j ∈ ks ++ [k], j ∉ dictMethods)
    (h : SheetSpec.look (env v) ks ≠ .undefined) : eval env (Expr.path v (ks ++ [k])) = .ok (SheetSpec.look (env v) (ks ++ [k])) := by
  induction ks using List.reverseRecOn generalizing k with
  | nil =>
    rw [path_snoc, look_snoc]
    simp only [Expr.path, List.foldl_nil, SheetSpec.look] at h ⊢
    rw [eval_attr_ok]
    refine ⟨env v, by simp [eval], ?_⟩
    have hk' := hk k (by simp)
    generalize env v = w at h
    cases w <;> simp_all [Val.attr, SheetSpec.entry, SheetSpec.get]
  | append_singleton ks j ih =>
    rw [path_snoc, look_snoc, eval_attr_ok]
    refine ⟨_, ih (fun i hi => hk i (by simp at hi ⊢; tauto)) ?_, ?_⟩
    · intro h0
      rw [look_snoc, h0] at h
      exact h rfl
    · have hk' := hk k (by simp)
      generalize SheetSpec.look (env v) (ks ++ [j]) = w at h
      cases w <;> simp_all [Val.attr, SheetSpec.entry, SheetSpec.get]

/-! ### texts that depend on few variables -/

/-- the expression uses only these variables -/
def Expr.uses (vs : List String) : Expr → Bool
  | .var name => decide (name ∈ vs)
  | .lit _ => true
  | .attr e _ => e.uses vs
  | .missing e d => e.uses vs && d.uses vs
  | .missingNumber e _ => e.uses vs
  | .percent _ e => e.uses vs

/-- the condition uses only these variables -/
def Cond.uses (vs : List String) : Cond → Bool
  | .isTrue e => e.uses vs
  | .isFalse e => e.uses vs
  | .eqStr e _ => e.uses vs

mutual
/-- the statement uses only these variables -/
def Node.uses (vs : List String) : Node → Bool
  | .text _ => true
  | .out e => e.uses vs
  | .ite c a b => c.uses vs && nodesUse vs a && nodesUse vs b
  | .loop name e body => e.uses vs && nodesUse (name :: vs) body
  | .items key value e body => e.uses vs && nodesUse (key :: value :: vs) body
/-- the statements use only these variables -/
def nodesUse (vs : List String) : List Node → Bool
  | [] => true
  | n :: l => n.uses vs && nodesUse vs l
end

theorem eval_uses {vs : List String} {env env' : Env} (h : ∀ v ∈ vs, env v = env' v) (e : Expr) (he : e.uses vs = true) :
    eval env e = eval env' e := by
  induction e with
  | var n => simp only [Expr.uses, decide_eq_true_eq] at he; simp [eval, h n he]
  | lit s => rfl
  | attr e n ih => simp only [Expr.uses] at he; simp [eval, ih he]
  | missing e d ih1 ih2 => simp only [Expr.uses, Bool.and_eq_true] at he; simp [eval, ih1 he.1, ih2 he.2]
  | missingNumber e n ih => simp only [Expr.uses] at he; simp [eval, ih he]
  | percent n e ih => simp only [Expr.uses] at he; simp [eval, ih he]

theorem evalCond_uses {vs : List String} {env env' : Env} (h : ∀ v ∈ vs, env v = env' v) (c : Cond) (hc : c.uses vs = true) :
    evalCond env c = evalCond env' c := by
  cases c <;> simp only [Cond.uses] at hc <;> simp [evalCond, eval_uses h _ hc]

mutual
theorem renderNode_uses {vs : List String} {env env' : Env} (h : ∀ v ∈ vs, env v = env' v) (n : Node)
    (hn : n.uses vs = true) : renderNode t env n = renderNode t env' n := by
  cases n with
  | text s => rw [renderNode, renderNode]
  | out e => simp only [Node.uses] at hn; rw [renderNode, renderNode, eval_uses h e hn]
  | ite c a b =>
    simp only [Node.uses, Bool.and_eq_true] at hn
    rw [renderNode, renderNode, evalCond_uses h c hn.1.1, render_uses h a hn.1.2, render_uses h b hn.2]
  | loop name e body =>
    simp only [Node.uses, Bool.and_eq_true] at hn
    rw [renderNode, renderNode, eval_uses h e hn.1]
    have hb : ∀ x, render t (env.set name x) body = render t (env'.set name x) body := fun x =>
      render_uses (vs := name :: vs) (fun v hv => by
        simp only [Env.set]
        split
        · rfl
        · rename_i h1
          exact h v (by simpa [h1] using hv)) body hn.2
    simp only [hb]
  | items key value e body =>
    simp only [Node.uses, Bool.and_eq_true] at hn
    rw [renderNode, renderNode, eval_uses h e hn.1]
    have hb : ∀ x y, render t ((env.set key x).set value y) body = render t ((env'.set key x).set value y) body := fun x y =>
      render_uses (vs := key :: value :: vs) (fun v hv => by
        simp only [Env.set]
        split
        · rfl
        · split
          · rfl
          · rename_i h1 h2
            exact h v (by simpa [h1, h2] using hv)) body hn.2
    simp only [hb]
theorem render_uses {vs : List String} {env env' : Env} (h : ∀ v ∈ vs, env v = env' v) (l : List Node)
    (hl : nodesUse vs l = true) : render t env l = render t env' l := by
  cases l with
  | nil => simp
  | cons n l =>
    simp only [nodesUse, Bool.and_eq_true] at hl
    rw [render, render, renderNode_uses h n hl.1, render_uses h l hl.2]
end

end Jinja
end Emva
