import Verif.Spec.Xml
import Mathlib.Data.List.Forall2
import Mathlib.Tactic.Common

set_option autoImplicit false
set_option linter.unusedSectionVars false
namespace Emva
namespace Xml
open Spec
variable {F : Type} {env : Env F}

/-! ### lists and dictionaries -/

theorem mapM_forall₂ {α β : Type} {f : α → Except PyErr β} {l : List α} {r : List β}
    (h : List.Forall₂ (fun a b => f a = .ok b) l r) : l.mapM f = .ok r := by
  induction h with
  | nil => rfl
  | cons h _ ih => rw [List.mapM_cons, h, ih]; rfl

theorem mapM_map_ok {α β γ : Type} {f : α → Except PyErr β} {k : γ → α} {g : γ → β} {l : List γ}
    (h : ∀ x ∈ l, f (k x) = .ok (g x)) : (l.map k).mapM f = .ok (l.map g) := by
  induction l with
  | nil => rfl
  | cons x l ih =>
    rw [List.map_cons, List.mapM_cons, h x (by simp), ih fun y hy => h y (by simp [hy])]; rfl

/-- the dictionary with the given items set one after the other -/
def build {V : Type} (l : List (Str × V)) : List (Str × V) := l.foldl (fun d kv => Dict.set d kv.1 kv.2) []

theorem set_append {V : Type} (d e : List (Str × V)) (k : Str) (v : V) (h : k ∉ d.map Prod.fst) :
    Dict.set (d ++ e) k v = d ++ Dict.set e k v := by
  induction d with
  | nil => rfl
  | cons p d ih =>
    obtain ⟨a, b⟩ := p
    simp only [List.map_cons, List.mem_cons, not_or] at h
    rw [List.cons_append, Dict.set, if_neg (Ne.symm h.1), ih h.2]; rfl

theorem foldl_set_distinct {V : Type} (l : List (Str × V)) : ∀ (d : List (Str × V)),
    (∀ k ∈ l.map Prod.fst, k ∉ d.map Prod.fst) → (l.map Prod.fst).Nodup →
    l.foldl (fun d kv => Dict.set d kv.1 kv.2) d = d ++ l := by
  induction l with
  | nil => simp
  | cons p l ih =>
    intro d h hn
    rw [List.map_cons, List.nodup_cons] at hn
    have hp : Dict.set d p.1 p.2 = d ++ [p] := by
      have := set_append d [] p.1 p.2 (h p.1 (by simp))
      rwa [List.append_nil] at this
    rw [List.foldl_cons, hp, ih _ _ hn.2, List.append_assoc]; rfl
    intro k hk
    rw [List.map_append, List.mem_append, not_or]
    refine ⟨h k (by simp only [List.map_cons, List.mem_cons]; exact .inr hk), ?_⟩
    simp only [List.map_cons, List.map_nil, List.mem_singleton]
    rintro rfl
    exact hn.1 hk

theorem build_distinct {V : Type} {l : List (Str × V)} (h : (l.map Prod.fst).Nodup) : build l = l := by
  have := foldl_set_distinct l [] (by simp) h
  rwa [List.nil_append] at this

theorem foldl_set_get {V : Type} (l : List (Str × V)) : ∀ (d : List (Str × V)) (k : Str),
    (∀ kv ∈ l, kv.1 ≠ k) → Dict.get? (l.foldl (fun d kv => Dict.set d kv.1 kv.2) d) k = Dict.get? d k := by
  induction l with
  | nil => intros; rfl
  | cons p l ih =>
    intro d k h
    rw [List.foldl_cons, ih _ _ fun kv hkv => h kv (by simp [hkv]), Dict.get?_set_ne]
    exact h p (by simp)

theorem build_get_last {V : Type} (pre post : List (Str × V)) (k : Str) (v : V)
    (h : ∀ kv ∈ post, kv.1 ≠ k) : Dict.get? (build (pre ++ (k, v) :: post)) k = some v := by
  rw [build, List.foldl_append, List.foldl_cons, foldl_set_get _ _ _ h, Dict.get?_set_self]

theorem forall₂_set {V W : Type} {R : Str × V → Str × W → Prop} {d : List (Str × V)} {e : List (Str × W)}
    (hk : ∀ a b, R a b → a.1 = b.1) (h : List.Forall₂ R d e) (k : Str) (v : V) (w : W) (hr : R (k, v) (k, w)) :
    List.Forall₂ R (Dict.set d k v) (Dict.set e k w) := by
  induction h with
  | nil => exact .cons hr .nil
  | @cons a b d e hab hde ih =>
    obtain ⟨a1, a2⟩ := a
    obtain ⟨b1, b2⟩ := b
    have h1 : a1 = b1 := hk _ _ hab
    subst h1
    show List.Forall₂ R (if a1 = k then _ else _) (if a1 = k then _ else _)
    by_cases hak : a1 = k
    · subst hak
      rw [if_pos rfl, if_pos rfl]; exact .cons hr hde
    · rw [if_neg hak, if_neg hak]; exact .cons hab ih

theorem forall₂_build {ι V W : Type} {R : Str × V → Str × W → Prop} (hk : ∀ a b, R a b → a.1 = b.1)
    (l : List ι) (key : ι → Str) (v : ι → V) (w : ι → W) (h : ∀ i ∈ l, R (key i, v i) (key i, w i)) :
    List.Forall₂ R (build (l.map fun i => (key i, v i))) (build (l.map fun i => (key i, w i))) := by
  unfold build
  rw [List.foldl_map, List.foldl_map]
  suffices ∀ d e, List.Forall₂ R d e → List.Forall₂ R
      (l.foldl (fun d i => Dict.set d (key i) (v i)) d) (l.foldl (fun d i => Dict.set d (key i) (w i)) e) from
    this _ _ .nil
  induction l with
  | nil => intro d e h; exact h
  | cons i l ih =>
    intro d e hde
    exact ih (fun j hj => h j (by simp [hj])) _ _ (forall₂_set hk hde _ _ _ (h i (by simp)))

theorem get?_append {V : Type} (d e : List (Str × V)) (k : Str) (h : ∀ kv ∈ d, kv.1 ≠ k) :
    Dict.get? (d ++ e) k = Dict.get? e k := by
  induction d with
  | nil => rfl
  | cons p d ih =>
    obtain ⟨a, b⟩ := p
    rw [List.cons_append, Dict.get?, if_neg (h (a, b) (by simp)), ih fun kv hkv => h kv (by simp [hkv])]

/-! ### the element tree -/

theorem leaf_ok {k s : Str} (h1 : env.validTag k = true) (h2 : s.all env.validChar = true) :
    leaf env k s = .ok (.mk k (some s) []) := by
  rw [leaf, if_pos h1, if_pos h2]

theorem dictElems_map {ι : Type} (l : List ι) (key : ι → Str) (v : ι → PyVal F) (g : ι → Elem)
    (h : ∀ i ∈ l, valElem env (key i) (v i) = .ok (g i)) :
    dictElems env (l.map fun i => (key i, v i)) = .ok (l.map g) := by
  induction l with
  | nil => simp [dictElems]
  | cons i l ih =>
    rw [List.map_cons, dictElems, h i (by simp), ih fun j hj => h j (by simp [hj])]; rfl

theorem dictElems_append {d e : List (Str × PyVal F)} {a b : List Elem}
    (h1 : dictElems env d = .ok a) (h2 : dictElems env e = .ok b) : dictElems env (d ++ e) = .ok (a ++ b) := by
  induction d generalizing a with
  | nil =>
    simp only [dictElems, Except.ok.injEq] at h1
    subst h1; exact h2
  | cons p d ih =>
    obtain ⟨k, v⟩ := p
    rw [List.cons_append]
    rw [dictElems] at h1 ⊢
    cases hv : valElem env k v with
    | error x => rw [hv] at h1; exact absurd h1 (by simp [bind, Except.bind])
    | ok e1 =>
      rw [hv] at h1
      cases hd : dictElems env d with
      | error x => rw [hd] at h1; exact absurd h1 (by simp [bind, Except.bind])
      | ok es =>
        rw [hd] at h1
        have h1' : e1 :: es = a := Except.ok.inj h1
        rw [← h1', ih hd]; rfl

theorem valElem_dict {k : Str} {d : List (Str × PyVal F)} {es : List Elem} (h : env.validTag k = true)
    (hd : dictElems env d = .ok es) : valElem env k (.dict d) = .ok (.mk k none es) := by
  rw [valElem, if_pos h, hd]; rfl

theorem rereads_eq (l : List Elem) : rereads l = l.map reread := by
  induction l with
  | nil => rw [rereads]; rfl
  | cons e l ih => rw [rereads, ih]; rfl

theorem reread_leaf {k s : Str} (h : s ≠ []) : reread (.mk k (some s) []) = .mk k (some s) [] := by
  rw [reread, rereads]
  cases s with
  | nil => exact absurd rfl h
  | cons => rfl

theorem reread_node (k : Str) (l : List Elem) : reread (.mk k none l) = .mk k none (l.map reread) := by
  rw [reread, rereads_eq]; rfl

theorem reread_tag (e : Elem) : (reread e).tag = e.tag := by
  obtain ⟨t, x, c⟩ := e
  rw [reread]; rfl

theorem elementToDict_eq (l : List Elem) : ∀ d : List (Str × PyVal F),
    elementToDict env d l = (l.map fun e => (env.lower e.tag, elemVal env e)).foldl
      (fun d kv => Dict.set d kv.1 kv.2) d := by
  induction l with
  | nil => intro d; rw [elementToDict]; rfl
  | cons e l ih => intro d; rw [elementToDict, ih]; rfl

theorem elementToDict_build (l : List Elem) :
    elementToDict env [] l = build (l.map fun e => (env.lower e.tag, elemVal env e)) := elementToDict_eq l []

theorem elemVal_node {k : Str} {t : Option Str} {l : List Elem} (h : l ≠ []) :
    elemVal env (.mk k t l) = .dict (build (l.map fun e => (env.lower e.tag, elemVal env e))) := by
  cases l with
  | nil => exact absurd rfl h
  | cons e l => rw [elemVal, elementToDict_build]

theorem elemVal_leaf (k s : Str) : elemVal env (.mk k (some s) []) = .str s := by
  rw [elemVal]; rfl

/-! ### text of numbers -/

theorem splitAux_word (w rest : Str) : ∀ cur : Str, (∀ c ∈ w, Py.isSpace c = false) →
    Py.splitAux cur (w ++ rest) = Py.splitAux (cur ++ w) rest := by
  induction w with
  | nil => intro cur _; rw [List.append_nil, List.nil_append]
  | cons c w ih =>
    intro cur h
    rw [List.cons_append, Py.splitAux, if_neg (by rw [h c (by simp)]; simp),
      ih _ fun x hx => h x (by simp [hx])]
    rw [List.append_assoc]; rfl

theorem split_join (l : List Str) (h : ∀ w ∈ l, w ≠ [] ∧ ∀ c ∈ w, Py.isSpace c = false) :
    Py.split (joinSpace l) = l := by
  induction l with
  | nil => rfl
  | cons w l ih =>
    obtain ⟨h1, h2⟩ := h w (by simp)
    cases l with
    | nil =>
      show Py.splitAux [] w = [w]
      have := splitAux_word w [] [] h2
      rw [List.append_nil, List.nil_append] at this
      rw [this, Py.splitAux, if_neg h1]
    | cons w2 l =>
      show Py.splitAux [] (w ++ ' ' :: joinSpace (w2 :: l)) = _
      rw [splitAux_word w _ [] h2, List.nil_append, Py.splitAux, if_pos (by decide), if_neg h1]
      have := ih fun x hx => h x (by simp [hx])
      rw [show Py.splitAux [] (joinSpace (w2 :: l)) = Py.split (joinSpace (w2 :: l)) from rfl, this]

theorem joinSpace_ne {l : List Str} (hl : l ≠ []) (h : ∀ w ∈ l, w ≠ []) : joinSpace l ≠ [] := by
  cases l with
  | nil => exact absurd rfl hl
  | cons w l =>
    cases l with
    | nil => exact h w (by simp)
    | cons w2 l => simp [joinSpace]

theorem joinSpace_all {p : Char → Bool} (l : List Str) (hs : p ' ' = true) (h : ∀ w ∈ l, ∀ c ∈ w, p c = true) :
    (joinSpace l).all p = true := by
  induction l with
  | nil => rfl
  | cons w l ih =>
    have hw : w.all p = true := List.all_eq_true.2 (h w (by simp))
    cases l with
    | nil => exact hw
    | cons w2 l =>
      show (w ++ ' ' :: joinSpace (w2 :: l)).all p = true
      rw [List.all_append, hw, List.all_cons, hs, ih fun x hx => h x (by simp [hx])]; rfl

theorem dropWhile_none {p : Char → Bool} {s : Str} (h : s.head?.all (fun c => !p c) = true) :
    s.dropWhile p = s := by
  cases s with
  | nil => rfl
  | cons c s => 
    rw [List.dropWhile_cons, if_neg]
    simpa using h

theorem head_join {l : List Str} {p : Char → Bool} (h : ∀ w ∈ l, w ≠ [] ∧ ∀ c ∈ w, p c = false) :
    (joinSpace l).head?.all (fun c => !p c) = true := by
  cases l with
  | nil => rfl
  | cons w l =>
    obtain ⟨h1, h2⟩ := h w (by simp)
    cases w with
    | nil => exact absurd rfl h1
    | cons c w =>
      cases l <;> simp [joinSpace, h2 c (by simp)]

theorem last_join {l : List Str} {p : Char → Bool} (h : ∀ w ∈ l, w ≠ [] ∧ ∀ c ∈ w, p c = false) :
    (joinSpace l).getLast?.all (fun c => !p c) = true := by
  induction l with
  | nil => rfl
  | cons w l ih =>
    obtain ⟨h1, h2⟩ := h w (by simp)
    cases l with
    | nil =>
      show w.getLast?.all _ = true
      rw [List.getLast?_eq_some_getLast h1]
      simp [h2 _ (List.getLast_mem h1)]
    | cons w2 l =>
      have hne := joinSpace_ne (l := w2 :: l) (by simp) fun x hx => (h x (by simp [hx])).1
      show (w ++ ' ' :: joinSpace (w2 :: l)).getLast?.all _ = true
      rw [List.getLast?_append_of_ne_nil _ (by simp), List.getLast?_cons_of_ne_nil hne]
      exact ih fun x hx => h x (by simp [hx])

theorem strip_join {l : List Str} (h : ∀ w ∈ l, w ≠ [] ∧ ∀ c ∈ w, Py.isSpace c = false) :
    Py.strip (joinSpace l) = joinSpace l := by
  rw [Py.strip, dropWhile_none (head_join h), dropWhile_none, List.reverse_reverse]
  rw [List.head?_reverse]
  exact last_join h

end Xml
end Emva
