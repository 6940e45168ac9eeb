import Verif.Spec.Templates
import Verif.Lemmas.Num

/-!
The parser of the templates finds the statements that the pieces stand for.
-/
set_option autoImplicit false
namespace Emva
namespace Jinja
open Py Spec

/-- tokens that do not continue a name with attributes -/
def NoAttr : List Token → Prop
  | .op s :: _ => s ≠ ['.']
  | _ => True

theorem attrs_stop (e : Expr) (r : List Token) (h : NoAttr r) : attrs e r = (e, r) := by
  unfold attrs
  split
  · simp [NoAttr] at h
  · rfl

theorem path_read {e : Expr} {l : List Token} (h : Path e l) :
    ∀ r, path (l ++ r) = some (attrs e r) := by
  induction h with
  | var n h => intro r; simp [path, h]
  | attr e l n _ ih =>
    intro r
    rw [List.append_assoc, ih]
    simp [attrs]

theorem path_stop {e : Expr} {l : List Token} (h : Path e l) (r : List Token) (hr : NoAttr r) : path (l ++ r) = some (e, r) := by
  rw [path_read h, attrs_stop e r hr]

theorem path_all {e : Expr} {l : List Token} (h : Path e l) : path l = some (e, []) := by
  have := path_stop h [] trivial
  rwa [List.append_nil] at this

theorem path_head {e : Expr} {l : List Token} (h : Path e l) : ∃ n r, l = .name n :: r ∧ n ∉ reserved := by
  induction h with
  | var n h => exact ⟨_, _, rfl, h⟩
  | attr e l n _ ih =>
    obtain ⟨m, r, rfl, hm⟩ := ih
    exact ⟨m, _, rfl, hm⟩

theorem formatDigits_read (d : ℕ) : formatDigits ("%.".toList ++ fmtNat d ++ "f".toList) = some d := by
  have h : ∀ a ∈ fmtNat d, isDigit a = true := (allDig_fmtNat d).isDigit
  have t : (fmtNat d ++ ['f']).takeWhile isDigit = fmtNat d := by
    rw [List.takeWhile_append_of_pos h]; simp [isDigit]
  have w : (fmtNat d ++ ['f']).dropWhile isDigit = ['f'] := by
    rw [List.dropWhile_append_of_pos h]; simp [isDigit]
  have e : "%.".toList ++ fmtNat d ++ "f".toList = '%' :: '.' :: (fmtNat d ++ ['f']) := by simp
  rw [e]
  simp only [formatDigits, t, w, digitsVal_fmtNat]
  simp [fmtNat_ne_nil]

theorem parseExpr_path {l : List Token} {n : Str} {r : List Token} (hl : l = .name n :: r) : parseExpr l =
    match path l with
    | some (e, []) => some e
    | some (e, [.op ['|'], .name f]) => if f = "missing".toList then some (.missing e (.lit "-")) else none
    | some (e, .op ['|'] :: .name f :: .op ['('] :: r) =>
      if f = "missing".toList then
        match path r with
        | some (d, [.op [')']]) => some (.missing e d)
        | _ => none
      else if f = "missingnumber".toList then
        match r with
        | [.int d, .op [')']] => some (.missingNumber e d)
        | _ => none
      else none
    | _ => none := by
  subst hl; rfl

theorem parseExpr_read {e : Expr} {l : List Token} (h : ReadsExpr e l) : parseExpr l = some e := by
  cases h with
  | path e l h =>
    obtain ⟨n, r, hl, _⟩ := path_head h
    rw [parseExpr_path hl, path_all h]
  | percent d e l h => simp only [parseExpr, formatDigits_read, path_all h]
  | missingNumber d e l h =>
    obtain ⟨n, r, hl, _⟩ := path_head h
    rw [parseExpr_path (n := n) (r := r ++ _) (by rw [hl]; rfl), path_stop h _ (by simp [NoAttr])]
    simp
  | dash e l h =>
    obtain ⟨n, r, hl, _⟩ := path_head h
    rw [parseExpr_path (n := n) (r := r ++ _) (by rw [hl]; rfl), path_stop h _ (by simp [NoAttr])]
    simp
  | missing e d l m h hd =>
    obtain ⟨n, r, hl, _⟩ := path_head h
    have e1 : l ++ [.op ['|'], .name "missing".toList, .op ['(']] ++ m ++ [.op [')']]
        = l ++ (.op ['|'] :: .name "missing".toList :: .op ['('] :: (m ++ [.op [')']])) := by simp
    obtain ⟨n', r', hm, _⟩ := path_head hd
    rw [e1, parseExpr_path (n := n) (r := r ++ (.op ['|'] :: .name "missing".toList :: .op ['('] :: (m ++ [.op [')']])))
      (by rw [hl]; rfl), path_stop h _ (by simp [NoAttr])]
    simp only [path_stop hd [.op [')']] (by simp [NoAttr])]
    simp

theorem parseCond_read {c : Cond} {l : List Token} (h : ReadsCond c l) : parseCond l = some c := by
  have key : ∀ {n : Str}, n ∉ reserved → n ≠ "not".toList := fun h e => h (by rw [e]; simp [reserved])
  cases h with
  | isTrue e l h =>
    obtain ⟨n, r, rfl, hn⟩ := path_head h
    simp only [parseCond, if_neg (key hn), path_all h]
  | isFalse e l h => simp [parseCond, path_all h]
  | eqStr e l s h =>
    obtain ⟨n, r, rfl, hn⟩ := path_head h
    have := path_stop h [.op ['=', '='], .str s.toList] (by simp [NoAttr])
    simp only [List.cons_append] at this ⊢
    simp only [parseCond, if_neg (key hn), this, String.ofList_toList]

theorem parseFor_loop {e : Expr} {ts : List Token} (x : String) (hx : x.toList ∉ reserved) (h : Path e ts) :
    parseFor (.name x.toList :: .name "in".toList :: ts) = some (.loop x e) := by
  simp [parseFor, hx, path_all h]

theorem parseFor_items {e : Expr} {ts : List Token} (k v : String) (hk : k.toList ∉ reserved) (hv : v.toList ∉ reserved)
    (h : Path e ts) :
    parseFor (.name k.toList :: .op [','] :: .name v.toList :: .name "in".toList ::
      (ts ++ [.op ['.'], .name "items".toList, .op ['('], .op [')']])) = some (.items k v e) := by
  have : path (ts ++ [.op ['.'], .name "items".toList, .op ['('], .op [')']])
      = some (.attr e "items", [.op ['('], .op [')']]) := by
    rw [path_read h]; simp [attrs]
  simp only [parseFor, this, hk, hv]
  simp

/-- the end of the template or a statement that ends a body -/
def Closed : List Piece → Prop
  | [] => True
  | .stmt (.name w :: _) :: _ => w ∈ closing
  | _ => False

theorem parse_closed (inc : Str → Option (List Node)) (n : List Unit) (r : List Piece) (h : Closed r) :
    parse inc (() :: n) r = some ([], r) := by
  match r, h with
  | [], _ => simp [parse]
  | .stmt (.name w :: ts) :: l, h => simp only [Closed] at h; simp [parse, h]

mutual
theorem parse_read {inc : Str → Option (List Node)} {l : List Node} {p : List Piece} (h : Reads inc l p) :
    ∀ (n : List Unit) (r : List Piece), Closed r → 2 * p.length < n.length → parse inc n (p ++ r) = some (l, r) := by
  intro n r hr hn
  match n, hn with
  | () :: n, hn =>
  rw [List.length_cons] at hn
  cases h with
  | nil => exact parse_closed inc n r hr
  | text s l p h =>
    have := parse_read h n r hr (by simp at hn; omega)
    simp [parse, this]
  | out e ts l p he h =>
    have := parse_read h n r hr (by simp at hn; omega)
    simp [parse, this, parseExpr_read he]
  | «include» f a l p hf h =>
    have := parse_read h n r hr (by simp at hn; omega)
    simp [parse, this, hf, closing]
  | loop x e ts body l p q hx he hb h =>
    have h1 := parse_read hb n (.stmt [.name "endfor".toList] :: (q ++ r)) (by simp [Closed, closing]) (by simp at hn; omega)
    have h2 := parse_read h n r hr (by simp at hn; omega)
    have hf := parseFor_loop x hx he
    simp only [List.cons_append, List.append_assoc, parse, h1, h2, hf]
    simp [closing]
  | items k v e ts body l p q hk hv he hb h =>
    have h1 := parse_read hb n (.stmt [.name "endfor".toList] :: (q ++ r)) (by simp [Closed, closing]) (by simp at hn; omega)
    have h2 := parse_read h n r hr (by simp at hn; omega)
    have hf := parseFor_items k v hk hv he
    have e1 : ∀ us, (Piece.stmt us :: (p ++ .stmt [.name "endfor".toList] :: q)) ++ r
        = .stmt us :: (p ++ .stmt [.name "endfor".toList] :: (q ++ r)) := by simp
    rw [e1]
    simp only [parse, h1, h2, hf]
    simp [closing]
  | cond x ts l p q hx h =>
    have h1 := parseIf_read hx n (q ++ r) (by simp at hn; omega)
    have h2 := parse_read h n r hr (by simp at hn; omega)
    simp only [List.cons_append, List.append_assoc, parse, h1, h2]
    simp [closing]

theorem parseIf_read {inc : Str → Option (List Node)} {x : Node} {ts : List Token} {p : List Piece} (h : ReadsIf inc x ts p) :
    ∀ (n : List Unit) (r : List Piece), 2 * p.length < n.length → parseIf inc n ts (p ++ r) = some (x, r) := by
  intro n r hn
  match n, hn with
  | () :: n, hn =>
  rw [List.length_cons] at hn
  cases h with
  | plain c ts a p hc ha =>
    have h1 := parse_read ha n (.stmt [.name "endif".toList] :: r) (by simp [Closed, closing]) (by simp at hn; omega)
    simp only [List.append_assoc, List.cons_append, List.nil_append, parseIf, h1, parseCond_read hc]
    simp
  | elif c ts us a x p q hc ha hx =>
    have h1 := parse_read ha n (.stmt (.name "elif".toList :: us) :: (q ++ r)) (by simp [Closed, closing]) (by simp at hn; omega)
    have h2 := parseIf_read hx n r (by simp at hn; omega)
    simp only [List.append_assoc, List.cons_append, List.nil_append, parseIf, h1, h2, parseCond_read hc]
    simp
  | «else» c ts a b p q hc ha hb =>
    have h1 := parse_read ha n (.stmt [.name "else".toList] :: (q ++ (.stmt [.name "endif".toList] :: r))) (by simp [Closed, closing])
      (by simp at hn; omega)
    have h2 := parse_read hb n (.stmt [.name "endif".toList] :: r) (by simp [Closed, closing]) (by simp at hn; omega)
    simp only [List.append_assoc, List.cons_append, List.nil_append, parseIf, h1, h2, parseCond_read hc]
    simp
end

end Jinja
end Emva
