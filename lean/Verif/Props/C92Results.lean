import Verif.Props.C92
import Verif.Props.C77

/-!
C92: operation points with the results of a measurement are complete; the numbers of their sheets are the results.
-/
set_option autoImplicit false
set_option maxRecDepth 4000
namespace Emva
namespace Jinja
open SheetSpec Report Results Xml Info

/-- a number of the results as the template sees it -/
def ofNum : PyNum ℝ → Val
  | .none => .none
  | .npnan => .npnan
  | .num x => .float x

/-- the value of an attribute as it is found in `results_by_section`: `obj_to_dict` (`objToDict`) only asks whether it is a
dictionary, so that any other value can take the place of the numbers of `PyVal`; the texts of indices are given by `int`. -/
def ofValue (int : ℤ → Str) : Value → PyVal Val
  | .num x => .num (.fin (ofNum x))
  | .int i => .num (.fin (.obj (int i) (decide (i ≠ 0))))
  | .lin _ => .dict []
  | .hist _ => .dict []

/-- `getattr(results, name)` -/
noncomputable def attrNamed (int : ℤ → Str) (q : LSQ ℝ) (r : Res ℝ) (name : Str) : Except PyErr (PyVal Val) :=
  match attrOfName.find? fun x => x.1.toList = name with
  | some x => (read q x.2 r).1.map (ofValue int)
  | none => .error .attributeError

/-- the values of `results_by_section` in the template -/
def leafVal : PyVal Val → Val
  | .none => .none
  | .num (.fin v) => v
  | .num _ => .npnan
  | .str s => .str s
  | .arr _ => .obj [] true
  | .dict _ => .obj [] true

/-- `results_by_section` in the template -/
def sectionsVal (s : List (Str × List (Str × List (Str × PyVal Val)))) : Val :=
  .dict (s.map fun x => (x.1, .dict (x.2.map fun y => (y.1, .dict (y.2.map fun z => (z.1, leafVal z.2))))))

/-- the row of the table is a cell of the template -/
def rowCell : Line → Bool
  | .row sec attr p dash _ => decide ((sec.toList, attr.toList, "value".toList) ∈ templateRefs) &&
      decide ((sec.toList, attr.toList, "unit".toList) ∈ templateRefs ∨ attr = "SNR_max" ∨ attr = "DR") &&
      (attrOfName.any fun x => decide (x.1 = attr) && templateCells.any fun c => decide (c.attr = x.2) && decide (c.digits = p) &&
        decide (c.filtered = dash))
  | _ => true

theorem rows_cells : table.all rowCell = true := by decide +kernel

theorem names_distinct : (attrOfName.map fun x => x.1.toList).Nodup := by decide +kernel

theorem get_map {α β : Type} (f : α → β) (d : List (Str × α)) (k : Str) :
    Dict.get? (d.map fun x => (x.1, f x.2)) k = (Dict.get? d k).map f := by
  induction d with
  | nil => rfl
  | cons x d ih =>
    simp only [List.map_cons, Dict.get?]
    split
    · rfl
    · exact ih

theorem attrNamed_eq (int : ℤ → Str) (q : LSQ ℝ) (r : Res ℝ) {s : String} {a : Attr} (h : (s, a) ∈ attrOfName) :
    attrNamed int q r s.toList = (read q a r).1.map (ofValue int) := by
  have : attrOfName.find? (fun x => decide (x.1.toList = s.toList)) = some (s, a) := by
    have hn := names_distinct
    generalize attrOfName = l at h hn
    induction l with
    | nil => simp at h
    | cons x l ih =>
      rw [List.find?_cons]
      rcases List.mem_cons.1 h with rfl | h
      · simp
      · have hx : x.1.toList ≠ s.toList := by
          rw [List.map_cons, List.nodup_cons] at hn
          intro hx
          exact hn.1 (List.mem_map.2 ⟨(s, a), h, hx.symm⟩)
        simp only [decide_eq_false hx]
        exact ih h (by rw [List.map_cons, List.nodup_cons] at hn; exact hn.2)
  rw [attrNamed, this]

theorem look_sections {s : List (Str × List (Str × List (Str × PyVal Val)))} {op : Val} (ho : look op ["results"] = sectionsVal s)
    {a b c : String} {d : List (Str × List (Str × PyVal Val))} {e : List (Str × PyVal Val)} {v : PyVal Val}
    (h1 : Dict.get? s a.toList = some d) (h2 : Dict.get? d b.toList = some e) (h3 : Dict.get? e c.toList = some v) :
    look op ["results", a, b, c] = leafVal v := by
  have e1 : look op ["results", a, b, c] = SheetSpec.get (SheetSpec.get (SheetSpec.get (look op ["results"]) a) b) c := rfl
  rw [e1, ho, sectionsVal]
  simp only [SheetSpec.get, entry, get_map (fun x : List (Str × List (Str × PyVal Val)) =>
    Val.dict (x.map fun y => (y.1, Val.dict (y.2.map fun z => (z.1, leafVal z.2)))))]
  rw [h1]
  simp only [Option.map_some, Option.getD_some, get_map (fun x : List (Str × PyVal Val) =>
    Val.dict (x.map fun z => (z.1, leafVal z.2)))]
  rw [h2]
  simp only [Option.map_some, Option.getD_some, get_map leafVal]
  rw [h3]
  rfl

end Jinja

open Jinja SheetSpec Report Results Xml Info

/-- C92: an operation point with settings, parameters, plots and the results of a measurement (all of whose documented
attributes can be computed) is complete, and in every row of the table of its sheet stands the attribute of the results. -/
theorem C92_results (int : ℤ → Str) (q : LSQ ℝ) (r : Res ℝ)
    (hc : ∀ a : Attr, a ≠ .s2q → a ≠ .linearity → ∃ v, (read q a r).1 = .ok v) :
    ∃ d s, objToDict asciiLower resultsDocs (attrNamed int q r) = .ok d ∧ sectionsFirst d = .ok s ∧
      ∀ op settings params plots, look op ["camera_settings"] = .dict settings → look op ["test_parameters"] = .dict params →
        look op ["plots"] = .dict plots → look op ["results"] = sectionsVal s →
        Complete op ∧ ∀ sec attr p dash l, Line.row sec attr p dash l ∈ table → ∃ a x, (attr, a) ∈ attrOfName ∧
          (read q a r).1 = .ok (.num x) ∧ look op ["results", sec, attr, "value"] = Jinja.ofNum x := by
  classical
  have hname : ∀ name ∈ Dict.keys (clsInfo asciiLower resultsDocs), ∃ v, attrNamed int q r name = .ok v := by
    intro name hn
    obtain ⟨s, a, hm, h1, h2, rfl⟩ := (C69_attributes name).1 hn
    obtain ⟨v, hv⟩ := hc a h1 h2
    exact ⟨ofValue int v, by rw [attrNamed_eq int q r hm, hv]; rfl⟩
  let v : Str → PyVal Val := fun name => if h : ∃ v, attrNamed int q r name = .ok v then h.choose else .none
  obtain ⟨d, s, h1, h2, h3⟩ := C69_references (attrNamed int q r) v (by
    intro name hn
    have h := hname name hn
    show attrNamed int q r name = .ok (if h : ∃ v, attrNamed int q r name = .ok v then h.choose else .none)
    rw [dif_pos h]
    exact h.choose_spec)
  refine ⟨d, s, h1, h2, ?_⟩
  intro op settings params plots hset hpar hpl hres
  have key : ∀ sec attr p dash l, Line.row sec attr p dash l ∈ table → ∃ a x, (attr, a) ∈ attrOfName ∧
      (read q a r).1 = .ok (.num x) ∧ look op ["results", sec, attr, "value"] = Jinja.ofNum x ∧ CanShow dash (Jinja.ofNum x) := by
    intro sec attr p dash l hl
    have hr := List.all_eq_true.1 rows_cells _ hl
    simp only [rowCell, Bool.and_eq_true, decide_eq_true_eq, List.any_eq_true] at hr
    obtain ⟨⟨href, -⟩, ⟨⟨n, a⟩, hm, hna, c, hcell, ⟨hca, hcd⟩, hcf⟩⟩ := hr
    simp only at hna hca
    subst hna
    have hdoc : a ≠ .s2q ∧ a ≠ .linearity := by
      have hall : templateCells.all (fun c => decide (c.attr ≠ .s2q ∧ c.attr ≠ .linearity)) = true := by decide +kernel
      have := of_decide_eq_true (List.all_eq_true.1 hall c hcell)
      rwa [hca] at this
    obtain ⟨y, hy⟩ := hc a hdoc.1 hdoc.2
    obtain ⟨x, _, rfl, -, hx⟩ := C69_cells q r c hcell y (by rw [hca]; exact hy)
    refine ⟨a, x, hm, hy, ?_, ?_⟩
    · have hv : v n.toList = .num (.fin (Jinja.ofNum x)) := by
        have hex : attrNamed int q r n.toList = .ok (.num (.fin (Jinja.ofNum x))) := by
          rw [attrNamed_eq int q r hm, hy]; rfl
        have h : ∃ w, attrNamed int q r n.toList = .ok w := ⟨_, hex⟩
        show (if h : ∃ v, attrNamed int q r n.toList = .ok v then h.choose else .none) = _
        rw [dif_pos h]
        exact Except.ok.inj (h.choose_spec.symm.trans hex)
      obtain ⟨dd, e, g1, g2, g3, -⟩ := h3 _ href
      have g4 := g3 rfl (by intro dct; simp only; rw [hv]; exact fun h => by cases h)
      rw [look_sections hres g1 g2 g4]
      simp only [hv]
      rfl
    · rcases hx with ⟨y, rfl, -⟩ | ⟨rfl, -⟩ | ⟨rfl, hf, -⟩
      · trivial
      · trivial
      · rw [← hcf]; exact hf
  refine ⟨⟨⟨settings, hset⟩, ⟨params, hpar⟩, (by rw [hpl]; exact fun h => by cases h), ?_⟩, ?_⟩
  · intro sec attr p dash l hl
    obtain ⟨a, x, -, -, h, hs⟩ := key sec attr p dash l hl
    rw [h]; exact hs
  · intro sec attr p dash l hl
    obtain ⟨a, x, h1, h2, h3, -⟩ := key sec attr p dash l hl
    exact ⟨a, x, h1, h2, h3⟩

end Emva
