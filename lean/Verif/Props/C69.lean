import Verif.Model.Template
import Verif.Model.Report
import Verif.Props.C46_C47
import Verif.Props.C61

/-!
C69: the template of an operation point finds everything it refers to, and shows every number.
-/
set_option autoImplicit false
namespace Emva
namespace Report
open Py Info Xml Results

/-- `str.lower` on the (ASCII) tags of results.py -/
def asciiLower : Str → Str := List.map Char.toLower

/-- the documentation of an attribute has what a reference of the template asks for -/
def refOk (docs : List (Str × Option Str)) (t : Str × Str × Str) : Bool :=
  match Dict.get? docs t.2.1 with
  | some (some doc) =>
    match docInfo asciiLower (some doc) with
    | some info => decide (Dict.get? info sectionKey = some t.1) && (decide (t.2.2 = valueKey) ||
        (Dict.get? info t.2.2).isSome)
    | none => false
  | _ => false

theorem refs_ok : templateRefs.all (refOk resultsDocs) = true := by decide +kernel

theorem refs_no_data : templateRefs.all (fun t => decide (t.2.2 ≠ dataKey)) = true := by decide +kernel

theorem documented : (resultsDocs.filter fun d => (docInfo asciiLower d.2).isSome).map (·.1) =
    (attrOfName.filter fun a => decide (a.2 ≠ .s2q ∧ a.2 ≠ .linearity)).map (·.1.toList) := by decide +kernel

theorem docs_wf : Dict.WF resultsDocs := by
  unfold Dict.WF
  decide +kernel

/-- a number as it appears in the datasheet -/
def CellText (p : ℕ) (x : Fl ℝ) (s : Str) : Prop :=
  match x with
  | .fin x => Shown p x s
  | .nan => s = "nan".toList
  | .inf b => s = (if b then "-inf" else "inf").toList

theorem fmtFloat_text (p : ℕ) (x : Fl ℝ) : CellText p x (fmtFloat p x) := by
  cases x with
  | nan => rfl
  | inf b => cases b <;> rfl
  | fin x => exact fmtFin_shown p x

theorem bind_ok {F α β : Type} {m : M F α} {f : α → M F β} {r : Res F} {b : β} (h : ((m >>= f) r).1 = .ok b) :
    ∃ a r', m r = (.ok a, r') ∧ (f a r').1 = .ok b := by
  have : (m >>= f) r = M.bind m f r := rfl
  rw [this, M.bind] at h
  rcases hm : m r with ⟨(_ | a), r'⟩ <;> rw [hm] at h
  · cases h
  · exact ⟨a, r', rfl, h⟩

theorem as_ok {F α : Type} {m : M F α} {f : α → Value} {r : Res F} {v : Value} (h : (m.as f r).1 = .ok v) :
    ∃ a, (m r).1 = .ok a ∧ v = f a := by
  obtain ⟨a, r', hm, h⟩ := bind_ok h
  exact ⟨a, by rw [hm], (Except.ok.inj h).symm⟩

theorem dsnu_not_none (q : LSQ ℝ) (var : M ℝ (Fl ℝ)) (r : Res ℝ) (h : (dsnu q var r).1 = .ok .none) : False := by
  unfold dsnu at h
  obtain ⟨v, r1, -, h⟩ := bind_ok h
  split at h
  · cases h
  · obtain ⟨v', r2, -, h⟩ := bind_ok h
    obtain ⟨k, r3, -, h⟩ := bind_ok h
    cases h

end Report

open Py Info Xml Results Report

/-- C69: the documented attributes are exactly the ones of the model of the results (all but `s2q` and `linearity`). -/
theorem C69_attributes (name : Str) :
    name ∈ Dict.keys (clsInfo asciiLower resultsDocs) ↔
      ∃ (s : String) (a : Attr), (s, a) ∈ attrOfName ∧ a ≠ .s2q ∧ a ≠ .linearity ∧ name = s.toList := by
  have hd := documented
  have h1 : name ∈ Dict.keys (clsInfo asciiLower resultsDocs) ↔
      name ∈ (resultsDocs.filter fun d => (docInfo asciiLower d.2).isSome).map (·.1) := by
    constructor
    · intro h
      obtain ⟨info, hi⟩ := (Dict.has_iff_exists _ _).1 ((Dict.has_iff _ _).2 h)
      obtain ⟨doc, hg, hdoc⟩ := ((C47_class asciiLower resultsDocs).2 _ _).1 hi
      exact List.mem_map.2 ⟨(name, some doc), List.mem_filter.2 ⟨Dict.get?_mem hg, by simp [hdoc]⟩, rfl⟩
    · intro h
      obtain ⟨⟨n, doc⟩, hm, rfl⟩ := List.mem_map.1 h
      obtain ⟨hm, hs⟩ := List.mem_filter.1 hm
      obtain ⟨info, hi⟩ := Option.isSome_iff_exists.1 hs
      have hg := Dict.get?_of_mem docs_wf hm
      cases doc with
      | none => simp [docInfo] at hi
      | some doc =>
        exact Dict.mem_keys_of_get? (((C47_class asciiLower resultsDocs).2 _ _).2 ⟨doc, hg, hi⟩)
  rw [h1, hd, List.mem_map]
  constructor
  · rintro ⟨⟨s, a⟩, hm, rfl⟩
    obtain ⟨hm, ha⟩ := List.mem_filter.1 hm
    exact ⟨s, a, hm, (of_decide_eq_true ha).1, (of_decide_eq_true ha).2, rfl⟩
  · rintro ⟨s, a, hm, ha, hb, rfl⟩
    exact ⟨(s, a), List.mem_filter.2 ⟨hm, decide_eq_true ⟨ha, hb⟩⟩, rfl⟩

/-- C69: whatever the values of the attributes are, if they can be computed, every
`op.results.<section>.<attribute>.<key>` of the template is found in `results_by_section`; the key
`value` holds the value of the attribute (which is not a dictionary), the other ones a text of the
documentation. -/
theorem C69_references {F : Type} (val : Str → Except PyErr (PyVal F)) (v : Str → PyVal F)
    (hv : ∀ name ∈ Dict.keys (clsInfo asciiLower resultsDocs), val name = .ok (v name)) :
    ∃ r s, objToDict asciiLower resultsDocs val = .ok r ∧ sectionsFirst r = .ok s ∧
      ∀ t ∈ templateRefs, ∃ d e, Dict.get? s t.1 = some d ∧ Dict.get? d t.2.1 = some e ∧
        (t.2.2 = "value".toList → (∀ dct, v t.2.1 ≠ .dict dct) → Dict.get? e t.2.2 = some (v t.2.1)) ∧
        (t.2.2 ≠ "value".toList → ∃ text, Dict.get? e t.2.2 = some (.str text)) := by
  obtain ⟨r, h1, h2, h3⟩ := C67_results asciiLower resultsDocs val v hv
  have hcls := C47_class asciiLower resultsDocs
  have hwf : Dict.WF r := by
    unfold Dict.WF
    rw [h2]; exact hcls.1.imp ne_of_lt
  obtain ⟨s, h4, h5, h6, h7⟩ := C46_sections r hwf (by
    intro kv hkv
    have hk : kv.1 ∈ Dict.keys (clsInfo asciiLower resultsDocs) := h2 ▸ List.mem_map_of_mem hkv
    obtain ⟨info, hi⟩ := (Dict.has_iff_exists _ _).1 ((Dict.has_iff _ _).2 hk)
    obtain ⟨e, he, -, -, hrest⟩ := h3 kv.1 info hi
    have : e = kv.2 := by
      have := Dict.get?_of_mem hwf hkv
      rw [he] at this
      exact Option.some.inj this
    subst this
    obtain ⟨doc, -, hd⟩ := (hcls.2 _ _).1 hi
    obtain ⟨t, ht⟩ := docInfo_section hd
    exact ⟨t, by rw [hrest sectionKey (by decide) (by decide), ht]; rfl⟩)
  refine ⟨r, s, h1, h4, ?_⟩
  intro t ht
  have hok := List.all_eq_true.1 refs_ok t ht
  have hdata := of_decide_eq_true (List.all_eq_true.1 refs_no_data t ht)
  unfold refOk at hok
  split at hok
  swap
  · cases hok
  rename_i doc hdoc
  split at hok
  swap
  · cases hok
  rename_i info hinfo
  rw [Bool.and_eq_true, Bool.or_eq_true] at hok
  obtain ⟨hsec, hkey⟩ := hok
  have hsec := of_decide_eq_true hsec
  have hi := (hcls.2 _ _).2 ⟨doc, hdoc, hinfo⟩
  obtain ⟨e, he, -, hval, hrest⟩ := h3 t.2.1 info hi
  have hmem : (t.2.1, e) ∈ s.flatMap Prod.snd := (h7.mem_iff).2 (Dict.get?_mem he)
  obtain ⟨sl, hsl, hin⟩ := List.mem_flatMap.1 hmem
  obtain ⟨-, hsub, hown⟩ := h6 sl hsl
  have hsl1 : sl.1 = t.1 := by
    have e1 := hown _ hin
    rw [show Dict.get? (t.2.1, e).2 sectionKey = Dict.get? e sectionKey from rfl,
      hrest sectionKey (by decide) (by decide), hsec] at e1
    simp only [Option.map_some, Option.some.injEq, PyVal.str.injEq] at e1
    exact e1.symm
  have g1 : Dict.get? s t.1 = some sl.2 :=
    Dict.get?_of_mem (by unfold Dict.WF; exact h5.imp ne_of_lt) (by rw [← hsl1]; exact hsl)
  have g2 : Dict.get? sl.2 t.2.1 = some e :=
    Dict.get?_of_mem (by
      unfold Dict.WF Dict.keys
      exact (hsub.map _).nodup hwf) hin
  refine ⟨sl.2, e, g1, g2, fun hk hnd => ?_, fun hk => ?_⟩
  · rw [hk]; exact hval hnd
  · have hk' : (Dict.get? info t.2.2).isSome = true := by
      rcases hkey with h | h
      · exact absurd (of_decide_eq_true h) hk
      · exact h
    obtain ⟨text, htext⟩ := Option.isSome_iff_exists.1 hk'
    exact ⟨text, by rw [hrest _ hdata hk, htext]; rfl⟩

/-- C69: the template refers to the sixteen plots that `add` makes, each once. -/
theorem C69_plots : templatePlots.Nodup ∧ templatePlots.Perm plotClasses := by
  constructor <;> decide +kernel

/-- C69: every number of the template can be shown, for all results: if the attribute can be computed,
the cell is the dash (only in a cell with the filter, for a missing value) or the number to the given
digits; in a cell without the filter a missing value appears as `nan`. -/
theorem C69_cells (q : LSQ ℝ) (r : Res ℝ) (c : Report.Cell) (hc : c ∈ templateCells) (v : Value)
    (hv : (read q c.attr r).1 = .ok v) :
    ∃ x s, v = .num x ∧ (Report.Cell.render c (ofNum x)) = .ok s ∧
      ((∃ y, x = .num y ∧ CellText c.digits y s) ∨
       (x = .npnan ∧ s = (if c.filtered then "-" else "nan").toList) ∨
       (x = .none ∧ c.filtered = true ∧ s = "-".toList)) := by
  let Goal : Report.Cell → Prop := fun c => ∃ x s, v = .num x ∧ (Report.Cell.render c (ofNum x)) = .ok s ∧
      ((∃ y, x = .num y ∧ CellText c.digits y s) ∨
       (x = .npnan ∧ s = (if c.filtered then "-" else "nan").toList) ∨
       (x = .none ∧ c.filtered = true ∧ s = "-".toList))
  have num : ∀ (c : Report.Cell) (y : Fl ℝ), Report.Cell.render c (ofNum (.num y)) = .ok (fmtFloat c.digits y) := by
    rintro ⟨a, d, b⟩ y; cases b <;> rfl
  have fin : ∀ (c : Report.Cell) (m : M ℝ (Fl ℝ)), (m.as (fun x => Value.num (.num x)) r).1 = .ok v → Goal c := by
    intro c m hm
    obtain ⟨a, -, rfl⟩ := as_ok hm
    exact ⟨.num a, _, rfl, num c a, .inl ⟨a, rfl, fmtFloat_text _ _⟩⟩
  have filt : ∀ (a : Attr) (d : ℕ) (m : M ℝ (PyNum ℝ)), (m.as Value.num r).1 = .ok v → Goal ⟨a, d, true⟩ := by
    intro a d m hm
    obtain ⟨x, -, rfl⟩ := as_ok hm
    cases x with
    | none => exact ⟨.none, _, rfl, rfl, .inr (.inr ⟨rfl, rfl, rfl⟩)⟩
    | npnan => exact ⟨.npnan, _, rfl, rfl, .inr (.inl ⟨rfl, by rw [if_pos rfl]; rfl⟩)⟩
    | num y => exact ⟨.num y, _, rfl, num _ y, .inl ⟨y, rfl, fmtFloat_text _ _⟩⟩
  have nonone : ∀ (a : Attr) (d : ℕ) (m : M ℝ (PyNum ℝ)), ((m r).1 ≠ .ok .none) → (m.as Value.num r).1 = .ok v →
      Goal ⟨a, d, false⟩ := by
    intro a d m hn hm
    obtain ⟨x, hx, rfl⟩ := as_ok hm
    cases x with
    | none => exact absurd hx hn
    | npnan => exact ⟨.npnan, _, rfl, rfl, .inr (.inl ⟨rfl, rfl⟩)⟩
    | num y => exact ⟨.num y, _, rfl, num _ y, .inl ⟨y, rfl, fmtFloat_text _ _⟩⟩
  change Goal c
  simp only [templateCells, List.mem_cons, List.not_mem_nil, or_false] at hc
  rcases hc with rfl | rfl | rfl | rfl | rfl | rfl | rfl | rfl | rfl | rfl | rfl | rfl | rfl | rfl | rfl | rfl |
    rfl | rfl | rfl | rfl | rfl | rfl | rfl | rfl | rfl | rfl | rfl | rfl | rfl | rfl | rfl | rfl | rfl <;>
  first
    | exact fin _ _ hv
    | exact filt _ _ _ hv
    | exact nonone _ _ _ (fun h => dsnu_not_none _ _ _ h) hv

-- the hypotheses: values can be computed (here all equal); there are references of both kinds
example : ∃ r s, objToDict asciiLower resultsDocs (fun _ => .ok (PyVal.num (.fin (1 : ℚ)))) = .ok r ∧
    sectionsFirst r = .ok s ∧ ∃ d, Dict.get? s "sensitivity".toList = some d := by
  obtain ⟨r, s, h1, h2, h3⟩ := C69_references (fun _ => .ok (PyVal.num (.fin (1 : ℚ)))) (fun _ => PyVal.num (.fin 1))
    (fun _ _ => rfl)
  obtain ⟨d, e, h4, -⟩ := h3 ("sensitivity".toList, "QE".toList, "short".toList) (by decide +kernel)
  exact ⟨r, s, h1, h2, d, h4⟩
example : (templateRefs.filter fun t => t.2.2 = "value".toList).length = 33 ∧
    (templateRefs.filter fun t => t.2.2 ≠ "value".toList).length = 68 := by decide +kernel
-- a cell that can be computed for all results without a pixel area
example (q : LSQ ℝ) (r : Res ℝ) (h : r.pixel_area = none) : ∃ s, (⟨.u_p_min_area, 3, true⟩ : Report.Cell) ∈ templateCells ∧
    (read q .u_p_min_area r).1 = .ok (.num .none) ∧
    Report.Cell.render ⟨.u_p_min_area, 3, true⟩ (ofNum .none) = .ok s ∧ s = "-".toList := by
  refine ⟨_, by simp [templateCells], ?_, rfl, rfl⟩
  have key : ∀ m : Results.M ℝ (Fl ℝ), (Results.perArea m r).1 = .ok .none := by
    intro m
    show (Results.M.bind (Results.ask Results.Res.pixel_area) _ r).1 = _
    simp only [Results.M.bind, Results.ask, h]
    rfl
  have e : (read q .u_p_min_area r).1 = (Results.M.bind (Results.uPMinArea q) (fun x => pure (Value.num x)) r).1 := rfl
  have h1 : (Results.uPMinArea q r).1 = .ok .none := key _
  rw [e, Results.M.bind]
  generalize Results.uPMinArea q r = y at h1
  obtain ⟨y, r'⟩ := y
  obtain rfl : y = .ok .none := h1
  rfl

end Emva
