import Verif.Model.Print
import Verif.Spec.Print
import Verif.Props.C78

/-!
C87: the printout of the results.
-/
set_option autoImplicit false
namespace Emva
open Py Results Xml Info Report Export Print Spec

namespace Print

/-! ### the table and the docstrings -/

/-- what the printout uses of an attribute -/
structure Used where
  name : Str
  sec : Option Str
  short : Option Str
  symbol : Option Str
  value : Option Str
  attr : Option Attr
  known : Bool
  deriving DecidableEq

/-- in the documentation -/
def docRow (ki : Str × List (Str × Str)) : Used :=
  ⟨ki.1, Dict.get? ki.2 sectionKey, Dict.get? ki.2 shortKey, Dict.get? ki.2 symbolKey, Dict.get? ki.2 valueKey, attrNamed ki.1, true⟩

/-- in the table -/
def tabRow (p : PrintRow) : Used :=
  ⟨p.name.toList, some p.sec.toList, some p.short.toList, p.symbol.map String.toList, none, some p.attr,
    decide (p.attr ≠ .s2q ∧ p.attr ≠ .linearity)⟩

theorem table_rows : (printTable.map fun p => docRow (p.name.toList,
    (docInfo asciiLower ((Dict.get? resultsDocs p.name.toList).getD none)).getD [])) = printTable.map tabRow := by
  decide +kernel

theorem table_sorted : (printTable.map fun p => p.name.toList).Pairwise (· < ·) := by decide +kernel

theorem table_names : (printTable.all fun p => decide (p.name.toList ∈
      (attrOfName.filter fun a => decide (a.2 ≠ .s2q ∧ a.2 ≠ .linearity)).map (·.1.toList))) = true ∧
    (((attrOfName.filter fun a => decide (a.2 ≠ .s2q ∧ a.2 ≠ .linearity)).map (·.1.toList)).all fun n =>
      decide (n ∈ printTable.map fun p => p.name.toList)) = true := by
  constructor <;> decide +kernel

theorem secs_sorted : (printSecs.map String.toList).Pairwise (· < ·) := by decide +kernel

theorem secs_mem : ((printTable.map fun p => p.sec.toList).all fun s => decide (s ∈ printSecs.map String.toList)) = true ∧
    ((printSecs.map String.toList).all fun s => decide (s ∈ printTable.map fun p => p.sec.toList)) = true := by
  constructor <;> decide +kernel

/-- sorted lists with the same members are equal -/
theorem sorted_ext {a b : List Str} (ha : a.Pairwise (· < ·)) (hb : b.Pairwise (· < ·)) (h : ∀ x, x ∈ a ↔ x ∈ b) : a = b :=
  ((List.perm_ext_iff_of_nodup (ha.imp ne_of_lt) (hb.imp ne_of_lt)).2 h).eq_of_pairwise
    (fun _ _ _ _ h1 h2 => absurd (lt_trans h1 h2) (lt_irrefl _)) ha hb

theorem table_secs : sortedUnion (printTable.map fun p => p.sec.toList) [] = printSecs.map String.toList := by
  obtain ⟨h1, h2⟩ := sortedUnion_spec (printTable.map fun p => p.sec.toList) []
  refine sorted_ext h1 secs_sorted fun x => (h2 x).trans ⟨?_, ?_⟩
  · rintro (h | h)
    · exact of_decide_eq_true (List.all_eq_true.1 secs_mem.1 x h)
    · cases h
  · exact fun h => .inl (of_decide_eq_true (List.all_eq_true.1 secs_mem.2 x h))

theorem keys_table : Dict.keys (clsInfo asciiLower resultsDocs) = printTable.map fun p => p.name.toList := by
  refine sorted_ext (C47_class _ _).1 table_sorted fun x => (C69_attributes x).trans ?_
  have key : (∃ (s : String) (a : Attr), (s, a) ∈ attrOfName ∧ a ≠ .s2q ∧ a ≠ .linearity ∧ x = s.toList) ↔
      x ∈ (attrOfName.filter fun a => decide (a.2 ≠ .s2q ∧ a.2 ≠ .linearity)).map (·.1.toList) := by
    rw [List.mem_map]
    constructor
    · rintro ⟨s, a, hm, h1, h2, rfl⟩
      exact ⟨(s, a), List.mem_filter.2 ⟨hm, decide_eq_true ⟨h1, h2⟩⟩, rfl⟩
    · rintro ⟨⟨s, a⟩, hm, rfl⟩
      obtain ⟨hm, ha⟩ := List.mem_filter.1 hm
      exact ⟨s, a, hm, (of_decide_eq_true ha).1, (of_decide_eq_true ha).2, rfl⟩
  rw [key]
  constructor
  · exact fun h => of_decide_eq_true (List.all_eq_true.1 table_names.2 x h)
  · intro h
    obtain ⟨p, hp, rfl⟩ := List.mem_map.1 h
    exact of_decide_eq_true (List.all_eq_true.1 table_names.1 p hp)

theorem table_docs : (clsInfo asciiLower resultsDocs).map docRow = printTable.map tabRow := by
  rw [← table_rows]
  have hcls := C47_class asciiLower resultsDocs
  have hwf : Dict.WF (clsInfo asciiLower resultsDocs) := by
    unfold Dict.WF; exact hcls.1.imp ne_of_lt
  have h1 : (clsInfo asciiLower resultsDocs).map docRow = (Dict.keys (clsInfo asciiLower resultsDocs)).map fun n =>
      docRow (n, (docInfo asciiLower ((Dict.get? resultsDocs n).getD none)).getD []) := by
    rw [Dict.keys, List.map_map]
    refine List.map_congr_left fun ki hki => ?_
    obtain ⟨n, info⟩ := ki
    obtain ⟨doc, hg, hi⟩ := (hcls.2 n info).1 (Dict.get?_of_mem hwf hki)
    simp only [Function.comp_apply, hg, Option.getD_some, hi]
  rw [h1, keys_table, List.map_map]
  rfl

theorem forall₂_of_map {α β γ : Type} {f : α → γ} {g : β → γ} : ∀ {l : List α} {t : List β}, l.map f = t.map g →
    List.Forall₂ (fun a b => f a = g b) l t
  | [], [], _ => .nil
  | [], _ :: _, h => by simp at h
  | _ :: _, [], h => by simp at h
  | a :: l, b :: t, h => by
    rw [List.map_cons, List.map_cons, List.cons.injEq] at h
    exact .cons h.1 (forall₂_of_map h.2)

theorem filterMap_forall₂ {α β γ : Type} {R : α → β → Prop} {f : α → Option γ} {g : β → Option γ} {l : List α} {t : List β}
    (h : List.Forall₂ R l t) (hR : ∀ a b, R a b → f a = g b) : l.filterMap f = t.filterMap g := by
  induction h with
  | nil => rfl
  | cons hab _ ih => rw [List.filterMap_cons, List.filterMap_cons, hR _ _ hab, ih]

theorem map_forall₂ {α β γ : Type} {R : α → β → Prop} {f : α → γ} {g : β → γ} {l : List α} {t : List β}
    (h : List.Forall₂ R l t) (hR : ∀ a b, R a b → f a = g b) : l.map f = t.map g := by
  induction h with
  | nil => rfl
  | cons hab _ ih => rw [List.map_cons, List.map_cons, hR _ _ hab, ih]

theorem forall₂_mem {α β : Type} {R : α → β → Prop} {l : List α} {t : List β} (h : List.Forall₂ R l t) :
    ∀ a ∈ l, ∃ b ∈ t, R a b := by
  induction h with
  | nil => simp
  | cons hab _ ih =>
    intro a ha
    rcases List.mem_cons.1 ha with rfl | ha
    · exact ⟨_, by simp, hab⟩
    · obtain ⟨b, hb, hR⟩ := ih a ha
      exact ⟨b, by simp [hb], hR⟩

theorem forall₂_mono {α β : Type} {R S : α → β → Prop} {l : List α} {t : List β} (h : List.Forall₂ R l t)
    (hRS : ∀ a b, R a b → S a b) : List.Forall₂ S l t := by
  induction h with
  | nil => exact .nil
  | cons hab _ ih => exact .cons (hRS _ _ hab) ih

/-! ### sections -/

/-- the groups of `_sections_first` -/
theorem sectionsFirst_eq {F : Type} (dct : List (Str × List (Str × PyVal F))) (hwf : Dict.WF dct)
    (f : Str × List (Str × PyVal F) → Str) (hf : ∀ kv ∈ dct, HasSection kv.2 (f kv)) :
    sectionsFirst dct = .ok ((sortedUnion (dct.map f) []).map fun s => (s, dct.filter fun kv => decide (f kv = s))) := by
  have h1 : (dct.mapM fun kv => sectionOf kv.2) = .ok (dct.map f) :=
    mapM_ok fun kv hkv => sectionOf_ok.2 (hf kv hkv)
  have h2 : ((sortedUnion (dct.map f) []).mapM fun s => do
      let d ← sectionLoop s [] dct
      Except.ok (s, d)) = .ok ((sortedUnion (dct.map f) []).map fun s => (s, dct.filter fun kv => decide (f kv = s))) :=
    mapM_ok fun s _ => by
      rw [sectionLoop_eq f s dct hf [] (by simpa using hwf)]; rfl
  rw [sectionsFirst, h1, ok_bind, h2]

/-! ### printing -/

theorem printAttrs_ok (fmt : Fl ℝ → Str) (repr : PyVal ℝ → Str) (line : Str × List (Str × PyVal ℝ) → Option Str)
    (l : List (Str × List (Str × PyVal ℝ)))
    (h : ∀ kv ∈ l, (Dict.has kv.2 valueKey = false ∧ line kv = none) ∨
      (Dict.has kv.2 valueKey = true ∧ ∃ t, attrLine fmt repr kv.2 = .ok t ∧ line kv = some t)) :
    printAttrs fmt repr l = (l.filterMap line, .ok ()) := by
  induction l with
  | nil => rfl
  | cons kv l ih =>
    have ih' := ih fun kv hkv => h kv (by simp [hkv])
    obtain ⟨k, e⟩ := kv
    rcases h (k, e) (by simp) with ⟨h1, h2⟩ | ⟨h1, t, h2, h3⟩
    · rw [printAttrs, if_neg (by rw [h1]; simp), ih', List.filterMap_cons_none h2]
    · rw [printAttrs, if_pos h1, h2, ih', List.filterMap_cons_some h3]

theorem printSections_ok (fmt : Fl ℝ → Str) (repr : PyVal ℝ → Str) (line : Str × List (Str × PyVal ℝ) → Option Str)
    (l : List (Str × List (Str × List (Str × PyVal ℝ))))
    (h : ∀ sl ∈ l, ∀ kv ∈ sl.2, (Dict.has kv.2 valueKey = false ∧ line kv = none) ∨
      (Dict.has kv.2 valueKey = true ∧ ∃ t, attrLine fmt repr kv.2 = .ok t ∧ line kv = some t)) :
    printSections fmt repr l = (l.flatMap fun sl =>
      [List.replicate 50 '*', sl.1, List.replicate 50 '-'] ++ sl.2.filterMap line, .ok ()) := by
  induction l with
  | nil => rfl
  | cons sl l ih =>
    obtain ⟨s, as⟩ := sl
    rw [printSections, printAttrs_ok fmt repr line as (h (s, as) (by simp)), ih fun sl hsl => h sl (by simp [hsl])]
    rfl

theorem attrLine_eq (fmt : Fl ℝ → Str) (repr : PyVal ℝ → Str) (e : List (Str × PyVal ℝ)) (p : PrintRow) (v : PyVal ℝ)
    (h1 : Dict.get? e shortKey = some (.str p.short.toList)) (h2 : Dict.get? e symbolKey = (p.symbol.map String.toList).map .str)
    (h3 : Dict.get? e valueKey = some v) : attrLine fmt repr e = .ok (p.line (strVal fmt repr v)) := by
  have hs : strVal fmt repr (getNone e symbolKey) = p.sym := by
    rw [getNone, h2, PrintRow.sym]
    cases p.symbol <;> rfl
  rw [attrLine, getNone, h1, hs, getNone, h3]
  show Except.ok _ = Except.ok _
  congr 1
  simp only [ljust, rjust, PrintRow.line, Option.getD_some, List.append_assoc]

/-- what is known of an attribute and its row -/
structure RowOk (q : LSQ ℝ) (r : Res ℝ) (V : Attr → Value) (W : Str → PyVal ℝ) (ki : Str × List (Str × Str)) (p : PrintRow) :
    Prop where
  sec : Dict.get? ki.2 sectionKey = some p.sec.toList
  short : Dict.get? ki.2 shortKey = some p.short.toList
  symbol : Dict.get? ki.2 symbolKey = p.symbol.map String.toList
  noval : Dict.get? ki.2 valueKey = none
  val : ∃ m, W ki.1 = asVal (payloadOf m (V p.attr)) ∧ valueNamed q r ki.1 = .ok (W ki.1) ∧ ∀ l, V p.attr ≠ .lin l

theorem asVal_dict (m : List (Fl ℝ)) (v : Value) (hl : ∀ l, v ≠ .lin l) (fmt : Fl ℝ → Str) (repr : PyVal ℝ → Str) :
    ((∃ d, asVal (payloadOf m v) = .dict d) ∧ printed fmt v = none) ∨
      ((∀ d, asVal (payloadOf m v) ≠ .dict d) ∧ printed fmt v = some (strVal fmt repr (asVal (payloadOf m v)))) := by
  rcases v with i | (_ | _ | x) | l | h
  · exact .inr ⟨fun d hd => (by cases hd), rfl⟩
  · exact .inr ⟨fun d hd => (by cases hd), rfl⟩
  · exact .inr ⟨fun d hd => (by cases hd), rfl⟩
  · exact .inr ⟨fun d hd => (by cases hd), rfl⟩
  · exact absurd rfl (hl l)
  · exact .inl ⟨⟨_, rfl⟩, rfl⟩

theorem withValue_set {info : List (Str × Str)} {v : PyVal ℝ} (h : ∀ d, v ≠ .dict d) :
    withValue info v = Dict.set (info.map fun kv => (kv.1, PyVal.str kv.2)) valueKey v := by
  cases v with
  | dict d => exact absurd rfl (h d)
  | none => rfl
  | num => rfl
  | str => rfl
  | arr => rfl

theorem withValue_get {info : List (Str × Str)} {v : PyVal ℝ} {k : Str} (h1 : dataKey ≠ k) (h2 : valueKey ≠ k) :
    Dict.get? (withValue info v) k = (Dict.get? info k).map .str := by
  by_cases h : ∃ d, v = .dict d
  · obtain ⟨d, rfl⟩ := h
    rw [withValue, Dict.get?_set_ne _ _ h1, get?_map_str]
  · rw [withValue_set (by simpa using h), Dict.get?_set_ne _ _ h2, get?_map_str]

/-- the line of an entry -/
noncomputable def entryLine (fmt : Fl ℝ → Str) (repr : PyVal ℝ → Str) (kv : Str × List (Str × PyVal ℝ)) : Option Str :=
  if Dict.has kv.2 valueKey then (attrLine fmt repr kv.2).toOption else none

theorem entry_row {q : LSQ ℝ} {r : Res ℝ} {V : Attr → Value} {W : Str → PyVal ℝ} {ki : Str × List (Str × Str)} {p : PrintRow}
    (h : RowOk q r V W ki p) (fmt : Fl ℝ → Str) (repr : PyVal ℝ → Str) :
    HasSection (withValue ki.2 (W ki.1)) p.sec.toList ∧
    ((Dict.has (withValue ki.2 (W ki.1)) valueKey = false ∧ printed fmt (V p.attr) = none) ∨
     (Dict.has (withValue ki.2 (W ki.1)) valueKey = true ∧ ∃ t, attrLine fmt repr (withValue ki.2 (W ki.1)) = .ok (p.line t) ∧
       printed fmt (V p.attr) = some t)) := by
  obtain ⟨m, hW, -, hl⟩ := h.val
  refine ⟨by rw [HasSection, withValue_get (by decide) (by decide), h.sec]; rfl, ?_⟩
  rcases asVal_dict m (V p.attr) hl fmt repr with ⟨⟨d, hd⟩, hs⟩ | ⟨hd, hs⟩
  · left
    refine ⟨?_, hs⟩
    rw [hW, hd]
    have : ¬ Dict.has (withValue ki.2 (PyVal.dict d)) valueKey = true := by
      rw [Dict.has_iff_exists]
      rintro ⟨w, hw⟩
      rw [withValue, Dict.get?_set_ne _ _ (by decide), get?_map_str, h.noval] at hw
      cases hw
    simpa using this
  · right
    rw [hW]
    have hg : Dict.get? (withValue ki.2 (asVal (payloadOf m (V p.attr)))) valueKey = some (asVal (payloadOf m (V p.attr))) := by
      rw [withValue_set hd]; exact Dict.get?_set_self _ _ _
    refine ⟨(Dict.has_iff_exists _ _).2 ⟨_, hg⟩, _, attrLine_eq fmt repr _ p _ ?_ ?_ hg, hs⟩
    · rw [withValue_get (by decide) (by decide), h.short]; rfl
    · rw [withValue_get (by decide) (by decide), h.symbol]

theorem filter_filterMap {α β : Type} (p : α → Bool) (f : α → Option β) (l : List α) :
    (l.filter p).filterMap f = l.filterMap fun a => if p a then f a else none := by
  induction l with
  | nil => rfl
  | cons a l ih =>
    by_cases h : p a
    · rw [List.filter_cons_of_pos h, List.filterMap_cons, List.filterMap_cons, if_pos h, ih]
    · rw [List.filter_cons_of_neg h, List.filterMap_cons, if_neg h, ih]

theorem str_toList_inj {a b : String} : a.toList = b.toList ↔ a = b :=
  ⟨fun h => String.toList_injective h, fun h => h ▸ rfl⟩

theorem rows_ok {q : LSQ ℝ} {r : Res ℝ} {V : Attr → Value}
    (hV : ∀ a : Attr, a ≠ .s2q → a ≠ .linearity → (Results.read q a r).1 = .ok (V a)) :
    ∃ W, List.Forall₂ (RowOk q r V W) (clsInfo asciiLower resultsDocs) printTable := by
  classical
  let W : Str → PyVal ℝ := fun name => match valueNamed q r name with
    | .ok v => v
    | .error _ => .none
  refine ⟨W, forall₂_mono (forall₂_of_map table_docs) fun ki p h => ?_⟩
  simp only [docRow, tabRow, Used.mk.injEq] at h
  obtain ⟨-, h2, h3, h4, h5, h6, h7⟩ := h
  obtain ⟨n1, n2⟩ := of_decide_eq_true h7.symm
  obtain ⟨m, hm, -, -⟩ := val_readVal n2 (q := q) (r := r) (hV _ n1 n2)
  have hval : valueNamed q r ki.1 = .ok (asVal (payloadOf m (V p.attr))) := by
    unfold valueNamed
    rw [h6]; exact hm
  have hW : W ki.1 = asVal (payloadOf m (V p.attr)) := by simp only [W, hval]
  exact ⟨h2, h3, h4, h5, m, hW, by rw [hW]; exact hval, fun l e => read_not_lin n2 q r l (by rw [← e]; exact hV _ n1 n2)⟩

end Print

/-- C87: `print_results` of an object whose attributes can all be computed prints exactly the printout of the values: the
sections in alphabetical order, each with its heading and one line for every attribute of the section that is not a histogram,
in alphabetical order of the names. -/
theorem C87_printout (lower : Str → Str) (hl : ∀ s : Str, (∀ c ∈ s, c.toNat < 128) → lower s = s.map Char.toLower)
    (fmt : Fl ℝ → Str) (repr : PyVal ℝ → Str) (q : LSQ ℝ) (r : Res ℝ) (V : Attr → Value)
    (hV : ∀ a : Attr, a ≠ .s2q → a ≠ .linearity → (Results.read q a r).1 = .ok (V a)) :
    (printResults lower fmt repr q r).1 = (printout fmt V, .ok ()) := by
  obtain ⟨W, hrows⟩ := rows_ok hV
  have hcls := C47_class asciiLower resultsDocs
  set L := clsInfo asciiLower resultsDocs with hL
  let dct := L.map fun ki => (ki.1, withValue ki.2 (W ki.1))
  have hres : val (results lower q) r = .ok dct := by
    rw [val_results, objToDict, clsInfo_lower hl]
    exact mapM_ok fun ki hki => by
      obtain ⟨p, -, hp⟩ := forall₂_mem hrows ki hki
      obtain ⟨m, -, hv, -⟩ := hp.val
      rw [hv]; rfl
  have hwf : Dict.WF dct := by
    unfold Dict.WF Dict.keys
    simp only [dct, List.map_map]
    exact hcls.1.imp ne_of_lt
  let f : Str × List (Str × PyVal ℝ) → Str := fun kv =>
    match Dict.get? kv.2 sectionKey with
    | some (.str s) => s
    | _ => []
  have hfr : ∀ ki p, RowOk q r V W ki p → f (ki.1, withValue ki.2 (W ki.1)) = p.sec.toList := by
    intro ki p h
    have := (entry_row h fmt repr).1
    unfold HasSection at this
    simp only [f, this]
  have hf : ∀ kv ∈ dct, HasSection kv.2 (f kv) := by
    intro kv hkv
    obtain ⟨ki, hki, rfl⟩ := List.mem_map.1 hkv
    obtain ⟨p, -, hp⟩ := forall₂_mem hrows ki hki
    rw [hfr ki p hp]
    exact (entry_row hp fmt repr).1
  have hsec := sectionsFirst_eq dct hwf f hf
  have hsecs : sortedUnion (dct.map f) [] = printSecs.map String.toList := by
    rw [← table_secs]
    congr 1
    simp only [dct, List.map_map]
    exact map_forall₂ hrows fun ki p h => hfr ki p h
  rw [hsecs] at hsec
  have hby : (bySection lower q r).1 = .ok ((printSecs.map String.toList).map fun s => (s, dct.filter fun kv => decide (f kv = s))) := by
    have e : val (bySection lower q) r = val (lift (sectionsFirst dct) : M ℝ _) r :=
      val_bind_ok (stable_resultsLoop q _) (fun _ => Stable.lift _) hres
    show val (bySection lower q) r = _
    rw [e, val_lift, hsec]
  have hlines : ∀ sl ∈ ((printSecs.map String.toList).map fun s => (s, dct.filter fun kv => decide (f kv = s))), ∀ kv ∈ sl.2,
      (Dict.has kv.2 valueKey = false ∧ entryLine fmt repr kv = none) ∨
      (Dict.has kv.2 valueKey = true ∧ ∃ t, attrLine fmt repr kv.2 = .ok t ∧ entryLine fmt repr kv = some t) := by
    intro sl hsl kv hkv
    obtain ⟨s, -, rfl⟩ := List.mem_map.1 hsl
    obtain ⟨ki, hki, rfl⟩ := List.mem_map.1 (List.mem_filter.1 hkv).1
    obtain ⟨p, -, hp⟩ := forall₂_mem hrows ki hki
    rcases (entry_row hp fmt repr).2 with ⟨h1, -⟩ | ⟨h1, t, h2, -⟩
    · exact .inl ⟨h1, by rw [entryLine, if_neg (by rw [h1]; simp)]⟩
    · exact .inr ⟨h1, _, h2, by rw [entryLine, if_pos h1, h2]; rfl⟩
  have hps := printSections_ok fmt repr (entryLine fmt repr) _ hlines
  have hlist : ((printSecs.map String.toList).map fun s => (s, dct.filter fun kv => decide (f kv = s))).flatMap (fun sl =>
      [List.replicate 50 '*', sl.1, List.replicate 50 '-'] ++ sl.2.filterMap (entryLine fmt repr)) =
      printSecs.flatMap (sectionLines fmt V) := by
    rw [List.map_map, List.flatMap_map]
    refine List.flatMap_congr fun s _ => ?_
    simp only [Function.comp_apply, sectionLines]
    congr 1
    rw [filter_filterMap, filter_filterMap, List.filterMap_map]
    refine filterMap_forall₂ hrows fun ki p hp => ?_
    simp only [Function.comp_apply, hfr ki p hp, str_toList_inj]
    congr 1
    rcases (entry_row hp fmt repr).2 with ⟨h1, h2⟩ | ⟨h1, t, h2, h3⟩
    · rw [entryLine, if_neg (by rw [h1]; simp), h2]; rfl
    · rw [entryLine, if_pos h1, h2, h3]; rfl
  rw [hlist] at hps
  unfold printResults
  rcases hb : bySection lower q r with ⟨o, r'⟩
  rw [hb] at hby
  subst hby
  simp only [hps]
  rfl

namespace Print

theorem mapM_error {α β : Type} {f : α → Except PyErr β} {l : List α} {e : PyErr} (h : l.mapM f = .error e) :
    ∃ x ∈ l, f x = .error e := by
  induction l with
  | nil => cases h
  | cons a l ih =>
    rw [List.mapM_cons] at h
    rcases ha : f a with e' | b
    · rw [ha] at h
      exact ⟨a, by simp, by rw [ha]; exact congrArg _ (Except.error.inj h)⟩
    · rw [ha, ok_bind] at h
      rcases hl : l.mapM f with e' | bs
      · rw [hl] at h
        obtain ⟨x, hx, hfx⟩ := ih (by rw [hl]; exact congrArg _ (Except.error.inj h))
        exact ⟨x, by simp [hx], hfx⟩
      · rw [hl] at h; cases h

theorem stable_bySection (lower : Str → Str) (q : LSQ ℝ) : Stable (bySection lower q) :=
  (stable_resultsLoop q _).bind fun _ => Stable.lift _

end Print

/-- C87: nothing is printed at all if an attribute cannot be computed; the error is the one of an attribute. -/
theorem C87_error (lower : Str → Str) (hl : ∀ s : Str, (∀ c ∈ s, c.toNat < 128) → lower s = s.map Char.toLower)
    (fmt : Fl ℝ → Str) (repr : PyVal ℝ → Str) (q : LSQ ℝ) (r : Res ℝ)
    (hn : ¬ ∀ a : Attr, a ≠ .s2q → a ≠ .linearity → ∃ v, (Results.read q a r).1 = .ok v) :
    ∃ a e, a ≠ .s2q ∧ a ≠ .linearity ∧ (Results.read q a r).1 = .error e ∧
      (printResults lower fmt repr q r).1 = ([], .error e) := by
  rcases hres : val (results lower q) r with e | d
  · have h := hres
    rw [val_results, objToDict, clsInfo_lower hl] at h
    obtain ⟨ki, hki, hv⟩ := mapM_error h
    obtain ⟨s, a, hm, h1, h2, hs⟩ := (C69_attributes ki.1).1 (List.mem_map_of_mem hki)
    have hval : val (readVal q a) r = .error e := by
      rcases hx : valueNamed q r ki.1 with e' | v
      · rw [hx] at hv
        obtain rfl : e' = e := Except.error.inj hv
        rw [hs, valueNamed, attrNamed_of_mem hm] at hx
        exact hx
      · rw [hx] at hv; cases hv
    refine ⟨a, e, h1, h2, ?_, ?_⟩
    · rcases hr : (Results.read q a r).1 with e' | v
      · have : val (readVal q a) r = .error e' := by
          unfold readVal
          show ((Results.read q a >>= _ : M ℝ (PyVal ℝ)) r).1 = _
          rw [bind_def]
          rcases hq : Results.read q a r with ⟨o, r'⟩
          rw [hq] at hr
          subst hr
          rfl
        rw [this] at hval
        exact congrArg _ (Except.error.inj hval)
      · obtain ⟨m, hv, -, -⟩ := val_readVal h2 (q := q) (r := r) hr
        rw [hv] at hval; cases hval
    · have hb : (bySection lower q r).1 = .error e := by
        show ((results lower q >>= _ : M ℝ _) r).1 = _
        rw [bind_def]
        rcases hq : results lower q r with ⟨o, r'⟩
        have : o = .error e := by rw [← hres]; unfold val; rw [hq]
        subst this
        rfl
      unfold printResults
      rcases hq : bySection lower q r with ⟨o, r'⟩
      rw [hq] at hb
      subst hb
      rfl
  · exfalso
    refine hn fun a h1 h2 => ?_
    rw [val_results, objToDict, clsInfo_lower hl] at hres
    have hall : ∀ a : Attr, ∃ s, (s, a) ∈ attrOfName := by
      intro a
      have : a ∈ attrOfName.map (·.2) := by cases a <;> decide
      obtain ⟨x, hx, rfl⟩ := List.mem_map.1 this
      exact ⟨x.1, hx⟩
    obtain ⟨s, hs⟩ := hall a
    have hn := (C69_attributes s.toList).2 ⟨s, a, hs, h1, h2, rfl⟩
    obtain ⟨ki, hki, hk⟩ := List.mem_map.1 hn
    obtain ⟨b, hb⟩ := mapM_ok_mem hres ki hki
    obtain ⟨v, hv, -⟩ := bind_ok_inv hb
    rw [hk, valueNamed, attrNamed_of_mem hs] at hv
    exact val_readVal_inv hv

/-- C87: printing does not change what any attribute is afterwards. -/
theorem C87_state (lower : Str → Str) (fmt : Fl ℝ → Str) (repr : PyVal ℝ → Str) (q : LSQ ℝ) (r : Res ℝ) (a : Attr) :
    (Results.read q a (printResults lower fmt repr q r).2).1 = (Results.read q a r).1 := by
  have h : (printResults lower fmt repr q r).2 = (bySection lower q r).2 := by
    unfold printResults
    rcases bySection lower q r with ⟨o, r'⟩
    rcases o with e | s
    · rfl
    · simp only
      rcases printSections fmt repr s with ⟨ls, e | ⟨⟩⟩ <;> rfl
  rw [h]
  rcases (stable_bySection lower q r).1 with h | h
  · rw [h]
  · rw [h]; exact (stable_read q a r).2

/-! ### reading the printout -/

namespace Print

theorem shown_some {q : LSQ ℝ} {r : Res ℝ} {a : Attr} {v : Value} (h : (Results.read q a r).1 = .ok v) (h2 : a ≠ .s2q)
    (hl : a ≠ .linearity) (fmt : Fl ℝ → Str) :
    (printed fmt v).isSome = decide (a ≠ .histogram_PRNU ∧ a ≠ .histogram_PRNU_accumulated ∧ a ≠ .histogram_DSNU ∧
      a ≠ .histogram_DSNU_accumulated) := by
  have hn : ∀ x : PyNum ℝ, (printed fmt (.num x)).isSome = true := by rintro (_ | _ | _) <;> rfl
  cases a <;> first
    | (exact absurd rfl hl)
    | (exact absurd rfl h2)
    | (obtain ⟨v, -, rfl⟩ := as_ok h; first | exact hn _ | rfl)

theorem table_widths : (printTable.all fun p => decide (p.short.toList.length ≤ 50) && decide (p.sym.length ≤ 30) &&
    decide (p.short.toList.getLast? ≠ some ' ') && decide (p.sym.getLast? ≠ some ' ')) = true := by decide +kernel

theorem dropWhile_pad (n : ℕ) (a : Str) (h : a.head? ≠ some ' ') :
    (List.replicate n ' ' ++ a).dropWhile (fun c => decide (c = ' ')) = a := by
  induction n with
  | zero =>
    cases a with
    | nil => rfl
    | cons c a =>
      have : c ≠ ' ' := fun e => h (by rw [e]; rfl)
      simp [this]
  | succ n ih => rw [List.replicate_succ, List.cons_append, List.dropWhile_cons_of_pos (by simp), ih]

theorem lpad_inj {m n : ℕ} {a b : Str} (ha : a.head? ≠ some ' ') (hb : b.head? ≠ some ' ')
    (h : List.replicate m ' ' ++ a = List.replicate n ' ' ++ b) : a = b := by
  rw [← dropWhile_pad m a ha, h, dropWhile_pad n b hb]

theorem rpad_inj {m n : ℕ} {a b : Str} (ha : a.getLast? ≠ some ' ') (hb : b.getLast? ≠ some ' ')
    (h : a ++ List.replicate m ' ' = b ++ List.replicate n ' ') : a = b := by
  have h' := congrArg List.reverse h
  rw [List.reverse_append, List.reverse_append, List.reverse_replicate, List.reverse_replicate] at h'
  exact List.reverse_injective (lpad_inj (by rwa [List.head?_reverse]) (by rwa [List.head?_reverse]) h')

theorem filterMap_length {α β : Type} (f : α → Option β) (g : α → Bool) (l : List α) (h : ∀ a ∈ l, (f a).isSome = g a) :
    (l.filterMap f).length = (l.filter g).length := by
  induction l with
  | nil => rfl
  | cons a l ih =>
    have ih' := ih fun a ha => h a (by simp [ha])
    have ha := h a (by simp)
    rcases hf : f a with _ | b
    · rw [hf] at ha
      rw [List.filterMap_cons_none hf, List.filter_cons_of_neg (by rw [← ha]; simp), ih']
    · rw [hf] at ha
      rw [List.filterMap_cons_some hf, List.filter_cons_of_pos (by rw [← ha]; rfl), List.length_cons, List.length_cons, ih']

/-- the attributes with a histogram -/
def noHist (a : Attr) : Bool := decide (a ≠ .histogram_PRNU ∧ a ≠ .histogram_PRNU_accumulated ∧ a ≠ .histogram_DSNU ∧
  a ≠ .histogram_DSNU_accumulated)

theorem table_count : printSecs.map (fun s => ((printTable.filter fun p => decide (p.sec = s)).filter fun p => noHist p.attr).length) =
    [4, 0, 1, 4, 23, 25] := by decide +kernel

theorem table_known {p : PrintRow} (hp : p ∈ printTable) : p.attr ≠ .s2q ∧ p.attr ≠ .linearity := by
  have : (printTable.all fun p => decide (p.attr ≠ .s2q ∧ p.attr ≠ .linearity)) = true := by decide +kernel
  exact of_decide_eq_true (List.all_eq_true.1 this p hp)

theorem table_all (a : Attr) (h1 : a ≠ .s2q) (h2 : a ≠ .linearity) : ∃ p ∈ printTable, p.attr = a ∧ p.sec ∈ printSecs := by
  have h : a ∈ (printTable.filter fun p => decide (p.sec ∈ printSecs)).map PrintRow.attr := by
    cases a <;> first | exact absurd rfl h1 | exact absurd rfl h2 | decide +kernel
  obtain ⟨p, hp, rfl⟩ := List.mem_map.1 h
  obtain ⟨hp, hs⟩ := List.mem_filter.1 hp
  exact ⟨p, hp, rfl, of_decide_eq_true hs⟩

end Print

/-- C87: every documented attribute that is not a histogram has its line, with its value, in its section; a histogram has none.
Apart from these 57 lines there are the headings of the six sections and the two lines at the end. -/
theorem C87_attributes (fmt : Fl ℝ → Str) (q : LSQ ℝ) (r : Res ℝ) (V : Attr → Value)
    (hV : ∀ a : Attr, a ≠ .s2q → a ≠ .linearity → (Results.read q a r).1 = .ok (V a)) :
    (∀ a : Attr, a ≠ .s2q → a ≠ .linearity → ∃ p ∈ printTable, p.attr = a ∧ p.sec ∈ printSecs ∧
      if a = .histogram_PRNU ∨ a = .histogram_PRNU_accumulated ∨ a = .histogram_DSNU ∨ a = .histogram_DSNU_accumulated
      then printed fmt (V a) = none
      else ∃ t, printed fmt (V a) = some t ∧ p.line t ∈ sectionLines fmt V p.sec) ∧
    (printout fmt V).length = 57 + 3 * 6 + 2 := by
  constructor
  · intro a h1 h2
    obtain ⟨p, hp, rfl, hs⟩ := table_all a h1 h2
    refine ⟨p, hp, rfl, hs, ?_⟩
    have hshow := shown_some (hV _ h1 h2) h1 h2 fmt
    by_cases h : p.attr = .histogram_PRNU ∨ p.attr = .histogram_PRNU_accumulated ∨ p.attr = .histogram_DSNU ∨
        p.attr = .histogram_DSNU_accumulated
    · rw [if_pos h]
      rw [decide_eq_false (by tauto)] at hshow
      simpa using hshow
    · rw [if_neg h]
      rw [decide_eq_true (by tauto)] at hshow
      obtain ⟨t, ht⟩ := Option.isSome_iff_exists.1 hshow
      refine ⟨t, ht, ?_⟩
      unfold sectionLines
      refine List.mem_append_right _ (List.mem_filterMap.2 ⟨p, List.mem_filter.2 ⟨hp, by simp⟩, by rw [ht]; rfl⟩)
  · have hsec : ∀ s, (sectionLines fmt V s).length =
        3 + ((printTable.filter fun p => decide (p.sec = s)).filter fun p => noHist p.attr).length := by
      intro s
      unfold sectionLines
      rw [List.length_append]
      congr 1
      refine filterMap_length _ _ _ fun p hp => ?_
      obtain ⟨h1, h2⟩ := table_known (List.mem_filter.1 hp).1
      rw [Option.isSome_map]
      exact shown_some (hV _ h1 h2) h1 h2 fmt
    have hc := table_count
    unfold printout
    rw [List.length_append, List.length_flatMap]
    simp only [hsec]
    simp only [printSecs, List.map_cons, List.map_nil, List.cons.injEq] at hc ⊢
    obtain ⟨c1, c2, c3, c4, c5, c6, -⟩ := hc
    rw [c1, c2, c3, c4, c5, c6]
    rfl

/-- C87: a line shows the description, the symbol and the value: two lines are the same only if all three are (no text of a
number begins with a space). -/
theorem C87_columns (p p' : PrintRow) (hp : p ∈ printTable) (hp' : p' ∈ printTable) (v v' : Str) (hv : v.head? ≠ some ' ')
    (hv' : v'.head? ≠ some ' ') (h : p.line v = p'.line v') : p.short = p'.short ∧ p.sym = p'.sym ∧ v = v' := by
  have w := List.all_eq_true.1 table_widths
  have w1 := w p hp
  have w2 := w p' hp'
  simp only [Bool.and_eq_true, decide_eq_true_eq] at w1 w2
  obtain ⟨⟨⟨a1, a2⟩, a3⟩, a4⟩ := w1
  obtain ⟨⟨⟨b1, b2⟩, b3⟩, b4⟩ := w2
  have e : ∀ (x : PrintRow) (t : Str), x.line t = (x.short.toList ++ List.replicate (50 - x.short.toList.length) ' ') ++
      ((x.sym ++ List.replicate (30 - x.sym.length) ' ') ++ (List.replicate (10 - t.length) ' ' ++ t)) := by
    intro x t
    simp only [PrintRow.line, List.append_assoc]
  rw [e, e] at h
  obtain ⟨h1, h2⟩ := List.append_inj h (by simp only [List.length_append, List.length_replicate]; omega)
  obtain ⟨h2, h3⟩ := List.append_inj h2 (by simp only [List.length_append, List.length_replicate]; omega)
  exact ⟨String.toList_injective (rpad_inj a3 b3 h1), rpad_inj a4 b4 h2, lpad_inj hv hv' h3⟩

/-- C87: so a line tells which attribute it shows, except for the lines of `s_2_y` and of `s_2_y_dark`. -/
theorem C87_which (p p' : PrintRow) (hp : p ∈ printTable) (hp' : p' ∈ printTable) (v v' : Str) (hv : v.head? ≠ some ' ')
    (hv' : v'.head? ≠ some ' ') (h : p.line v = p'.line v') :
    p.attr = p'.attr ∨ (p.attr = .s_2_y ∧ p'.attr = .s_2_y_dark) ∨ (p.attr = .s_2_y_dark ∧ p'.attr = .s_2_y) := by
  obtain ⟨h1, h2, -⟩ := C87_columns p p' hp hp' v v' hv hv' h
  have key : (printTable.all fun p => printTable.all fun p' => !(decide (p.short = p'.short) && decide (p.sym = p'.sym)) ||
      decide (p.attr = p'.attr ∨ (p.attr = .s_2_y ∧ p'.attr = .s_2_y_dark) ∨ (p.attr = .s_2_y_dark ∧ p'.attr = .s_2_y))) = true := by
    decide +kernel
  have := List.all_eq_true.1 (List.all_eq_true.1 key p hp) p' hp'
  rw [decide_eq_true h1, decide_eq_true h2] at this
  simpa using this

/-- C87: the two lines of `s_2_y` and `s_2_y_dark` differ only in the value: nothing on the line says which one is the dark
one (results.py lines 752-756 and 765-769 give both the same description and the same symbol). -/
theorem C87_same_label : ∃ p ∈ printTable, ∃ p' ∈ printTable, p.attr = .s_2_y ∧ p'.attr = .s_2_y_dark ∧ ∀ v, p.line v = p'.line v := by
  refine ⟨⟨.s_2_y, "s_2_y", "spatial", "Spatial variance from image", some "$s^2_{y}$"⟩, ?_,
    ⟨.s_2_y_dark, "s_2_y_dark", "spatial", "Spatial variance from image", some "$s^2_{y}$"⟩, ?_, rfl, rfl, fun _ => rfl⟩
  · simp [printTable]
  · simp [printTable]

/-! ### a case -/

/-- the measurement of C77 is printed completely -/
example (q : LSQ ℝ) (fmt : Fl ℝ → Str) (repr : PyVal ℝ → Str) :
    ∃ V, (∀ a : Attr, a ≠ .s2q → a ≠ .linearity → (Results.read q a C77sample).1 = .ok (V a)) ∧
      (printResults asciiLower fmt repr q C77sample).1 = (printout fmt V, .ok ()) := by
  choose V hV using fun a => C77sample_computes q a
  exact ⟨V, fun a _ _ => hV a, C87_printout asciiLower (fun _ _ => rfl) fmt repr q _ V fun a _ _ => hV a⟩

/-- a line -/
example : (PrintRow.mk .K "K" "sensitivity" "System gain" (some "K")).line "0.1".toList =
    ("System gain                                       " ++ "K                             " ++ "       0.1").toList := by
  decide +kernel

end Emva
