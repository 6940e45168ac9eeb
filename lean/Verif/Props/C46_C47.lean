import Verif.Lemmas.Info
import Verif.Props.C44

/-!
C46: grouping the results by section.  C47: extraction of the documentation tags.  C67: the results
dictionary of an object.
-/
set_option autoImplicit false
namespace Emva
open Xml Spec Info

namespace Info

theorem mapM_ok {α β : Type} {f : α → Except PyErr β} {g : α → β} {l : List α}
    (h : ∀ x ∈ l, f x = .ok (g x)) : l.mapM f = .ok (l.map g) := by
  have := mapM_map_ok (k := id) (f := f) (g := g) (l := l) h
  rwa [List.map_id] at this

theorem isLines_aux (acc s : Str) (h : ∀ c ∈ acc, isLineSep c = false) : IsLines (acc ++ s) (splitlinesAux acc s) := by
  induction acc, s using splitlinesAux.induct with
  | case1 => rw [splitlinesAux, if_pos rfl]; exact .nil
  | case2 acc hne => rw [splitlinesAux, if_neg hne, List.append_nil]; exact .last _ hne h
  | case3 acc s ih => rw [splitlinesAux]; exact .crlf _ _ _ h (ih (by simp))
  | case4 acc c s hn hc ih =>
    rw [splitlinesAux, if_pos hc]
    · refine .sep _ _ _ _ h hc ?_ (ih (by simp))
      rintro ⟨rfl, t, rfl⟩
      exact hn t rfl rfl
    · exact hn
  | case5 acc c s hn hc ih =>
    rw [splitlinesAux, if_neg hc]
    · have := ih (by
        intro x hx
        rcases List.mem_append.1 hx with hx | hx
        · exact h x hx
        · rw [List.mem_singleton] at hx; subst hx; simpa using hc)
      rwa [List.append_assoc] at this
    · exact hn

end Info

/-- C47: every docstring has exactly one list of lines. -/
theorem C47_lines (s : Str) (ls : List Str) : IsLines s ls ↔ splitlines s = ls :=
  ⟨splitlines_of_isLines, fun h => h ▸ isLines_aux [] s (by simp)⟩

/-- C47: a docstring gives information exactly when it has an emva1288 block with a line in it.  The
keys are the lower case tags of the block lines with two parts, with the value of the last such line;
`section` is `other` if no line gives it. -/
theorem C47_doc (lower : Str → Str) (doc : Str) (ls : List Str) (hl : IsLines doc ls) :
    ((∃ i, docInfo lower (some doc) = some i) ↔ ∃ i, InBlock ls i) ∧
    ∀ info, docInfo lower (some doc) = some info → ∀ k v,
      (Dict.get? info k = some v ↔ LastGives lower ls k v ∨
        ((∀ i w, ¬ Gives lower ls i k w) ∧ k = sectionKey ∧ v = otherVal)) := by
  have hs := splitlines_of_isLines hl
  have hdoc : docInfo lower (some doc) = match tagLines false (ls.map Py.strip) with
      | [] => none
      | tags => some (attributeInfo lower tags) := by
    cases doc with
    | nil =>
      have : ls = [] := hs.symm
      subst this; rfl
    | cons c s => rw [← hs]; rfl
  rw [hdoc]
  have hn := tagLines_nil_iff ls false
  constructor
  · constructor
    · rintro ⟨i, hi⟩
      by_contra hcon
      rw [not_exists] at hcon
      have : tagLines false (ls.map Py.strip) = [] := hn.2 fun i => by rw [inB_false]; exact hcon i
      rw [this] at hi; cases hi
    · rintro ⟨i, hi⟩
      rcases ht : tagLines false (ls.map Py.strip) with _ | ⟨t, ts⟩
      · exact absurd ((inB_false ls i).2 hi) (hn.1 ht i)
      · exact ⟨_, rfl⟩
  · intro info hi k v
    have hfold := fun v => fold_get lower k v ls false []
    rcases ht : tagLines false (ls.map Py.strip) with _ | ⟨t, ts⟩
    · rw [ht] at hi; cases hi
    · rw [ht] at hi hfold
      cases hi
      have hG : ∀ i w, G lower false ls k i w ↔ Gives lower ls i k w := by
        intro i w
        unfold G Gives
        rw [inB_false]
      simp only [hG, Dict.get?_nil, reduceCtorEq, and_false, or_false] at hfold
      rw [attributeInfo, Dict.get?_setdefault]
      have hnone : Dict.get? (((t :: ts).filterMap (parseTag lower)).foldl (fun d kv => Dict.set d kv.1 kv.2) []) k = none ↔
          ∀ i w, ¬ Gives lower ls i k w := by
        constructor
        · intro h i w hg
          have hbound : ∀ j w, Gives lower ls j k w → j < ls.length := by
            rintro j w ⟨⟨l, hl, -⟩, -⟩
            exact (List.getElem?_eq_some_iff.1 hl).1
          obtain ⟨j, ⟨w', hj⟩, hmax⟩ : ∃ j, (∃ w, Gives lower ls j k w) ∧ ∀ j', j < j' → ¬ ∃ w, Gives lower ls j' k w := by
            classical
            let S := (Finset.range ls.length).filter fun j => ∃ w, Gives lower ls j k w
            have hS : S.Nonempty := ⟨i, by simp only [S, Finset.mem_filter, Finset.mem_range]; exact ⟨hbound i w hg, w, hg⟩⟩
            refine ⟨S.max' hS, ?_, ?_⟩
            · have := S.max'_mem hS
              simp only [S, Finset.mem_filter] at this
              exact this.2
            · rintro j' hj' ⟨w', hw'⟩
              have : j' ∈ S := by
                simp only [S, Finset.mem_filter, Finset.mem_range]
                exact ⟨hbound j' w' hw', w', hw'⟩
              exact absurd (S.le_max' j' this) (not_le.2 hj')
          have := (hfold w').2 ⟨j, hj, fun j' w hj' hg => hmax j' hj' ⟨w, hg⟩⟩
          rw [h] at this; cases this
        · intro h
          cases hg : Dict.get? (((t :: ts).filterMap (parseTag lower)).foldl (fun d kv => Dict.set d kv.1 kv.2) []) k with
          | none => rfl
          | some w =>
            obtain ⟨i, hi, -⟩ := (hfold w).1 hg
            exact absurd hi (h i w)
      have hlast : LastGives lower ls k v ↔ Dict.get? (((t :: ts).filterMap (parseTag lower)).foldl
          (fun d kv => Dict.set d kv.1 kv.2) []) k = some v := (hfold v).symm
      rw [hlast, ← hnone]
      by_cases hk : sectionKey = k
      · subst hk
        rw [if_pos rfl]
        cases Dict.get? (((t :: ts).filterMap (parseTag lower)).foldl (fun d kv => Dict.set d kv.1 kv.2) []) sectionKey with
        | none => simp [eq_comm]
        | some w => simp
      · rw [if_neg hk]
        simp [Ne.symm hk]

/-- C47: `cls_1288_info` has exactly the attributes whose docstring has a non-empty block, in
alphabetical order, each with the information of its docstring. -/
theorem C47_class (lower : Str → Str) (cls : List (Str × Option Str)) :
    (Dict.keys (clsInfo lower cls)).Pairwise (· < ·) ∧
    ∀ name info, Dict.get? (clsInfo lower cls) name = some info ↔
      ∃ doc, Dict.get? cls name = some (some doc) ∧ docInfo lower (some doc) = some info := by
  obtain ⟨hsort, hmem⟩ := sortedUnion_spec (Dict.keys cls) []
  have hdoc : ∀ name info, docInfo lower ((Dict.get? cls name).getD none) = some info ↔
      ∃ doc, Dict.get? cls name = some (some doc) ∧ docInfo lower (some doc) = some info := by
    intro name info
    rcases hg : Dict.get? cls name with _ | _ | doc <;> simp [docInfo]
  unfold clsInfo
  have key : ∀ l : List Str, l.Pairwise (· < ·) →
      let r := l.filterMap fun name => match docInfo lower ((Dict.get? cls name).getD none) with
        | none => none
        | some i => some (name, i)
      (Dict.keys r).Pairwise (· < ·) ∧ (∀ n ∈ Dict.keys r, n ∈ l) ∧
        ∀ name info, Dict.get? r name = some info ↔
          name ∈ l ∧ docInfo lower ((Dict.get? cls name).getD none) = some info := by
    intro l
    induction l with
    | nil => intro _; exact ⟨.nil, by simp [Dict.keys], by simp⟩
    | cons n l ih =>
      intro hp
      rw [List.pairwise_cons] at hp
      obtain ⟨h1, h2, h3⟩ := ih hp.2
      cases hn : docInfo lower ((Dict.get? cls n).getD none) with
      | none =>
        dsimp only
        rw [List.filterMap_cons_none (by rw [hn])]
        refine ⟨h1, fun m hm => by simp [h2 m hm], fun name info => ?_⟩
        rw [h3]
        constructor
        · rintro ⟨ha, hb⟩; exact ⟨by simp [ha], hb⟩
        · rintro ⟨ha, hb⟩
          rcases List.mem_cons.1 ha with rfl | ha
          · rw [hn] at hb; cases hb
          · exact ⟨ha, hb⟩
      | some i =>
        dsimp only
        rw [List.filterMap_cons_some (b := (n, i)) (by rw [hn])]
        refine ⟨?_, ?_, fun name info => ?_⟩
        · exact List.pairwise_cons.2 ⟨fun m hm => hp.1 m (h2 m hm), h1⟩
        · intro m hm
          rcases List.mem_cons.1 hm with rfl | hm
          · simp
          · exact List.mem_cons_of_mem _ (h2 m hm)
        · rw [Dict.get?]
          by_cases hk : n = name
          · subst hk
            rw [if_pos rfl, hn]; simp
          · rw [if_neg hk]
            refine (h3 name info).trans ?_
            simp [Ne.symm hk]
  obtain ⟨h1, -, h3⟩ := key _ hsort
  refine ⟨h1, fun name info => ?_⟩
  refine (h3 name info).trans ?_
  rw [hdoc]
  constructor
  · exact fun h => h.2
  · rintro ⟨doc, h4, h5⟩
    exact ⟨(hmem _).2 (.inl (Dict.mem_keys_of_get? h4)), doc, h4, h5⟩

/-- C47: a line `:Tag: value` gives the value with its colons. -/
theorem C47_colons (tag val : Str) (h1 : ':' ∉ tag) (h2 : ¬ Blank tag) (h3 : ¬ Blank val) :
    TagLine (':' :: tag ++ ':' :: val) (Py.strip tag) (Py.strip val) :=
  .inr ⟨[], tag, val, rfl, by simp, h1, .inl ⟨by simp [Blank],
    ⟨rfl, by rw [Ne, strip_nil_iff]; exact h2⟩, ⟨rfl, by rw [Ne, strip_nil_iff]; exact h3⟩⟩⟩

/-- C47: without the leading colon a value with a colon makes the line ignored. -/
theorem C47_no_leading_colon (a b c : Str) (h1 : ':' ∉ a) (h2 : ':' ∉ b) (n1 : ¬ Blank a) (n2 : ¬ Blank b)
    (n3 : ¬ Blank c) (tag v : Str) : ¬ TagLine (a ++ ':' :: b ++ ':' :: c) tag v := by
  intro h
  have := (parseTag_iff id (a ++ ':' :: b ++ ':' :: c) tag v).2 ⟨tag, h, rfl⟩
  rcases splitMax_cases (a ++ ':' :: b ++ ':' :: c) with ⟨g, -⟩ | ⟨a', b', g, ga, gb, -⟩ | ⟨a', b', c', g, ga, gb, g2⟩
  · simp at g
  · rw [List.append_assoc] at g
    obtain ⟨rfl, rfl⟩ := append_colon_inj h1 ga g
    simp at gb
  · rw [List.append_assoc, List.append_assoc] at g
    obtain ⟨rfl, g'⟩ := append_colon_inj h1 ga g
    obtain ⟨rfl, rfl⟩ := append_colon_inj h2 gb g'
    rw [parseTag, g2] at this
    rw [← strip_nil_iff] at n1 n2 n3
    simp [n1, n2, n3] at this

/-! ### C46 -/

namespace Info
variable {F : Type}

/-- the section of an entry -/
def HasSection (e : List (Str × PyVal F)) (s : Str) : Prop := Dict.get? e sectionKey = some (.str s)

theorem sectionOf_ok {e : List (Str × PyVal F)} {s : Str} : sectionOf e = .ok s ↔ HasSection e s := by
  unfold sectionOf HasSection
  rcases Dict.get? e sectionKey with _ | v
  · simp
  · cases v <;> simp

theorem sectionLoop_eq (f : Str × List (Str × PyVal F) → Str) (sec : Str) (rest : List (Str × List (Str × PyVal F)))
    (h : ∀ kv ∈ rest, HasSection kv.2 (f kv)) : ∀ d, Dict.WF (d ++ rest) →
    sectionLoop sec d rest = .ok (d ++ rest.filter fun kv => decide (f kv = sec)) := by
  induction rest with
  | nil => intro d _; simp [sectionLoop]
  | cons p rest ih =>
    intro d hwf
    obtain ⟨k, v⟩ := p
    have hv := sectionOf_ok.2 (h (k, v) (by simp))
    rw [sectionLoop, hv, ok_bind]
    have ih' := ih fun kv hkv => h kv (by simp [hkv])
    have hperm : Dict.WF (d ++ (k, v) :: rest) → Dict.WF (d ++ rest) ∧ k ∉ d.map Prod.fst := by
      unfold Dict.WF Dict.keys
      rw [List.map_append, List.map_append, List.map_cons, List.nodup_append, List.nodup_append]
      rintro ⟨h1, h2, h3⟩
      rw [List.nodup_cons] at h2
      refine ⟨⟨h1, h2.2, fun a ha b hb => h3 a ha b (by simp only [List.mem_cons]; exact .inr hb)⟩, ?_⟩
      intro hk
      exact h3 k hk k (by simp) rfl
    by_cases hs : f (k, v) = sec
    · rw [if_neg (by rw [not_not]; exact hs), List.filter_cons_of_pos (by simpa using hs)]
      have e : Dict.set d k v = d ++ [(k, v)] := by
        have := set_append d [] k v (hperm hwf).2
        rw [List.append_nil] at this
        rw [this]; rfl
      rw [e, ih' _ (by rw [List.append_assoc]; exact hwf), List.append_assoc]; rfl
    · rw [if_pos hs, List.filter_cons_of_neg (by simpa using hs), ih' _ (hperm hwf).1]

theorem flatMap_filter_perm {α : Type} (f : α → Str) (l : List α) : ∀ secs : List Str, secs.Nodup →
    (secs.flatMap fun s => l.filter fun x => decide (f x = s)).Perm (l.filter fun x => decide (f x ∈ secs)) := by
  intro secs
  induction secs with
  | nil => intro _; simp
  | cons s secs ih =>
    intro hn
    rw [List.nodup_cons] at hn
    rw [List.flatMap_cons]
    refine (List.Perm.append_left _ (ih hn.2)).trans ?_
    have := List.filter_append_perm (fun x => decide (f x = s)) (l.filter fun x => decide (f x ∈ s :: secs))
    rw [List.filter_filter, List.filter_filter] at this
    refine List.Perm.trans (List.Perm.of_eq ?_) this
    congr 1
    · refine List.filter_congr fun x _ => ?_
      by_cases h : f x = s <;> simp [h]
    · refine List.filter_congr fun x _ => ?_
      by_cases h : f x = s
      · simp [h, hn.1]
      · simp [h]

end Info

/-- C46: grouping loses nothing: the sections are in increasing order, each is a non-empty sublist of
the results (same order) with entries of its own section only, and together they are the results. -/
theorem C46_sections {F : Type} (dct : List (Str × List (Str × PyVal F))) (hwf : Dict.WF dct)
    (hs : ∀ kv ∈ dct, ∃ s, Dict.get? kv.2 sectionKey = some (.str s)) :
    ∃ r, sectionsFirst dct = .ok r ∧ (Dict.keys r).Pairwise (· < ·) ∧
      (∀ sl ∈ r, sl.2 ≠ [] ∧ sl.2.Sublist dct ∧
        ∀ kv ∈ sl.2, Dict.get? kv.2 sectionKey = some (.str sl.1)) ∧
      (r.flatMap Prod.snd).Perm dct := by
  classical
  let f : Str × List (Str × PyVal F) → Str := fun kv =>
    match Dict.get? kv.2 sectionKey with
    | some (.str s) => s
    | _ => []
  have hf : ∀ kv ∈ dct, HasSection kv.2 (f kv) := by
    intro kv hkv
    obtain ⟨s, h⟩ := hs kv hkv
    have : f kv = s := by simp only [f, h]
    rw [this]; exact h
  obtain ⟨hsort, hmem⟩ := sortedUnion_spec (dct.map f) []
  have h1 : (dct.mapM fun kv => sectionOf kv.2) = .ok (dct.map f) :=
    mapM_ok fun kv hkv => sectionOf_ok.2 (hf kv hkv)
  have h2 : ((sortedUnion (dct.map f) []).mapM fun s => do
      let d ← sectionLoop s [] dct
      Except.ok (s, d)) = .ok ((sortedUnion (dct.map f) []).map fun s => (s, dct.filter fun kv => decide (f kv = s))) :=
    mapM_ok fun s _ => by
      rw [sectionLoop_eq f s dct hf [] (by simpa using hwf)]; rfl
  refine ⟨(sortedUnion (dct.map f) []).map fun s => (s, dct.filter fun kv => decide (f kv = s)), ?_, ?_, ?_, ?_⟩
  · rw [sectionsFirst, h1, ok_bind, h2]
  · rw [Dict.keys, List.map_map]
    show ((sortedUnion (dct.map f) []).map fun s => s).Pairwise _
    rw [List.map_id']; exact hsort
  · intro sl hsl
    obtain ⟨s, hs', rfl⟩ := List.mem_map.1 hsl
    refine ⟨?_, List.filter_sublist, ?_⟩
    · rcases (hmem s).1 hs' with h | h
      · obtain ⟨kv, hkv, rfl⟩ := List.mem_map.1 h
        exact List.ne_nil_of_mem (List.mem_filter.2 ⟨hkv, by simp⟩)
      · cases h
    · intro kv hkv
      obtain ⟨h3, h4⟩ := List.mem_filter.1 hkv
      have := hf kv h3
      rw [of_decide_eq_true h4] at this
      exact this
  · rw [List.flatMap_map]
    refine (flatMap_filter_perm f dct _ (hsort.imp ne_of_lt)).trans (List.Perm.of_eq ?_)
    rw [List.filter_eq_self]
    intro kv hkv
    exact decide_eq_true ((hmem _).2 (.inl (List.mem_map_of_mem hkv)))

/-- C46: an entry without section is a `KeyError`. -/
theorem C46_missing {F : Type} (pre : List (Str × List (Str × PyVal F))) (k : Str) (e : List (Str × PyVal F))
    (post : List (Str × List (Str × PyVal F)))
    (hs : ∀ kv ∈ pre, ∃ s, Dict.get? kv.2 sectionKey = some (.str s)) (he : Dict.get? e sectionKey = none) :
    sectionsFirst (pre ++ (k, e) :: post) = .error .keyError := by
  have h0 : sectionOf e = .error .keyError := by rw [sectionOf, he]
  have : ((pre ++ (k, e) :: post).mapM fun kv => sectionOf kv.2) = .error .keyError := by
    induction pre with
    | nil => rw [List.nil_append, List.mapM_cons, h0]; rfl
    | cons p pre ih =>
      obtain ⟨s, hs'⟩ := hs p (by simp)
      rw [List.cons_append, List.mapM_cons, sectionOf_ok.2 hs', ok_bind, ih fun kv hkv => hs kv (by simp [hkv])]
      rfl
  rw [sectionsFirst, this]; rfl


/-! ### C67 -/

namespace Info
variable {F : Type}

theorem get?_map_str (info : List (Str × Str)) (k : Str) :
    Dict.get? (info.map fun kv => (kv.1, (PyVal.str kv.2 : PyVal F))) k = (Dict.get? info k).map .str := by
  induction info with
  | nil => rfl
  | cons p info ih =>
    obtain ⟨a, b⟩ := p
    rw [List.map_cons, Dict.get?, Dict.get?]
    split_ifs with h
    · rfl
    · exact ih

theorem docInfo_section {lower : Str → Str} {doc : Option Str} {info : List (Str × Str)}
    (h : docInfo lower doc = some info) : ∃ s, Dict.get? info sectionKey = some s := by
  have key : ∀ tags, ∃ s, Dict.get? (attributeInfo lower tags) sectionKey = some s := fun tags =>
    ⟨_, by rw [attributeInfo, Dict.get?_setdefault, if_pos rfl]⟩
  rcases doc with _ | _ | ⟨c, s⟩
  · cases h
  · cases h
  · rw [docInfo] at h
    rcases ht : tagLines false ((splitlines (c :: s)).map Py.strip) with _ | ⟨t, ts⟩
    · rw [ht] at h; cases h
    · rw [ht] at h; cases h; exact key _
    · intro h; cases h

end Info

/-- C67: the results dictionary has exactly the documented attributes, in alphabetical order; an entry
keeps the tags of the documentation and has the value of the attribute under `data` if it is a
dictionary and under `value` otherwise. -/
theorem C67_results {F : Type} (lower : Str → Str) (cls : List (Str × Option Str))
    (val : Str → Except PyErr (PyVal F)) (v : Str → PyVal F)
    (hv : ∀ name ∈ Dict.keys (clsInfo lower cls), val name = .ok (v name)) :
    ∃ r, objToDict lower cls val = .ok r ∧ Dict.keys r = Dict.keys (clsInfo lower cls) ∧
      ∀ name info, Dict.get? (clsInfo lower cls) name = some info → ∃ e, Dict.get? r name = some e ∧
        (∀ d, v name = .dict d → Dict.get? e dataKey = some (.dict d)) ∧
        ((∀ d, v name ≠ .dict d) → Dict.get? e valueKey = some (v name)) ∧
        ∀ k, k ≠ dataKey → k ≠ valueKey → Dict.get? e k = (Dict.get? info k).map .str := by
  have h1 : objToDict lower cls val = .ok ((clsInfo lower cls).map fun ki => (ki.1, withValue ki.2 (v ki.1))) :=
    mapM_ok fun ki hki => by
      rw [hv ki.1 (List.mem_map_of_mem hki)]; rfl
  refine ⟨_, h1, ?_, ?_⟩
  · rw [Dict.keys, List.map_map]; rfl
  · intro name info hi
    refine ⟨withValue info (v name), ?_, ?_, ?_, ?_⟩
    · generalize clsInfo lower cls = l at hi
      induction l with
      | nil => cases hi
      | cons p l ih =>
        obtain ⟨a, b⟩ := p
        rw [List.map_cons, Dict.get?]
        rw [Dict.get?] at hi
        dsimp only
        split_ifs at hi ⊢ with ha
        · subst ha; cases hi; rfl
        · exact ih hi
    · intro d hd
      rw [hd, withValue]; exact Dict.get?_set_self _ _ _
    · intro hnd
      have : withValue info (v name) = Dict.set (info.map fun kv => (kv.1, PyVal.str kv.2)) valueKey (v name) := by
        cases hv' : v name with
        | dict d => exact absurd hv' (hnd d)
        | none => rfl
        | num => rfl
        | str => rfl
        | arr => rfl
      rw [this]; exact Dict.get?_set_self _ _ _
    · intro k hk1 hk2
      have : ∃ k' w, (k' = dataKey ∨ k' = valueKey) ∧
          withValue info (v name) = Dict.set (info.map fun kv => (kv.1, PyVal.str kv.2)) k' w := by
        cases v name with
        | dict d => exact ⟨_, _, .inl rfl, rfl⟩
        | none => exact ⟨_, _, .inr rfl, rfl⟩
        | num => exact ⟨_, _, .inr rfl, rfl⟩
        | str => exact ⟨_, _, .inr rfl, rfl⟩
        | arr => exact ⟨_, _, .inr rfl, rfl⟩
      obtain ⟨k', w, hk', e⟩ := this
      rw [e, Dict.get?_set_ne _ _ (by rcases hk' with rfl | rfl <;> [exact hk1.symm; exact hk2.symm]), get?_map_str]

/-- C67: the error of an attribute is passed on. -/
theorem C67_error {F : Type} (lower : Str → Str) (cls : List (Str × Option Str))
    (val : Str → Except PyErr (PyVal F)) (pre : List (Str × List (Str × Str))) (name : Str) (info : List (Str × Str))
    (post : List (Str × List (Str × Str))) (h : clsInfo lower cls = pre ++ (name, info) :: post)
    (hp : ∀ ki ∈ pre, ∃ v, val ki.1 = .ok v) (err : PyErr) (he : val name = .error err) :
    objToDict lower cls val = .error err := by
  rw [objToDict, h]
  clear h
  induction pre with
  | nil => rw [List.nil_append, List.mapM_cons, he]; rfl
  | cons p pre ih =>
    obtain ⟨v, hv⟩ := hp p (by simp)
    rw [List.cons_append, List.mapM_cons, hv, ok_bind, ok_bind, ih fun ki hki => hp ki (by simp [hki])]
    rfl

/-- C46, C67: `results_by_section` of an object whose attributes can be computed never fails. -/
theorem C67_by_section {F : Type} (lower : Str → Str) (cls : List (Str × Option Str))
    (val : Str → Except PyErr (PyVal F)) (v : Str → PyVal F)
    (hv : ∀ name ∈ Dict.keys (clsInfo lower cls), val name = .ok (v name)) :
    ∃ r s, objToDict lower cls val = .ok r ∧ sectionsFirst r = .ok s ∧ (s.flatMap Prod.snd).Perm r := by
  obtain ⟨r, h1, h2, h3⟩ := C67_results lower cls val v hv
  have hsort := (C47_class lower cls).1
  have hwf : Dict.WF r := by
    unfold Dict.WF
    rw [h2]; exact hsort.imp ne_of_lt
  obtain ⟨s, h4, -, -, h5⟩ := C46_sections r hwf (by
    intro kv hkv
    have hk : kv.1 ∈ Dict.keys (clsInfo lower cls) := h2 ▸ List.mem_map_of_mem hkv
    obtain ⟨info, hi⟩ := (Dict.has_iff_exists _ _).1 ((Dict.has_iff _ _).2 hk)
    obtain ⟨e, he, -, -, hrest⟩ := h3 kv.1 info hi
    have : e = kv.2 := by
      have := Dict.get?_of_mem hwf hkv
      rw [he] at this
      exact Option.some.inj this
    subst this
    obtain ⟨doc, -, hd⟩ := ((C47_class lower cls).2 _ _).1 hi
    obtain ⟨t, ht⟩ := docInfo_section hd
    exact ⟨t, by rw [hrest sectionKey (by decide) (by decide), ht]; rfl⟩)
  exact ⟨r, s, h1, h4, h5⟩

/-! ### a case -/

/-- a docstring as in results.py -/
def sampleDoc : Str := "Overall gain\n\n  .. emva1288::\n   :Section: sensitivity\n   :Short: gain: K\n\n  text".toList

example : docInfo (List.map Char.toLower) (some sampleDoc) =
    some [("section".toList, "sensitivity".toList), ("short".toList, "gain: K".toList)] := by decide +kernel

example : docInfo (List.map Char.toLower) (some "Overall gain\n:Section: x".toList) = none := by decide +kernel

example : docInfo (List.map Char.toLower) (some ".. emva1288::\n:Short: x".toList) =
    some [("short".toList, "x".toList), ("section".toList, "other".toList)] := by decide +kernel

/-- two sections -/
def sampleAttrs : List (Str × List (Str × PyVal ℚ)) :=
  [("K".toList, [(sectionKey, .str "sens".toList), (valueKey, .num (.fin 2))]),
   ("LE".toList, [(sectionKey, .str "lin".toList), (valueKey, .num (.fin 1))]),
   ("R".toList, [(sectionKey, .str "sens".toList), (valueKey, .none)])]

example : Dict.WF sampleAttrs ∧ ∀ kv ∈ sampleAttrs, ∃ s, Dict.get? kv.2 sectionKey = some (.str s) := by
  refine ⟨by unfold Dict.WF; decide, ?_⟩
  intro kv hkv
  simp only [sampleAttrs, List.mem_cons, List.not_mem_nil, or_false] at hkv
  rcases hkv with rfl | rfl | rfl <;> exact ⟨_, rfl⟩

end Emva
