import Verif.Model.CompareText
import Verif.Spec.CompareText
import Verif.Props.C44
import Verif.Props.C87

/-!
C88: the text of `compare_xml`.
-/
set_option autoImplicit false
namespace Emva
open Xml Spec
open Print (ljust strVal rpad_inj)

namespace Xml

theorem getOr_field (f : List (Str × PyVal ℝ)) (c m key : Str) : getOr (asVal (entryOf f c m)) key = fieldOf f c m key := by
  unfold fieldOf
  cases entryOf f c m <;> rfl

theorem strVal_text (fmt : Fl ℝ → Str) (repr : PyVal ℝ → Str) (v : PyVal ℝ) : strVal fmt repr v = textOf fmt repr v := by
  cases v <;> rfl

theorem isNone_false (v : PyVal ℝ) : isNone v = false ↔ v ≠ .none := by
  rw [Ne, ← isNone_iff]; simp

/-- the cells of a row -/
theorem cmpMethod_cells {b : Bool} {m1 m2 : Option (PyVal ℝ)} {r : Option Bool} {t1 t2 : Cell} {r' : Option Bool}
    (h : cmpMethod b m1 m2 r = .ok (t1, t2, r')) (fmt : Fl ℝ → Str) (repr : PyVal ℝ → Str) (P : Prop) [Decidable P]
    (hP : P ↔ (getOr m1 valueKey = .none ∨ getOr m2 valueKey = .none) ∧ getOr m1 dataKey ≠ .none ∧ getOr m2 dataKey ≠ .none) :
    cellText fmt repr t1 = (if P then "Array".toList else textOf fmt repr (getOr m1 valueKey)) ∧
      cellText fmt repr t2 = (if P then "Array".toList else textOf fmt repr (getOr m2 valueKey)) := by
  unfold cmpMethod at h
  dsimp only at h
  split_ifs at h with h1 h2 h3 <;> simp only [isNone_false] at h1
  · cases h
    rw [if_neg (by rw [hP]; tauto), if_neg (by rw [hP]; tauto)]
    exact ⟨strVal_text _ _ _, strVal_text _ _ _⟩
  · simp only [isNone_false] at h3
    have hp : P := by rw [hP]; tauto
    rw [if_pos hp, if_pos hp]
    split at h
    · split_ifs at h <;> cases h <;> exact ⟨rfl, rfl⟩
    · cases h
  · simp only [isNone_false] at h3
    cases h
    rw [if_neg (by rw [hP]; tauto), if_neg (by rw [hP]; tauto)]
    exact ⟨strVal_text _ _ _, strVal_text _ _ _⟩

theorem cmpMethods_rows (b : Bool) (d1 d2 : List (Str × PyVal ℝ)) (Q : Str → Row → Prop)
    (h : ∀ m r, ∃ t1 t2 ok, cmpMethod b (Dict.get? d1 m) (Dict.get? d2 m) r = .ok (t1, t2, some ok) ∧
      Q m (.entry m t1 t2 ok)) : ∀ (ms : List Str) (r : Option Bool),
    ∃ rows r', cmpMethods b d1 d2 ms r = .ok (rows, r') ∧ List.Forall₂ Q ms rows := by
  intro ms
  induction ms with
  | nil => intro r; exact ⟨[], r, rfl, .nil⟩
  | cons m ms ih =>
    intro r
    obtain ⟨t1, t2, ok, he, hok⟩ := h m r
    obtain ⟨rows, r', hr, hrows⟩ := ih (some ok)
    refine ⟨.entry m t1 t2 ok :: rows, r', ?_, .cons hok hrows⟩
    rw [cmpMethods, he, ok_bind]
    dsimp only
    rw [hr]; rfl

theorem flatMap_forall₂ {α β γ : Type} {f : α → List γ} {g : β → List γ} {l : List α} {t : List β}
    (h : List.Forall₂ (fun a b => f a = g b) l t) : l.flatMap f = t.flatMap g := by
  induction h with
  | nil => rfl
  | cons hab _ ih => rw [List.flatMap_cons, List.flatMap_cons, hab, ih]

theorem unlines_append (a b : List Str) : unlines (a ++ b) = unlines a ++ unlines b := List.flatMap_append

theorem cmpCategories_text (b : Bool) (f1 f2 : List (Str × PyVal ℝ)) (h1 : Readable f1) (h2 : Readable f2)
    (n1 : NoNestedValue f1) (n2 : NoNestedValue f2) (fmt : Fl ℝ → Str) (repr : PyVal ℝ → Str) (ms : Str → List Str)
    (hms : ∀ c, IsSortedUnion (methodsOf f1 c) (methodsOf f2 c) (ms c)) : ∀ (cs : List Str) (r : Option Bool),
    ∃ rows, cmpCategories b f1 f2 cs r = .ok rows ∧
      rows.flatMap (rowText fmt repr) = unlines (cs.flatMap (categoryLines b fmt repr f1 f2 ms)) := by
  classical
  intro cs
  induction cs with
  | nil => intro r; exact ⟨[], rfl, rfl⟩
  | cons c cs ih =>
    intro r
    rw [cmpCategories]
    by_cases hc : c ∈ Dict.keys f1 ∧ c ∈ Dict.keys f2
    · have hb : (Dict.has f1 c && Dict.has f2 c) = true := by
        rw [Bool.and_eq_true, Dict.has_iff, Dict.has_iff]; exact hc
      rw [if_pos hb]
      obtain ⟨v1, g1⟩ := (Dict.has_iff_exists f1 c).1 ((Dict.has_iff f1 c).2 hc.1)
      obtain ⟨v2, g2⟩ := (Dict.has_iff_exists f2 c).1 ((Dict.has_iff f2 c).2 hc.2)
      obtain ⟨d1, rfl, -, -⟩ := readable_get h1 g1
      obtain ⟨d2, rfl, -, -⟩ := readable_get h2 g2
      rw [g1, g2]
      have hm : sortedUnion (Dict.keys d1) (Dict.keys d2) = ms c := by
        refine sortedUnion_unique (sortedUnion_spec _ _) ?_
        have := hms c
        rwa [show methodsOf f1 c = Dict.keys d1 by rw [methodsOf, g1],
          show methodsOf f2 c = Dict.keys d2 by rw [methodsOf, g2]] at this
      obtain ⟨rows, r', hr, hrows⟩ := cmpMethods_rows b d1 d2
        (fun m row => entryLine b fmt repr f1 f2 c m ++ ['\n'] = rowText fmt repr row) (fun m r => by
          rw [asVal_entryOf h1 g1 m, asVal_entryOf h2 g2 m]
          obtain ⟨t1, t2, ok, he, hok⟩ := cmpMethod_spec b _ _ r (entryOf_read h1 n1 c m) (entryOf_read h2 n2 c m)
          refine ⟨t1, t2, ok, he, ?_⟩
          obtain ⟨c1, c2⟩ := cmpMethod_cells he fmt repr (ByData f1 f2 c m) (by
            rw [getOr_field, getOr_field, getOr_field, getOr_field]; rfl)
          rw [getOr_field] at c1 c2
          rw [rowText, c1, c2, entryLine, cellOf, cellOf]
          by_cases hM : Match b (entryOf f1 c m) (entryOf f2 c m)
          · rw [if_pos hM, if_pos (hok.2 hM)]
            simp only [fill, ljust, List.append_assoc]
            rfl
          · rw [if_neg hM, if_neg fun h => hM (hok.1 h)]
            simp only [fill, ljust, List.append_assoc]
            rfl) (sortedUnion (Dict.keys d1) (Dict.keys d2)) r
      obtain ⟨rest, hp, hparts⟩ := ih r'
      refine ⟨.category c :: rows ++ .blank :: rest, ?_, ?_⟩
      · show (cmpMethods b d1 d2 (sortedUnion (Dict.keys d1) (Dict.keys d2)) r >>= _) = _
        rw [hr, ok_bind]
        dsimp only
        rw [hp, ok_bind]
      · rw [hm] at hrows
        rw [List.flatMap_append, List.flatMap_cons, List.flatMap_cons, hparts, List.flatMap_cons, unlines_append,
          ← flatMap_forall₂ hrows, categoryLines, if_pos hc, unlines_append, unlines_append]
        simp only [unlines, List.flatMap_cons, List.flatMap_nil, List.flatMap_map, rowText, List.append_assoc, List.append_nil,
          List.nil_append, List.cons_append]
    · have hb : ¬(Dict.has f1 c && Dict.has f2 c) = true := by
        rw [Bool.and_eq_true, Dict.has_iff, Dict.has_iff]; exact hc
      rw [if_neg hb]
      obtain ⟨rest, hp, hparts⟩ := ih r
      refine ⟨.category c :: .present (Dict.has f1 c) (Dict.has f2 c) :: rest, by rw [hp]; rfl, ?_⟩
      have e : ∀ f : List (Str × PyVal ℝ), boolStr (Dict.has f c) = if c ∈ Dict.keys f then "True".toList else "False".toList := by
        intro f
        by_cases h : c ∈ Dict.keys f
        · rw [(Dict.has_iff f c).2 h, if_pos h]; rfl
        · have : Dict.has f c = false := by
            rw [← Bool.not_eq_true, Dict.has_iff]; exact h
          rw [this, if_neg h]; rfl
      rw [List.flatMap_cons, List.flatMap_cons, hparts, List.flatMap_cons, unlines_append, categoryLines, if_neg hc,
        unlines_append]
      simp only [unlines, List.flatMap_cons, List.flatMap_nil, rowText, missingLine, e, fill, ljust, List.append_assoc,
        List.append_nil, List.nil_append, List.cons_append]
      rfl

end Xml

/-- C88: the text of the comparison of two readable files: for every category of either file, in increasing order, a heading;
below it a line for every attribute of either file, in increasing order, with its name, what the two files have, and the verdict
of C44; if the category is missing in a file, a FAIL line that tells in which.  The same text is returned and written. -/
theorem C88_text (env : Env ℝ) (b : Bool) (fmt : Fl ℝ → Str) (repr : PyVal ℝ → Str) (filename : Option Str) (x1 x2 : Option Elem)
    (f1 f2 : List (Str × PyVal ℝ)) (h1 : xmlToDict env x1 = .ok (some f1)) (h2 : xmlToDict env x2 = .ok (some f2))
    (n1 : NoNestedValue f1) (n2 : NoNestedValue f2) (cs : List Str) (hcs : IsSortedUnion (Dict.keys f1) (Dict.keys f2) cs)
    (ms : Str → List Str) (hms : ∀ c, IsSortedUnion (methodsOf f1 c) (methodsOf f2 c) (ms c)) :
    let s := unlines (cs.flatMap (categoryLines b fmt repr f1 f2 ms))
    compareText b fmt repr filename (some f1) (some f2) = .ok (s, filename.map fun n => (n, s)) := by
  intro s
  obtain ⟨rows, hr, ht⟩ := cmpCategories_text b f1 f2 (xmlToDict_readable h1) (xmlToDict_readable h2) n1 n2 fmt repr ms hms
    (sortedUnion (Dict.keys f1) (Dict.keys f2)) none
  rw [sortedUnion_unique (sortedUnion_spec _ _) hcs] at hr ht
  have hx : compareXml b (some f1) (some f2) = .ok rows := by
    rw [compareXml, sortedUnion_unique (sortedUnion_spec _ _) hcs]; exact hr
  unfold compareText
  simp only
  rw [hx, ok_bind, ht]
  cases filename <;> rfl

namespace Spec

/-- `l` is a line of the text `t` (a part between line ends) -/
def IsLine (t l : Str) : Prop := ∃ a b, t = a ++ l ++ '\n' :: b ∧ '\n' ∉ l ∧ (a = [] ∨ a.getLast? = some '\n')

end Spec

namespace Xml

theorem isLine_iff {ls : List Str} (h : ∀ l ∈ ls, '\n' ∉ l) (l : Str) : IsLine (unlines ls) l ↔ l ∈ ls := by
  induction ls with
  | nil =>
    constructor
    · rintro ⟨a, b, hab, -⟩
      have := congrArg List.length hab
      simp [unlines] at this
    · intro h; cases h
  | cons x ls ih =>
    have hx := h x (by simp)
    have ih' := ih fun l hl => h l (by simp [hl])
    have e : unlines (x :: ls) = x ++ '\n' :: unlines ls := by simp [unlines]
    rw [e]
    constructor
    · rintro ⟨a, b, hab, hl, ha⟩
      rcases List.append_eq_append_iff.1 (show x ++ '\n' :: unlines ls = (a ++ l) ++ '\n' :: b from hab) with
        ⟨c, h1, h2⟩ | ⟨c, h1, h2⟩
      · -- the line ends after `x`
        cases c with
        | nil =>
          rw [List.append_nil] at h1
          rcases ha with rfl | ha
          · rw [List.nil_append] at h1
            rw [h1]; simp
          · obtain ⟨a', rfl⟩ := List.getLast?_eq_some_iff.1 ha
            exact absurd (by rw [← h1]; simp) hx
        | cons c0 c =>
          rw [List.cons_append, List.cons.injEq] at h2
          obtain ⟨rfl, h2⟩ := h2
          -- `a ++ l = x ++ '\n' :: c`
          rcases List.append_eq_append_iff.1 h1 with ⟨d, k1, k2⟩ | ⟨d, k1, k2⟩
          · -- x = a ++ d, l = d ++ '\n' :: c
            exact absurd (by rw [k2]; simp) hl
          · -- a = x ++ d, d ++ l = '\n' :: c
            cases d with
            | nil =>
              rw [List.nil_append] at k2
              exact absurd (by rw [← k2]; simp) hl
            | cons d0 d =>
              rw [List.cons_append, List.cons.injEq] at k2
              obtain ⟨rfl, k2⟩ := k2
              refine List.mem_cons_of_mem _ (ih'.1 ⟨d, b, by rw [h2, k2], hl, ?_⟩)
              by_cases hd : d = []
              · exact .inl hd
              · right
                rcases ha with rfl | ha
                · simp at k1
                · rw [k1, List.getLast?_append, List.getLast?_cons] at ha
                  obtain ⟨z, hz⟩ := Option.isSome_iff_exists.1 (List.getLast?_isSome.2 hd)
                  rw [hz] at ha ⊢
                  simpa using ha
      · -- `x = a ++ l ++ c`
        cases c with
        | nil =>
          rw [List.append_nil] at h1
          rcases ha with rfl | ha
          · rw [List.nil_append] at h1
            rw [h1]; simp
          · obtain ⟨a', rfl⟩ := List.getLast?_eq_some_iff.1 ha
            exact absurd (by rw [h1]; simp) hx
        | cons c0 c =>
          rw [List.cons_append, List.cons.injEq] at h2
          obtain ⟨rfl, -⟩ := h2
          exact absurd (by rw [h1]; simp) hx
    · intro hl
      rcases List.mem_cons.1 hl with rfl | hl
      · exact ⟨[], unlines ls, rfl, hx, .inl rfl⟩
      · obtain ⟨a, b, hab, hn, ha⟩ := ih'.2 hl
        refine ⟨x ++ '\n' :: a, b, by rw [hab]; simp, hn, .inr ?_⟩
        rcases ha with rfl | ha
        · simp
        · rw [List.getLast?_append, List.getLast?_cons, ha]; rfl

/-- the end of a text after its last line end -/
theorem last_line (t : Str) : ∃ u w, t = u ++ w ∧ '\n' ∉ w ∧ (u = [] ∨ u.getLast? = some '\n') := by
  induction t using List.reverseRecOn with
  | nil => exact ⟨[], [], rfl, by simp, .inl rfl⟩
  | append_singleton t c ih =>
    obtain ⟨u, w, h1, h2, h3⟩ := ih
    by_cases hc : c = '\n'
    · subst hc
      exact ⟨t ++ ['\n'], [], by simp, by simp, .inr (by simp)⟩
    · exact ⟨u, w ++ [c], by rw [h1]; simp, by simp [h2, Ne.symm hc], h3⟩

theorem exists_line (ls : List Str) (l s : Str) (hl : l ∈ ls) (hs : s <:+ l) (hn : '\n' ∉ s) :
    ∃ l', IsLine (unlines ls) l' ∧ s <:+ l' := by
  obtain ⟨xs, ys, rfl⟩ := List.append_of_mem hl
  obtain ⟨p, rfl⟩ := hs
  obtain ⟨u, w, h1, h2, h3⟩ := last_line (unlines xs ++ p)
  refine ⟨w ++ s, ⟨u, unlines ys, ?_, ?_, h3⟩, w, rfl⟩
  · rw [unlines_append]
    have : unlines ((p ++ s) :: ys) = p ++ s ++ '\n' :: unlines ys := by simp [unlines]
    rw [this, ← List.append_assoc, ← List.append_assoc, h1]
    simp
  · simp [h2, hn]

theorem fill_no {n : ℕ} {s : Str} (h : '\n' ∉ s) : '\n' ∉ fill n s := by
  unfold fill
  simp [h]

theorem suffix_fail_ok (p : Str) : ¬ "FAIL".toList <:+ p ++ "OK".toList := by
  rintro ⟨q, hq⟩
  have h := congrArg List.getLast? hq
  rw [List.getLast?_append, List.getLast?_append] at h
  have e1 : "FAIL".toList.getLast? = some 'L' := by decide +kernel
  have e2 : "OK".toList.getLast? = some 'K' := by decide +kernel
  rw [e1, e2] at h
  exact absurd h (by simp)

end Xml

/-- C88: a reader who looks for lines that end in FAIL finds one exactly when the two files do not agree.  (Names have no line
ends, and no category ends in FAIL: names in dictionaries of `xml_to_dict` are lower case.) -/
theorem C88_fail (b : Bool) (fmt : Fl ℝ → Str) (repr : PyVal ℝ → Str) (f1 f2 : List (Str × PyVal ℝ))
    (hfmt : ∀ x, '\n' ∉ fmt x) (cs : List Str) (hcs : IsSortedUnion (Dict.keys f1) (Dict.keys f2) cs)
    (ms : Str → List Str) (hms : ∀ c, IsSortedUnion (methodsOf f1 c) (methodsOf f2 c) (ms c))
    (hc : ∀ c ∈ cs, '\n' ∉ c ∧ ¬ "FAIL".toList <:+ c) (hm : ∀ c ∈ cs, ∀ m ∈ ms c, '\n' ∉ m) :
    (∃ l, IsLine (unlines (cs.flatMap (categoryLines b fmt repr f1 f2 ms))) l ∧ "FAIL".toList <:+ l) ↔ ¬ FilesAgree b f1 f2 := by
  classical
  constructor
  · rintro ⟨l, hl, hf⟩ ⟨hk, hM⟩
    have hboth : ∀ c ∈ cs, c ∈ Dict.keys f1 ∧ c ∈ Dict.keys f2 := by
      intro c hcm
      rcases (hcs.2 c).1 hcm with h | h
      · exact ⟨h, (hk c).1 h⟩
      · exact ⟨(hk c).2 h, h⟩
    have hMm : ∀ c ∈ cs, ∀ m ∈ ms c, Match b (entryOf f1 c m) (entryOf f2 c m) := fun c _ m hmm =>
      hM c m (((hms c).2 m).1 hmm)
    have hcell : ∀ c ∈ cs, ∀ m ∈ ms c, '\n' ∉ cellOf fmt repr f1 f2 f1 c m ∧ '\n' ∉ cellOf fmt repr f1 f2 f2 c m := by
      intro c hcm m hmm
      unfold cellOf
      by_cases hB : ByData f1 f2 c m
      · rw [if_pos hB, if_pos hB]; decide
      · rw [if_neg hB, if_neg hB]
        obtain ⟨e1, e2, he1, he2, ⟨x, y, hx, hy, -⟩ | ⟨hnone, d1, d2, hd1, hd2, -⟩⟩ := hMm c hcm m hmm
        · unfold fieldOf
          rw [he1, he2]
          simp only [hx, hy, Option.getD_some, textOf]
          exact ⟨hfmt x, hfmt y⟩
        · refine absurd ⟨?_, ?_, ?_⟩ hB
          · unfold fieldOf
            rw [he1, he2]
            rcases hnone with h | h
            · exact .inl ((getD_none_iff _).2 h)
            · exact .inr ((getD_none_iff _).2 h)
          · unfold fieldOf
            rw [he1]; simp [hd1]
          · unfold fieldOf
            rw [he2]; simp [hd2]
    have hstar : '\n' ∉ List.replicate 70 '*' ∧ ¬ "FAIL".toList <:+ List.replicate 70 '*' := by
      constructor <;> decide +kernel
    have hlines : ∀ l ∈ cs.flatMap (categoryLines b fmt repr f1 f2 ms), '\n' ∉ l ∧ ¬ "FAIL".toList <:+ l := by
      intro l hl
      obtain ⟨c, hcm, hl⟩ := List.mem_flatMap.1 hl
      rw [categoryLines, if_pos (hboth c hcm)] at hl
      rcases List.mem_append.1 hl with hl | hl
      · simp only [List.mem_cons, List.not_mem_nil, or_false] at hl
        rcases hl with rfl | rfl | rfl
        · exact hstar
        · exact hc _ hcm
        · exact hstar
      · rcases List.mem_append.1 hl with hl | hl
        · obtain ⟨m, hmm, rfl⟩ := List.mem_map.1 hl
          rw [entryLine, if_pos (hMm c hcm m hmm)]
          refine ⟨?_, suffix_fail_ok _⟩
          obtain ⟨q1, q2⟩ := hcell c hcm m hmm
          simp only [List.mem_append, not_or]
          exact ⟨⟨⟨fill_no (hm c hcm m hmm), fill_no q1⟩, fill_no q2⟩, by decide⟩
        · rw [List.mem_singleton] at hl
          subst hl
          exact ⟨by decide, by decide⟩
    exact (hlines l ((isLine_iff (fun l hl => (hlines l hl).1) l).1 hl)).2 hf
  · intro hA
    by_contra hno
    refine hA ?_
    have hlines : ∀ l ∈ cs.flatMap (categoryLines b fmt repr f1 f2 ms), ¬ "FAIL".toList <:+ l := by
      intro l hl hf
      exact hno (exists_line _ l _ hl hf (by decide))
    have hboth : ∀ c ∈ cs, c ∈ Dict.keys f1 ∧ c ∈ Dict.keys f2 := by
      intro c hcm
      by_contra hn
      refine hlines (missingLine f1 f2 c) (List.mem_flatMap.2 ⟨c, hcm, ?_⟩) ⟨_, rfl⟩
      rw [categoryLines, if_neg hn]
      simp
    refine ⟨fun c => ⟨fun h => (hboth c ((hcs.2 c).2 (.inl h))).2, fun h => (hboth c ((hcs.2 c).2 (.inr h))).1⟩, ?_⟩
    intro c m hmm
    have hcm : c ∈ cs := by
      have key : ∀ f : List (Str × PyVal ℝ), m ∈ methodsOf f c → c ∈ Dict.keys f := by
        intro f h
        unfold methodsOf at h
        cases hg : Dict.get? f c with
        | none => rw [hg] at h; cases h
        | some v => exact Dict.mem_keys_of_get? hg
      rcases hmm with h | h
      · exact (hcs.2 c).2 (.inl (key f1 h))
      · exact (hcs.2 c).2 (.inr (key f2 h))
    by_contra hM
    refine hlines (entryLine b fmt repr f1 f2 c m) (List.mem_flatMap.2 ⟨c, hcm, ?_⟩) ⟨_, by rw [entryLine, if_neg hM]⟩
    rw [categoryLines, if_pos (hboth c hcm)]
    exact List.mem_append_right _ (List.mem_append_left _ (List.mem_map_of_mem (((hms c).2 m).2 hmm)))

/-- C88: if a file cannot be read the text is empty and no file is written: the report has no FAIL although nothing was
compared. -/
theorem C88_unreadable (b : Bool) (fmt : Fl ℝ → Str) (repr : PyVal ℝ → Str) (filename : Option Str)
    (f : Option (List (Str × PyVal ℝ))) : compareText b fmt repr filename none f = .ok ([], none) ∧
      compareText b fmt repr filename f none = .ok ([], none) := by
  cases f <;> exact ⟨rfl, rfl⟩

/-- C88: the columns.  The verdict is always the end of the line; a name of at most 35 characters and values of at most 20 can
be read off the line (names and values do not end in a space). -/
theorem C88_columns (m m' t1 t1' t2 t2' v v' : Str) (hv : v = "OK".toList ∨ v = "FAIL".toList)
    (hv' : v' = "OK".toList ∨ v' = "FAIL".toList)
    (h : fill 35 m ++ fill 20 t1 ++ fill 20 t2 ++ v = fill 35 m' ++ fill 20 t1' ++ fill 20 t2' ++ v') :
    v = v' ∧ ((m.length ≤ 35 ∧ m'.length ≤ 35 ∧ m.getLast? ≠ some ' ' ∧ m'.getLast? ≠ some ' ') → m = m' ∧
      ((t1.length ≤ 20 ∧ t1'.length ≤ 20 ∧ t1.getLast? ≠ some ' ' ∧ t1'.getLast? ≠ some ' ') → t1 = t1' ∧
        ((t2.getLast? ≠ some ' ' ∧ t2'.getLast? ≠ some ' ') → t2 = t2'))) := by
  have e1 : "FAIL".toList.getLast? = some 'L' := by decide +kernel
  have e2 : "OK".toList.getLast? = some 'K' := by decide +kernel
  have hvv : v = v' := by
    have hl := congrArg List.getLast? h
    rw [List.getLast?_append (l' := v), List.getLast?_append (l' := v')] at hl
    rcases hv with rfl | rfl <;> rcases hv' with rfl | rfl
    · rfl
    · rw [e1, e2] at hl; exact absurd hl (by simp)
    · rw [e1, e2] at hl; exact absurd hl (by simp)
    · rfl
  subst hvv
  refine ⟨rfl, fun ⟨a1, a2, a3, a4⟩ => ?_⟩
  have h' := List.append_cancel_right h
  rw [List.append_assoc, List.append_assoc] at h'
  obtain ⟨k1, k2⟩ := List.append_inj h' (by simp only [fill, List.length_append, List.length_replicate]; omega)
  refine ⟨rpad_inj a3 a4 k1, fun ⟨b1, b2, b3, b4⟩ => ?_⟩
  obtain ⟨k3, k4⟩ := List.append_inj k2 (by simp only [fill, List.length_append, List.length_replicate]; omega)
  exact ⟨rpad_inj b3 b4 k3, fun ⟨c1, c2⟩ => rpad_inj c1 c2 k4⟩

/-- C88: two values of 20 or more characters (as of a negative float with 17 digits and exponent) run into each other. -/
theorem C88_columns_merge (t1 t2 : Str) (h1 : 20 ≤ t1.length) (h2 : 20 ≤ t2.length) : fill 20 t1 ++ fill 20 t2 = t1 ++ t2 := by
  rw [fill, fill, Nat.sub_eq_zero_of_le h1, Nat.sub_eq_zero_of_le h2, List.replicate_zero, List.append_nil, List.append_nil]

/-! ### a case -/

/-- a file with one attribute of value 5 -/
def fiveFile : List (Str × PyVal ℝ) := [(['s'], .dict [(['k'], .dict [(valueKey, .num (.fin 5))])])]

/-- its attributes -/
def fiveNames (c : Str) : List Str := if c = ['s'] then [['k']] else []

theorem five_methods (c : Str) : methodsOf fiveFile c = fiveNames c := by
  unfold methodsOf fiveNames fiveFile
  by_cases h : c = ['s']
  · subst h; rfl
  · rw [if_neg h, Dict.get?, if_neg (Ne.symm h), Dict.get?]

theorem five_sorted (c : Str) : (fiveNames c).Pairwise (· < ·) := by
  unfold fiveNames
  split_ifs <;> simp

/-- the text of the comparison of the file with itself, which is written too; it has no line that ends in FAIL -/
example (fmt : Fl ℝ → Str) (hfmt : ∀ x, '\n' ∉ fmt x) (repr : PyVal ℝ → Str) :
    ∃ s, compareText true fmt repr (some "out".toList) (some fiveFile) (some fiveFile) = .ok (s, some ("out".toList, s)) ∧
      ¬ ∃ l, IsLine s l ∧ "FAIL".toList <:+ l := by
  have hread := digitFile_read '5' 5 (by simp [digitEnv]) (by decide)
  have hcs : IsSortedUnion (Dict.keys fiveFile) (Dict.keys fiveFile) [['s']] := ⟨by simp, by simp [Dict.keys, fiveFile]⟩
  have hms : ∀ c, IsSortedUnion (methodsOf fiveFile c) (methodsOf fiveFile c) (fiveNames c) := fun c => by
    rw [five_methods]; exact ⟨five_sorted c, by simp⟩
  refine ⟨_, C88_text digitEnv true fmt repr (some "out".toList) _ _ fiveFile fiveFile hread hread (digit_noNested 5)
    (digit_noNested 5) [['s']] hcs fiveNames hms, ?_⟩
  rw [C88_fail true fmt repr fiveFile fiveFile hfmt [['s']] hcs fiveNames hms (by decide) (by decide), not_not]
  refine ⟨fun _ => Iff.rfl, fun c m hm => ?_⟩
  rw [five_methods, or_self, fiveNames] at hm
  split_ifs at hm with hc
  · subst hc
    rw [List.mem_singleton] at hm
    subst hm
    exact (C44_self _).1 5 rfl
  · cases hm

/-- compared with an empty file there is one -/
example (fmt : Fl ℝ → Str) (hfmt : ∀ x, '\n' ∉ fmt x) (repr : PyVal ℝ → Str) :
    ∃ l, IsLine (unlines ([['s']].flatMap (categoryLines true fmt repr fiveFile [] fiveNames))) l ∧ "FAIL".toList <:+ l := by
  refine (C88_fail true fmt repr fiveFile [] hfmt [['s']] ⟨by simp, by simp [Dict.keys, fiveFile]⟩ fiveNames (fun c => ?_)
    (by decide) (by decide)).2 ?_
  · rw [five_methods]; exact ⟨five_sorted c, by simp [methodsOf]⟩
  · rintro ⟨h, -⟩
    have := (h ['s']).1 (by simp [Dict.keys, fiveFile])
    simp [Dict.keys] at this

end Emva
