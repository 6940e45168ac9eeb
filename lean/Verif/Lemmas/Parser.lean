import Verif.Lemmas.Text

set_option autoImplicit false
set_option linter.unusedSectionVars false
namespace Emva
namespace Parser
open Py Spec
variable {K : Type} [DecidableEq K]

/-! ### collecting image lines -/

theorem collectImages_sound {path : Str} {lines fs rest : List Str}
    (h : collectImages path lines = .ok (fs, rest)) :
    ∃ names : List Str, lines.map words = names.map (fun n => [['i'], n]) ++ rest.map words ∧
      fs = names.map (imagePath path) ∧ ¬ nextIsImage (rest.map words) := by
  induction lines generalizing fs rest with
  | nil =>
    simp [collectImages] at h
    obtain ⟨rfl, rfl⟩ := h
    exact ⟨[], by simp [nextIsImage]⟩
  | cons l t ih =>
    simp only [collectImages, splitLine_eq] at h
    by_cases h2 : (words l).length < 2
    · rw [if_pos h2] at h; simp at h
    · rw [if_neg h2] at h
      simp only at h
      by_cases hi : (words l)[0]? ≠ some ['i']
      · rw [if_pos hi] at h
        simp at h
        obtain ⟨rfl, rfl⟩ := h
        refine ⟨[], by simp, by simp, ?_⟩
        rintro ⟨x, hx, hx'⟩
        simp at hx
        subst hx
        apply hi
        rw [← hx', List.head?_eq_getElem?]
      · rw [if_neg hi] at h
        by_cases hl : (words l).length ≠ 2
        · rw [if_pos hl] at h; simp at h
        · rw [if_neg hl] at h
          push Not at hi hl
          split at h
          · simp at h
          · rename_i fs' rest' he
            simp at h
            obtain ⟨rfl, rfl⟩ := h
            obtain ⟨names, h1, h3, h4⟩ := ih he
            obtain ⟨a, b, hab⟩ := List.length_eq_two.1 hl
            rw [hab] at hi
            simp at hi
            subst hi
            exact ⟨b :: names, by simp [h1, hab], by simp [h3, hab], h4⟩

theorem collectImages_complete {path : Str} (names : List Str) (lines : List Str)
    (ls : List (List Str)) (h : lines.map words = names.map (fun n => [['i'], n]) ++ ls)
    (hn : ¬ nextIsImage ls) (h2 : ∀ l, ls.head? = some l → 2 ≤ l.length) :
    ∃ rest, collectImages path lines = .ok (names.map (imagePath path), rest) ∧
      rest.map words = ls := by
  induction names generalizing lines with
  | nil =>
    simp at h
    cases lines with
    | nil => exact ⟨[], by simp [collectImages], by simpa using h⟩
    | cons l t =>
      refine ⟨l :: t, ?_, h⟩
      subst h
      have h2' := h2 (words l) (by simp)
      have hi : (words l)[0]? ≠ some ['i'] := by
        intro e
        exact hn ⟨words l, by simp, by rw [List.head?_eq_getElem?, e]⟩
      simp only [collectImages, splitLine_eq]
      rw [if_neg (by omega)]
      simp only [ne_eq]
      rw [if_pos hi]
      simp
  | cons n ns ih =>
    cases lines with
    | nil => simp at h
    | cons l t =>
      simp at h
      obtain ⟨hl, ht⟩ := h
      obtain ⟨rest, hr, hr'⟩ := ih t ht
      refine ⟨rest, ?_, hr'⟩
      simp [collectImages, splitLine_eq, hl, hr]

/-! ### statement level -/

/-- effect of one statement -/
def execStmt (path : Str) (d : Desc K) : Stmt K → Except PyErr (Desc K)
  | .version t => .ok { d with version := some t }
  | .format x y z => if d.format.isSome then .error .syntaxError
      else .ok { d with format := some (x, y, z) }
  | .series e p names => addPcount d e p (names.map (imagePath path))
  | .other => .ok d

theorem Grammar.head_two {pf : Str → Option K} {pi : Str → Option ℤ} {zero : K}
    {ls : List (List Str)} {ss : List (Stmt K)} (h : Grammar pf pi zero ls ss) :
    ∀ l, ls.head? = some l → 2 ≤ l.length := by
  cases h <;> simp

theorem bind_eq_ok {α β : Type} {x : Except PyErr α} {f : α → Except PyErr β} {b : β} :
    (x >>= f) = .ok b ↔ ∃ a, x = .ok a ∧ f a = .ok b := by
  cases x <;> simp [bind, Except.bind]

theorem fillInfo_sound (pf : Str → Option K) (pi : Str → Option ℤ) (zero : K) (path : Str)
    (lines : List Str) (d r : Desc K) (h : fillInfo pf pi zero path lines d = .ok r) :
    ∃ ss, Grammar pf pi zero (lines.map words) ss ∧ ss.foldlM (execStmt path) d = .ok r := by
  induction hn : lines.length using Nat.strong_induction_on generalizing lines d with
  | _ n ih =>
  cases lines with
  | nil =>
    simp [fillInfo] at h
    exact ⟨[], .nil, by simp [h, pure, Except.pure]⟩
  | cons line rest =>
    rw [fillInfo] at h
    simp only [splitLine_eq] at h
    by_cases h2 : (words line).length < 2
    · simp [if_pos h2] at h
    rw [if_neg h2] at h
    simp only at h
    obtain ⟨c, t, more, hw⟩ : ∃ c t more, words line = c :: t :: more := by
      match hw : words line with
      | [] => simp [hw] at h2
      | [_] => simp [hw] at h2
      | c :: t :: more => exact ⟨c, t, more, rfl⟩
    simp only [hw, List.getD_cons_zero, List.getD_cons_succ] at h
    simp only [List.length_cons] at hn
    simp only [List.map_cons, hw]
    by_cases hv : c = ['v']
    · rw [if_pos hv] at h
      obtain ⟨ss, g, e⟩ := ih rest.length (by omega) rest _ h rfl
      subst hv
      exact ⟨.version t :: ss, .version g, by simpa [execStmt, bind, Except.bind] using e⟩
    rw [if_neg hv] at h
    by_cases hnn : c = ['n']
    · rw [if_pos hnn] at h
      subst hnn
      by_cases hl : (['n'] :: t :: more).length ≠ 4
      · rw [if_pos hl] at h; simp at h
      rw [if_neg hl] at h
      by_cases hf : d.format.isSome = true
      · rw [if_pos hf] at h; simp at h
      rw [if_neg hf] at h
      push Not at hl
      obtain ⟨b, c, rfl⟩ : ∃ b c, more = [b, c] := by
        simp at hl
        exact List.length_eq_two.1 hl
      split at h
      · rename_i x y z hx hy hz
        obtain ⟨ss, g, e⟩ := ih rest.length (by omega) rest _ h rfl
        refine ⟨.format x y z :: ss, .format hx hy hz g, ?_⟩
        simpa [execStmt, hf, bind, Except.bind] using e
      · simp at h
    rw [if_neg hnn] at h
    by_cases hb : c = ['b']
    · rw [if_pos hb] at h
      subst hb
      by_cases hl : (['b'] :: t :: more).length ≠ 3
      · rw [if_pos hl] at h; simp at h
      rw [if_neg hl] at h
      push Not at hl
      obtain ⟨p, rfl⟩ : ∃ p, more = [p] := by
        simp at hl
        exact List.length_eq_one_iff.1 hl
      split at h
      · rename_i x y hx hy
        split at h
        · simp at h
        · rename_i fs rest' hg
          split at h
          · simp at h
          · rename_i d' ha
            have hlen := getImagesFilenames_length hg
            obtain ⟨ss, g, e⟩ := ih rest'.length (by omega) rest' _ h rfl
            unfold getImagesFilenames at hg
            split at hg
            · simp at hg
            · rename_i fs0 rest0 hc
              split at hg
              · simp at hg
              · rename_i h2f
                simp at hg
                obtain ⟨rfl, rfl⟩ := hg
                obtain ⟨names, h1, rfl, h4⟩ := collectImages_sound hc
                refine ⟨.series x y names :: ss, ?_, ?_⟩
                · rw [h1]
                  exact .bright hx hy (by simpa using h2f) h4 g
                · simp [execStmt, ha, bind, Except.bind, e]
      · simp at h
    rw [if_neg hb] at h
    by_cases hd : c = ['d']
    · rw [if_pos hd] at h
      subst hd
      by_cases hl : (['d'] :: t :: more).length ≠ 2
      · rw [if_pos hl] at h; simp at h
      rw [if_neg hl] at h
      push Not at hl
      obtain rfl : more = [] := by
        simp at hl
        exact hl
      split at h
      · rename_i x hx
        split at h
        · simp at h
        · rename_i fs rest' hg
          split at h
          · simp at h
          · rename_i d' ha
            have hlen := getImagesFilenames_length hg
            obtain ⟨ss, g, e⟩ := ih rest'.length (by omega) rest' _ h rfl
            unfold getImagesFilenames at hg
            split at hg
            · simp at hg
            · rename_i fs0 rest0 hc
              split at hg
              · simp at hg
              · rename_i h2f
                simp at hg
                obtain ⟨rfl, rfl⟩ := hg
                obtain ⟨names, h1, rfl, h4⟩ := collectImages_sound hc
                refine ⟨.series x zero names :: ss, ?_, ?_⟩
                · rw [h1]
                  exact .dark hx (by simpa using h2f) h4 g
                · simp [execStmt, ha, bind, Except.bind, e]
      · simp at h
    rw [if_neg hd] at h
    obtain ⟨ss, g, e⟩ := ih rest.length (by omega) rest _ h rfl
    refine ⟨.other :: ss, .other (by simp [hv, hnn, hb, hd]) g, ?_⟩
    simpa [execStmt, bind, Except.bind] using e

/-- On grammatical input the parser executes the statements one after the other. -/
theorem fillInfo_complete (pf : Str → Option K) (pi : Str → Option ℤ) (zero : K) (path : Str)
    (ls : List (List Str)) (ss : List (Stmt K)) (hg : Grammar pf pi zero ls ss)
    (lines : List Str) (hls : lines.map words = ls) (d : Desc K) :
    fillInfo pf pi zero path lines d = ss.foldlM (execStmt path) d := by
  have series : ∀ {names : List Str} {ls' : List (List Str)} {ss' : List (Stmt K)} {rest : List Str},
      2 ≤ names.length → ¬ nextIsImage ls' → Grammar pf pi zero ls' ss' →
      rest.map words = names.map (fun n => [['i'], n]) ++ ls' →
      ∃ rest', getImagesFilenames path rest = .ok (names.map (imagePath path), rest') ∧
        rest'.map words = ls' := by
    intro names ls' ss' rest h2 hn g hr
    obtain ⟨rest', h1, h3⟩ := collectImages_complete (path := path) names rest ls' hr hn
      (Grammar.head_two g)
    refine ⟨rest', ?_, h3⟩
    unfold getImagesFilenames
    simp [h1, h2]
  induction hg generalizing lines d with
  | nil =>
    simp at hls
    subst hls
    simp [fillInfo, pure, Except.pure]
  | @version t more ls' ss' _ ih =>
    obtain ⟨line, rest, rfl⟩ := List.exists_cons_of_ne_nil
      (show lines ≠ [] by rintro rfl; simp at hls)
    simp only [List.map_cons, List.cons.injEq] at hls
    rw [fillInfo]
    simp only [splitLine_eq, hls.1]
    simp
    exact ih rest hls.2 _
  | @format a b c x y z ls' ss' hx hy hz _ ih =>
    obtain ⟨line, rest, rfl⟩ := List.exists_cons_of_ne_nil
      (show lines ≠ [] by rintro rfl; simp at hls)
    simp only [List.map_cons, List.cons.injEq] at hls
    rw [fillInfo]
    simp only [splitLine_eq, hls.1]
    rw [List.foldlM_cons]
    simp only [execStmt]
    by_cases hf : d.format.isSome = true
    · simp [hf, bind, Except.bind]
    · simp [hx, hy, hz, hf]
      exact ih rest hls.2 _
  | @bright e p x y names ls' ss' hx hy h2 hn g ih =>
    obtain ⟨line, rest, rfl⟩ := List.exists_cons_of_ne_nil
      (show lines ≠ [] by rintro rfl; simp at hls)
    simp only [List.map_cons, List.cons.injEq] at hls
    rw [fillInfo]
    simp only [splitLine_eq, hls.1]
    rw [List.foldlM_cons]
    simp only [execStmt]
    obtain ⟨rest', hr1, hr2⟩ := series h2 hn g hls.2
    simp [hx, hy]
    split
    · rename_i e' he'
      rw [hr1] at he'
      simp at he'
    · rename_i fs rest0 he'
      rw [hr1] at he'
      simp at he'
      obtain ⟨rfl, rfl⟩ := he'
      cases addPcount d x y (List.map (imagePath path) names) with
      | error e => rfl
      | ok d' => exact ih _ hr2 _
  | @dark e x names ls' ss' hx h2 hn g ih =>
    obtain ⟨line, rest, rfl⟩ := List.exists_cons_of_ne_nil
      (show lines ≠ [] by rintro rfl; simp at hls)
    simp only [List.map_cons, List.cons.injEq] at hls
    rw [fillInfo]
    simp only [splitLine_eq, hls.1]
    rw [List.foldlM_cons]
    simp only [execStmt]
    obtain ⟨rest', hr1, hr2⟩ := series h2 hn g hls.2
    simp [hx]
    split
    · rename_i e' he'
      rw [hr1] at he'
      simp at he'
    · rename_i fs rest0 he'
      rw [hr1] at he'
      simp at he'
      obtain ⟨rfl, rfl⟩ := he'
      cases addPcount d x zero (List.map (imagePath path) names) with
      | error e => rfl
      | ok d' => exact ih _ hr2 _
  | @other c t more ls' ss' hc _ ih =>
    obtain ⟨line, rest, rfl⟩ := List.exists_cons_of_ne_nil
      (show lines ≠ [] by rintro rfl; simp at hls)
    simp only [List.map_cons, List.cons.injEq] at hls
    simp only [List.mem_cons, List.not_mem_nil, or_false, not_or] at hc
    rw [fillInfo]
    simp only [splitLine_eq, hls.1]
    rw [if_neg (by simp)]
    simp only [List.getD_cons_zero]
    rw [if_neg hc.1, if_neg hc.2.1, if_neg hc.2.2.1, if_neg hc.2.2.2]
    exact ih rest hls.2 _

/-! ### the parser sees only the words of the lines, with decimal commas replaced in headers -/

/-- decimal commas of a header line replaced -/
def commaNorm : List Str → List Str
  | [] => []
  | c :: rest => if c = ['b'] ∨ c = ['d'] then c :: rest.map (replaceChar ',' '.') else c :: rest

/-- what the parser sees of a line -/
def seen (l : Str) : List Str := commaNorm (words l)

theorem commaNorm_facts (a b : List Str) (h : commaNorm a = commaNorm b) :
    a.length = b.length ∧ a[0]? = b[0]? ∧ a.getD 0 [] = b.getD 0 [] ∧
    (a.getD 0 [] ≠ ['b'] → a.getD 0 [] ≠ ['d'] → a = b) ∧
    (∀ i, 0 < i → (a.getD 0 [] = ['b'] ∨ a.getD 0 [] = ['d']) →
      replaceChar ',' '.' (a.getD i []) = replaceChar ',' '.' (b.getD i [])) := by
  cases a with
  | nil =>
    cases b with
    | nil => simp
    | cons d s => simp only [commaNorm] at h; split at h <;> simp at h
  | cons c r =>
    cases b with
    | nil => simp only [commaNorm] at h; split at h <;> simp at h
    | cons d s =>
      have hcd : c = d := by
        simp only [commaNorm] at h
        split at h <;> split at h <;> simp at h <;> exact h.1
      subst hcd
      simp only [commaNorm] at h
      by_cases hb : c = ['b'] ∨ c = ['d']
      · rw [if_pos hb, if_pos hb] at h
        simp at h
        have hl : r.length = s.length := by
          have := congrArg List.length h
          simpa using this
        refine ⟨by simp [hl], by simp, by simp, ?_, ?_⟩
        · intro h1 h2; simp at h1 h2; rcases hb with hb | hb <;> contradiction
        · intro i hi _
          obtain ⟨k, rfl⟩ : ∃ k, i = k + 1 := ⟨i - 1, by omega⟩
          have := congrArg (fun l => l.getD k []) h
          have e : ∀ l : List Str, (l.map (replaceChar ',' '.')).getD k []
              = replaceChar ',' '.' (l.getD k []) := by
            intro l
            simp only [List.getD_eq_getElem?_getD, List.getElem?_map]
            cases l[k]? <;> simp [replaceChar]
          simp only [e] at this
          simpa using this
      · rw [if_neg hb, if_neg hb] at h
        simp at h
        subst h
        simp

theorem collectImages_congr (path : Str) (lines lines' : List Str)
    (h : lines.map seen = lines'.map seen) :
    (∃ e, collectImages path lines = .error e ∧ collectImages path lines' = .error e) ∨
    (∃ fs rest rest', collectImages path lines = .ok (fs, rest) ∧
      collectImages path lines' = .ok (fs, rest') ∧ rest.map seen = rest'.map seen) := by
  induction lines generalizing lines' with
  | nil =>
    cases lines' with
    | nil => right; exact ⟨[], [], [], by simp [collectImages]⟩
    | cons => simp at h
  | cons l t ih =>
    cases lines' with
    | nil => simp at h
    | cons l' t' =>
      simp at h
      obtain ⟨hl, ht⟩ := h
      obtain ⟨f1, f2, f3, f4, f5⟩ := commaNorm_facts _ _ hl
      simp only [collectImages, splitLine_eq, f1]
      by_cases h2 : (words l').length < 2
      · left; exact ⟨.syntaxError, by simp [h2]⟩
      · simp only [h2, if_false]
        by_cases hi : (words l')[0]? ≠ some ['i']
        · right
          refine ⟨[], l :: t, l' :: t', ?_⟩
          rw [f2, if_pos hi, if_pos hi]
          simp [hl, ht]
        · have hww : words l = words l' := by
            push Not at hi
            rw [← f2] at hi
            have : (words l).getD 0 [] = ['i'] := by
              rw [List.getD_eq_getElem?_getD, hi]; rfl
            exact f4 (by rw [this]; decide) (by rw [this]; decide)
          rw [hww, if_neg hi, if_neg hi]
          by_cases hl2 : (words l').length ≠ 2
          · left; exact ⟨.syntaxError, by simp [hl2]⟩
          · rw [if_neg hl2]
            rcases ih t' ht with ⟨e, h1, h2⟩ | ⟨fs, r, r', h1, h2, h3⟩
            · left; exact ⟨e, by simp [h1], by rw [if_neg hl2]; simp [h2]⟩
            · right
              exact ⟨_, r, r', by simp only [h1]; rfl, by simp only [h2]; rw [if_neg hl2], h3⟩

theorem getImagesFilenames_congr (path : Str) (lines lines' : List Str)
    (h : lines.map seen = lines'.map seen) :
    (∃ e, getImagesFilenames path lines = .error e ∧ getImagesFilenames path lines' = .error e) ∨
    (∃ fs rest rest', getImagesFilenames path lines = .ok (fs, rest) ∧
      getImagesFilenames path lines' = .ok (fs, rest') ∧ rest.map seen = rest'.map seen) := by
  unfold getImagesFilenames
  rcases collectImages_congr path lines lines' h with ⟨e, h1, h2⟩ | ⟨fs, r, r', h1, h2, h3⟩
  · left; exact ⟨e, by simp [h1, h2]⟩
  · by_cases hf : fs.length < 2
    · left; exact ⟨.syntaxError, by simp [h1, h2, hf]⟩
    · right; exact ⟨fs, r, r', by simp [h1, hf], by simp [h2, hf], h3⟩

theorem fillInfo_head (pf : Str → Option K) (pi : Str → Option ℤ) (zero : K) (path : Str)
    (l l' : Str) (t : List Str) (hl : seen l = seen l') (d : Desc K) :
    fillInfo pf pi zero path (l :: t) d = fillInfo pf pi zero path (l' :: t) d := by
  obtain ⟨f1, f2, f3, f4, f5⟩ := commaNorm_facts _ _ hl
  rw [fillInfo, fillInfo]
  by_cases hww : words l = words l'
  · simp only [splitLine_eq, hww]
  · have hbd : (words l).getD 0 [] = ['b'] ∨ (words l).getD 0 [] = ['d'] := by
      by_contra hc
      push Not at hc
      exact hww (f4 hc.1 hc.2)
    have g1 := f5 1 (by omega) hbd
    have g2 := f5 2 (by omega) hbd
    simp only [splitLine_eq, f1]
    by_cases h2 : (words l').length < 2
    · simp only [h2, if_true]
    simp only [h2, if_false, g1, g2, f1]
    rw [f3] at hbd ⊢
    rcases hbd with hb | hb
    · have n1 : ¬ (['b'] : Str) = ['v'] := by decide
      have n2 : ¬ (['b'] : Str) = ['n'] := by decide
      simp only [hb, n1, n2, if_true, if_false]
    · have n1 : ¬ (['d'] : Str) = ['v'] := by decide
      have n2 : ¬ (['d'] : Str) = ['n'] := by decide
      have n3 : ¬ (['d'] : Str) = ['b'] := by decide
      simp only [hb, n1, n2, n3, if_true, if_false]

theorem fillInfo_congr (pf : Str → Option K) (pi : Str → Option ℤ) (zero : K) (path : Str)
    (lines lines' : List Str) (h : lines.map seen = lines'.map seen) (d : Desc K) :
    fillInfo pf pi zero path lines d = fillInfo pf pi zero path lines' d := by
  induction hn : lines.length using Nat.strong_induction_on generalizing lines lines' d with
  | _ n ih =>
  cases lines with
  | nil =>
    cases lines' with
    | nil => rfl
    | cons => simp at h
  | cons l t =>
    cases lines' with
    | nil => simp at h
    | cons l' t' =>
      simp at h hn
      obtain ⟨hl, ht⟩ := h
      rw [fillInfo_head pf pi zero path l l' t hl d]
      rw [fillInfo, fillInfo]
      simp only [splitLine_eq]
      by_cases h2 : (words l').length < 2
      · simp [h2]
      simp only [h2, if_false]
      have rec0 : ∀ d, fillInfo pf pi zero path t d = fillInfo pf pi zero path t' d :=
        fun d => ih t.length (by omega) t t' ht d rfl
      split
      · exact rec0 _
      split
      · split
        · rfl
        split
        · rfl
        split
        · exact rec0 _
        · rfl
      split
      · split
        · rfl
        split
        · rename_i e p _ _
          rcases getImagesFilenames_congr path t t' ht with ⟨e, h1, h2⟩ | ⟨fs, r, r', h1, h2, h3⟩
          · split
            · rename_i he; split
              · rename_i he'; rw [h1] at he; rw [h2] at he'; simp at he he'; rw [← he, ← he']
              · rename_i he'; rw [h2] at he'; simp at he'
            · rename_i he; rw [h1] at he; simp at he
          · split
            · rename_i he; rw [h1] at he; simp at he
            · rename_i he
              have hlen := getImagesFilenames_length h1
              rw [h1] at he
              simp at he
              obtain ⟨rfl, rfl⟩ := he
              cases ha : addPcount d e p fs with
              | error e' =>
                simp only
                split
                · rename_i he'; rw [h2] at he'; simp at he'
                · rename_i he'
                  rw [h2] at he'
                  simp at he'
                  obtain ⟨rfl, rfl⟩ := he'
                  rw [ha]
              | ok d' =>
                simp only
                split
                · rename_i he'; rw [h2] at he'; simp at he'
                · rename_i he'
                  rw [h2] at he'
                  simp at he'
                  obtain ⟨rfl, rfl⟩ := he'
                  rw [ha]
                  exact ih _ (by omega) _ _ h3 _ rfl
        · rfl
      split
      · split
        · rfl
        split
        · rename_i e _
          rcases getImagesFilenames_congr path t t' ht with ⟨e, h1, h2⟩ | ⟨fs, r, r', h1, h2, h3⟩
          · split
            · rename_i he; split
              · rename_i he'; rw [h1] at he; rw [h2] at he'; simp at he he'; rw [← he, ← he']
              · rename_i he'; rw [h2] at he'; simp at he'
            · rename_i he; rw [h1] at he; simp at he
          · split
            · rename_i he; rw [h1] at he; simp at he
            · rename_i he
              have hlen := getImagesFilenames_length h1
              rw [h1] at he
              simp at he
              obtain ⟨rfl, rfl⟩ := he
              cases ha : addPcount d e zero fs with
              | error e' =>
                simp only
                split
                · rename_i he'; rw [h2] at he'; simp at he'
                · rename_i he'
                  rw [h2] at he'
                  simp at he'
                  obtain ⟨rfl, rfl⟩ := he'
                  rw [ha]
              | ok d' =>
                simp only
                split
                · rename_i he'; rw [h2] at he'; simp at he'
                · rename_i he'
                  rw [h2] at he'
                  simp at he'
                  obtain ⟨rfl, rfl⟩ := he'
                  rw [ha]
                  exact ih _ (by omega) _ _ h3 _ rfl
        · rfl
      exact rec0 _

/-- every exception of the parser is a `SyntaxError` or a `ValueError` -/
theorem fillInfo_error (pf : Str → Option K) (pi : Str → Option ℤ) (zero : K) (path : Str)
    (lines : List Str) (d : Desc K) (e : PyErr)
    (h : fillInfo pf pi zero path lines d = .error e) : e = .syntaxError ∨ e = .valueError := by
  have hsplit : ∀ l e, splitLine l = .error e → e = .syntaxError := by
    intro l e he
    rw [splitLine_eq] at he
    split at he <;> simp at he
    exact he.symm
  have hcol : ∀ ls e, collectImages path ls = .error e → e = .syntaxError := by
    intro ls
    induction ls with
    | nil => simp [collectImages]
    | cons l t ih =>
      intro e he
      simp only [collectImages] at he
      split at he
      · rename_i e' he'
        simp at he; subst he
        exact hsplit _ _ he'
      · split at he
        · simp at he
        · split at he
          · simp at he; exact he.symm
          · split at he
            · rename_i he'
              simp at he
              subst he
              exact ih _ he'
            · simp at he
  have hget : ∀ ls e, getImagesFilenames path ls = .error e → e = .syntaxError := by
    intro ls e he
    unfold getImagesFilenames at he
    split at he
    · rename_i he'
      simp at he
      subst he
      exact hcol _ _ he'
    · split at he <;> simp at he
      exact he.symm
  have hadd : ∀ (d : Desc K) x y fs e, addPcount d x y fs = .error e → e = .syntaxError := by
    intro d x y fs e he
    unfold addPcount at he
    simp only at he
    split at he <;> simp at he
    exact he.symm
  induction hn : lines.length using Nat.strong_induction_on generalizing lines d with
  | _ n ih =>
  cases lines with
  | nil => simp [fillInfo] at h
  | cons l t =>
    simp at hn
    rw [fillInfo] at h
    split at h
    · rename_i he; simp at h; subst h; exact .inl (hsplit _ _ he)
    · simp only at h
      split at h
      · exact ih t.length (by omega) _ _ h rfl
      split at h
      · split at h
        · simp at h; exact .inl h.symm
        split at h
        · simp at h; exact .inl h.symm
        split at h
        · exact ih t.length (by omega) _ _ h rfl
        · simp at h; exact .inr h.symm
      split at h
      · split at h
        · simp at h; exact .inl h.symm
        split at h
        · split at h
          · rename_i he; simp at h; subst h; exact .inl (hget _ _ he)
          · rename_i hg
            have hlen := getImagesFilenames_length hg
            split at h
            · rename_i he; simp at h; subst h; exact .inl (hadd _ _ _ _ _ he)
            · exact ih _ (by omega) _ _ h rfl
        · simp at h; exact .inr h.symm
      split at h
      · split at h
        · simp at h; exact .inl h.symm
        split at h
        · split at h
          · rename_i he; simp at h; subst h; exact .inl (hget _ _ he)
          · rename_i hg
            have hlen := getImagesFilenames_length hg
            split at h
            · rename_i he; simp at h; subst h; exact .inl (hadd _ _ _ _ _ he)
            · exact ih _ (by omega) _ _ h rfl
        · simp at h; exact .inr h.symm
      exact ih t.length (by omega) _ _ h rfl

/-! ### the dictionary built by the statements -/

/-- `self.images[kind][e][p]` -/
def Desc.lookup (d : Desc K) (k : Kind) (e p : K) : Option (List Str) :=
  (Dict.get? (d.images k) e).bind fun i => Dict.get? i p

/-- all dictionaries have distinct keys -/
def Desc.WF (d : Desc K) : Prop :=
  ∀ k, Dict.WF (d.images k) ∧ ∀ e i, Dict.get? (d.images k) e = some i → Dict.WF i

theorem images_setImages (d : Desc K) (k k' : Kind) (i : Images K) :
    (d.setImages k i).images k' = if k = k' then i else d.images k' := by
  cases k <;> cases k' <;> simp [Desc.setImages, Desc.images]

theorem addPcount_eq (d : Desc K) (e p : K) (fs : List Str) :
    (∃ d', addPcount d e p fs = .ok d') ↔ d.lookup (getKind fs) e p = none := by
  unfold addPcount
  simp only [Dict.get?_setdefault, if_true, Option.getD_some]
  unfold Desc.lookup
  cases h : Dict.get? (d.images (getKind fs)) e with
  | none => simp [Dict.has]
  | some i =>
    simp only [Option.getD_some, Option.bind_some]
    cases hp : Dict.get? i p <;> simp [Dict.has, hp]

theorem addPcount_ok {d d' : Desc K} {e p : K} {fs : List Str} (h : addPcount d e p fs = .ok d') :
    d'.version = d.version ∧ d'.format = d.format ∧
    (∀ k e' p', d'.lookup k e' p' =
      if getKind fs = k ∧ e = e' ∧ p = p' then some fs else d.lookup k e' p') ∧
    (∀ k e', e' ∈ Dict.keys (d'.images k) ↔
      (getKind fs = k ∧ e = e') ∨ e' ∈ Dict.keys (d.images k)) ∧
    (d.WF → d'.WF) := by
  unfold addPcount at h
  simp only [Dict.get?_setdefault, if_true, Option.getD_some] at h
  split at h
  · simp at h
  · rename_i hp
    simp only [Except.ok.injEq] at h
    subst h
    refine ⟨?_, ?_, ?_, ?_, ?_⟩
    · cases getKind fs <;> rfl
    · cases getKind fs <;> rfl
    · intro k e' p'
      unfold Desc.lookup
      rw [images_setImages]
      by_cases hk : getKind fs = k
      · subst hk
        simp only [if_true, true_and]
        rw [Dict.get?_set]
        by_cases he : e = e'
        · subst he
          simp only [if_true, true_and, Option.bind_some]
          rw [Dict.get?_set]
          by_cases hpp : p = p'
          · simp [hpp]
          · simp only [hpp, if_false]
            cases Dict.get? (d.images (getKind fs)) e <;> simp
        · simp [he, Dict.get?_setdefault]
      · simp [hk]
    · intro k e'
      rw [images_setImages]
      by_cases hk : getKind fs = k
      · subst hk
        simp only [if_true, true_and]
        rw [← Dict.has_iff, ← Dict.has_iff]
        unfold Dict.has
        rw [Dict.get?_set, Dict.get?_setdefault]
        by_cases he : e = e' <;> simp [he]
      · simp [hk]
    · intro wf k
      rw [images_setImages]
      by_cases hk : getKind fs = k
      · subst hk
        simp only [if_true]
        refine ⟨((wf _).1.setdefault _ _).set _ _, ?_⟩
        intro e' i hi
        rw [Dict.get?_set] at hi
        by_cases he : e = e'
        · subst he
          simp at hi
          subst hi
          apply Dict.WF.set
          cases hg : Dict.get? (d.images (getKind fs)) e with
          | none => simpa using Dict.wf_nil
          | some j => simpa using (wf _).2 e j hg
        · rw [if_neg he, Dict.get?_setdefault, if_neg he] at hi
          exact (wf _).2 e' i hi
      · simp only [hk, if_false]
        exact wf k

end Parser
end Emva

namespace Emva
namespace Parser
open Py Spec
variable {K : Type} [DecidableEq K]

/-- The parse result `r` is exactly what the statements `ss` describe. -/
structure Means (path : Str) (ss : List (Stmt K)) (r : Desc K) : Prop where
  /-- the last version line counts -/
  version : r.version = (versions ss).getLast?
  format : r.format = (formats ss).head?
  wf : r.WF
  lookup : ∀ k e p fs, r.lookup k e p = some fs ↔ ∃ names, (e, p, names) ∈ seriesOf ss ∧
    (k = .temporal ↔ names.length = 2) ∧ fs = names.map (imagePath path)
  keys : ∀ k e, e ∈ Dict.keys (r.images k) ↔
    ∃ p names, (e, p, names) ∈ seriesOf ss ∧ (k = .temporal ↔ names.length = 2)

theorem getKind_iff (path : Str) (names : List Str) (k : Kind) :
    getKind (names.map (imagePath path)) = k ↔ (k = .temporal ↔ names.length = 2) := by
  unfold getKind
  by_cases h : names.length = 2 <;> cases k <;> simp [h]

theorem exec_spec (path : Str) (ss : List (Stmt K)) :
    ((∃ r, ss.foldlM (execStmt path) Desc.empty = .ok r) ↔ Consistent ss) ∧
    ∀ r, ss.foldlM (execStmt path) Desc.empty = .ok r → Means path ss r := by
  induction ss using List.reverseRecOn with
  | nil =>
    constructor
    · simp [Consistent, formats, seriesOf, pure, Except.pure]
    · intro r h
      simp [pure, Except.pure] at h
      subst h
      refine ⟨rfl, rfl, ?_, ?_, ?_⟩
      · intro k; cases k <;> simp [Desc.empty, Desc.images, Dict.WF, Dict.keys]
      · intro k e p fs; cases k <;> simp [Desc.lookup, Desc.empty, Desc.images, seriesOf]
      · intro k e; cases k <;> simp [Desc.empty, Desc.images, seriesOf, Dict.keys]
  | append_singleton ss s ih =>
    obtain ⟨ih1, ih2⟩ := ih
    have hsplit : ∀ r, (ss ++ [s]).foldlM (execStmt path) Desc.empty = .ok r ↔
        ∃ d, ss.foldlM (execStmt path) Desc.empty = .ok d ∧ execStmt path d s = .ok r := by
      intro r
      rw [List.foldlM_append, bind_eq_ok]
      simp
    cases s with
    | version t =>
      have e1 : formats (ss ++ [Stmt.version t]) = formats ss := by simp [formats]
      have e2 : seriesOf (ss ++ [Stmt.version t]) = seriesOf ss := by simp [seriesOf]
      have e3 : versions (ss ++ [Stmt.version t]) = versions ss ++ [t] := by simp [versions]
      constructor
      · unfold Consistent
        rw [e1, e2]
        rw [← Consistent.eq_1, ← ih1]
        simp only [hsplit, execStmt]
        constructor
        · rintro ⟨r, d, h, _⟩; exact ⟨d, h⟩
        · rintro ⟨d, h⟩; exact ⟨_, d, h, rfl⟩
      · intro r h
        rw [hsplit] at h
        obtain ⟨d, h, h'⟩ := h
        simp [execStmt] at h'
        subst h'
        have m := ih2 d h
        refine ⟨by simp [e3], by rw [e1]; exact m.format, fun k => ?_, ?_, ?_⟩
        · have := m.wf k; cases k <;> exact this
        · rw [e2]; intro k; have := m.lookup k; cases k <;> exact this
        · rw [e2]; intro k; have := m.keys k; cases k <;> exact this
    | other =>
      have e1 : formats (ss ++ [Stmt.other]) = formats ss := by simp [formats]
      have e2 : seriesOf (ss ++ [Stmt.other]) = seriesOf ss := by simp [seriesOf]
      have e3 : versions (ss ++ [Stmt.other]) = versions ss := by simp [versions]
      constructor
      · unfold Consistent
        rw [e1, e2]
        rw [← Consistent.eq_1, ← ih1]
        simp only [hsplit, execStmt]
        constructor
        · rintro ⟨r, d, h, _⟩; exact ⟨d, h⟩
        · rintro ⟨d, h⟩; exact ⟨_, d, h, rfl⟩
      · intro r h
        rw [hsplit] at h
        obtain ⟨d, h, h'⟩ := h
        simp [execStmt] at h'
        subst h'
        have m := ih2 d h
        exact ⟨by rw [e3]; exact m.version, by rw [e1]; exact m.format, m.wf,
          by rw [e2]; exact m.lookup, by rw [e2]; exact m.keys⟩
    | format x y z =>
      have e1 : formats (ss ++ [Stmt.format x y z]) = formats ss ++ [(x, y, z)] := by simp [formats]
      have e2 : seriesOf (ss ++ [Stmt.format x y z]) = seriesOf ss := by simp [seriesOf]
      have e3 : versions (ss ++ [Stmt.format x y z]) = versions ss := by simp [versions]
      constructor
      · unfold Consistent
        rw [e1, e2]
        simp only [hsplit, execStmt]
        constructor
        · rintro ⟨r, d, h, h'⟩
          have c := ih1.1 ⟨d, h⟩
          have m := ih2 d h
          split at h'
          · simp at h'
          · rename_i hf
            rw [m.format] at hf
            have : formats ss = [] := by
              cases hq : formats ss <;> simp [hq] at hf ⊢
            exact ⟨by simp [this], c.2⟩
        · rintro ⟨h1, h2⟩
          have hf : formats ss = [] := by
            simp at h1
            exact h1
          obtain ⟨d, h⟩ := ih1.2 ⟨by simp [hf], h2⟩
          have m := ih2 d h
          refine ⟨{ d with format := some (x, y, z) }, d, h, ?_⟩
          rw [if_neg]
          rw [m.format, hf]; simp
      · intro r h
        rw [hsplit] at h
        obtain ⟨d, h, h'⟩ := h
        have m := ih2 d h
        simp only [execStmt] at h'
        split at h'
        · simp at h'
        · rename_i hf
          rw [m.format] at hf
          have hf' : formats ss = [] := by
            cases hq : formats ss <;> simp [hq] at hf ⊢
          simp at h'
          subst h'
          refine ⟨by rw [e3]; exact m.version, by rw [e1, hf']; rfl, fun k => ?_, ?_, ?_⟩
          · have := m.wf k; cases k <;> exact this
          · rw [e2]; intro k; have := m.lookup k; cases k <;> exact this
          · rw [e2]; intro k; have := m.keys k; cases k <;> exact this
    | series e p names =>
      have e1 : formats (ss ++ [Stmt.series e p names]) = formats ss := by simp [formats]
      have e2 : seriesOf (ss ++ [Stmt.series e p names]) = seriesOf ss ++ [(e, p, names)] := by
        simp [seriesOf]
      have e3 : versions (ss ++ [Stmt.series e p names]) = versions ss := by simp [versions]
      constructor
      · unfold Consistent
        rw [e1, e2, List.pairwise_append]
        simp only [hsplit, execStmt]
        constructor
        · rintro ⟨r, d, h, h'⟩
          have c := ih1.1 ⟨d, h⟩
          have m := ih2 d h
          have hn := (addPcount_eq d e p _).1 ⟨r, h'⟩
          refine ⟨c.1, c.2, by simp, ?_⟩
          rintro ⟨e', p', names'⟩ hmem t ht ⟨hc1, hc2, hc3⟩
          simp at ht
          subst ht
          simp only at hc1 hc2 hc3
          subst hc2 hc3
          have := (m.lookup (getKind (names.map (imagePath path))) e' p'
            (names'.map (imagePath path))).2 ⟨names', hmem, by
              rw [hc1, ← getKind_iff path], rfl⟩
          rw [hn] at this
          simp at this
        · rintro ⟨h1, h2, -, h3⟩
          obtain ⟨d, h⟩ := ih1.2 ⟨h1, h2⟩
          have m := ih2 d h
          have hn : d.lookup (getKind (names.map (imagePath path))) e p = none := by
            cases hl : d.lookup (getKind (names.map (imagePath path))) e p with
            | none => rfl
            | some fs =>
              obtain ⟨names', hm, hk, -⟩ := (m.lookup _ _ _ _).1 hl
              have hk' := (getKind_iff path names _).1 rfl
              exact absurd ⟨hk.symm.trans hk', rfl, rfl⟩ (h3 _ hm (e, p, names) (by simp))
          obtain ⟨r, hr⟩ := (addPcount_eq d e p _).2 hn
          exact ⟨r, d, h, hr⟩
      · intro r h
        rw [hsplit] at h
        obtain ⟨d, h, h'⟩ := h
        have m := ih2 d h
        simp only [execStmt] at h'
        have hn := (addPcount_eq d e p _).1 ⟨r, h'⟩
        obtain ⟨v, f, l, ks, w⟩ := addPcount_ok h'
        refine ⟨by rw [e3, v]; exact m.version, by rw [e1, f]; exact m.format, w m.wf, ?_, ?_⟩
        · intro k e' p' fs
          rw [l, e2]
          by_cases hc : getKind (names.map (imagePath path)) = k ∧ e = e' ∧ p = p'
          · rw [if_pos hc]
            obtain ⟨rfl, rfl, rfl⟩ := hc
            constructor
            · intro hs
              simp at hs
              exact ⟨names, by simp, (getKind_iff path names _).1 rfl, hs.symm⟩
            · rintro ⟨names', hm, hk, rfl⟩
              simp only [List.mem_append, List.mem_singleton, Prod.mk.injEq, true_and] at hm
              rcases hm with hm | hm
              · have := (m.lookup _ e p _).2 ⟨names', hm, hk, rfl⟩
                rw [hn] at this
                simp at this
              · rw [hm]
          · rw [if_neg hc, m.lookup]
            constructor
            · rintro ⟨names', hm, hk, he⟩
              exact ⟨names', by simp [hm], hk, he⟩
            · rintro ⟨names', hm, hk, he⟩
              simp only [List.mem_append, List.mem_singleton, Prod.mk.injEq] at hm
              rcases hm with hm | ⟨rfl, rfl, rfl⟩
              · exact ⟨names', hm, hk, he⟩
              · exact absurd ⟨(getKind_iff path names' k).2 hk, rfl, rfl⟩ hc
        · intro k e'
          rw [ks, m.keys, e2]
          constructor
          · rintro (⟨h1, rfl⟩ | ⟨p', names', hm, hk⟩)
            · exact ⟨p, names, by simp, (getKind_iff path names k).1 h1⟩
            · exact ⟨p', names', by simp [hm], hk⟩
          · rintro ⟨p', names', hm, hk⟩
            simp only [List.mem_append, List.mem_singleton, Prod.mk.injEq] at hm
            rcases hm with hm | ⟨rfl, rfl, rfl⟩
            · exact .inr ⟨p', names', hm, hk⟩
            · exact .inl ⟨(getKind_iff path names' k).2 hk, rfl⟩

end Parser
end Emva
