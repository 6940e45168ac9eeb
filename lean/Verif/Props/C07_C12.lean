import Verif.Lemmas.Parser
import Verif.Py.Num

/-!
C07-C12: the descriptor parser, for every text.  `pf`/`pi` are `float()`/`int()`; the theorems hold
for every behaviour of these two functions.
-/
set_option autoImplicit false
set_option linter.unusedSectionVars false
namespace Emva
open Py Spec Emva.Parser
variable {K : Type} [DecidableEq K]
variable (pf : Str → Option K) (pi : Str → Option ℤ) (zero : K) (filename : Str)
  (path : Option Str)

/-- Directory that image names are relative to: the given path, else the directory of the file. -/
def imageDir (filename : Str) (path : Option Str) : Str := path.getD (dirname filename)

/-- C07, soundness: an accepted text is a sequence of statements of the grammar, with at most one
format line and no colliding series, and the result contains exactly what it describes: nothing
lost, nothing added, nothing attributed to another header. -/
theorem C07_sound (text : Str) (r : Desc K) (h : parse pf pi zero filename path text = .ok r) :
    ∃ ss, Grammar pf pi zero (content text) ss ∧ Consistent ss ∧
      Means (imageDir filename path) ss r := by
  obtain ⟨ss, hg, he⟩ := fillInfo_sound pf pi zero _ _ _ _ h
  rw [loadLines_words] at hg
  exact ⟨ss, hg, (exec_spec _ ss).1.1 ⟨r, he⟩, (exec_spec _ ss).2 r he⟩

/-- C07, completeness: every text whose content follows the grammar consistently is accepted, and
parsed to what it describes. -/
theorem C07_complete (text : Str) (ss : List (Stmt K)) (hg : Grammar pf pi zero (content text) ss)
    (hc : Consistent ss) :
    ∃ r, parse pf pi zero filename path text = .ok r ∧ Means (imageDir filename path) ss r := by
  obtain ⟨r, hr⟩ := (exec_spec (imageDir filename path) ss).1.2 hc
  refine ⟨r, ?_, (exec_spec _ ss).2 r hr⟩
  rw [← hr]
  exact fillInfo_complete pf pi zero _ _ ss hg _ (loadLines_words text) _

/-- C07: the grammar is unambiguous, so "what the text describes" is well defined. -/
theorem C07_unambiguous (ls : List (List Str)) (ss ss' : List (Stmt K))
    (h : Grammar pf pi zero ls ss) (h' : Grammar pf pi zero ls ss') : ss = ss' := by
  have imgs : ∀ (names names' : List Str) (l l' : List (List Str)), ¬ nextIsImage l →
      ¬ nextIsImage l' → names.map (fun n => [['i'], n]) ++ l
        = names'.map (fun n => [['i'], n]) ++ l' → names = names' ∧ l = l' := by
    intro names
    induction names with
    | nil =>
      intro names' l l' hl hl' e
      cases names' with
      | nil => exact ⟨rfl, by simpa using e⟩
      | cons n ns => simp at e; exact absurd ⟨_, by rw [e]; rfl, rfl⟩ hl
    | cons n ns ih =>
      intro names' l l' hl hl' e
      cases names' with
      | nil => simp at e; exact absurd ⟨_, by rw [← e]; rfl, rfl⟩ hl'
      | cons m ms =>
        simp at e
        obtain ⟨rfl, h2⟩ := ih ms l l' hl hl' e.2
        exact ⟨by rw [e.1], h2⟩
  induction h generalizing ss' with
  | nil => cases h'; rfl
  | version g ih =>
    cases h' with
    | version g' => rw [ih _ g']
    | other hc g' => simp at hc
  | format hx hy hz g ih =>
    cases h' with
    | format hx' hy' hz' g' =>
      rw [hx] at hx'; rw [hy] at hy'; rw [hz] at hz'
      simp at hx' hy' hz'
      rw [ih _ g', hx', hy', hz']
    | other hc g' => simp at hc
  | bright hx hy h2 hn g ih =>
    generalize hls : _ :: _ = ls0 at h'
    cases h' with
    | bright hx' hy' h2' hn' g' =>
      simp at hls
      obtain ⟨⟨rfl, rfl⟩, h3⟩ := hls
      rw [hx] at hx'; rw [hy] at hy'
      simp at hx' hy'
      obtain ⟨rfl, rfl⟩ := imgs _ _ _ _ hn hn' h3
      rw [ih _ g', hx', hy']
    | other hc g' => simp at hls; rw [← hls.1.1] at hc; simp at hc
    | _ => simp at hls
  | dark hx h2 hn g ih =>
    generalize hls : _ :: _ = ls0 at h'
    cases h' with
    | dark hx' h2' hn' g' =>
      simp at hls
      obtain ⟨rfl, h3⟩ := hls
      rw [hx] at hx'
      simp at hx'
      obtain ⟨rfl, rfl⟩ := imgs _ _ _ _ hn hn' h3
      rw [ih _ g', hx']
    | other hc g' => simp at hls; rw [← hls.1.1] at hc; simp at hc
    | _ => simp at hls
  | other hc g ih =>
    generalize hls : _ :: _ = ls0 at h'
    cases h' with
    | other hc' g' => simp at hls; rw [hls.2] at ih; rw [ih _ g']
    | version g' => simp at hls; simp [hls.1.1] at hc
    | nil => simp at hls
    | format _ _ _ g' => simp at hls; simp [hls.1.1] at hc
    | bright => simp at hls; simp [hls.1.1] at hc
    | dark => simp at hls; simp [hls.1.1] at hc

/-- a small descriptor: version, format, a temporal pair and a dark spatial series -/
def sampleText : Str :=
  "v 4.0\nn 8 4 3\n# comment\nb 10,5 200.25\ni images\\a.png\ni images\\b.png\n\nd 10.5\ni x\ni y\ni z\n".toList

/-- It is accepted and means what it should: hypotheses and conclusion of C07 on a concrete file. -/
example : (match parse decFloat decInt (0 : ℚ) "dir/desc.txt".toList none sampleText with
    | .error _ => false
    | .ok r => r.version = some "4.0".toList ∧ r.format = some (8, 4, 3) ∧
        r.lookup .temporal (21 / 2) (801 / 4)
          = some ["dir/images/a.png".toList, "dir/images/b.png".toList] ∧
        r.lookup .spatial (21 / 2) 0 = some ["dir/x".toList, "dir/y".toList, "dir/z".toList] ∧
        r.lookup .temporal (21 / 2) 0 = none) = true := by
  decide +kernel

/-- C08: in every accepted text, every series is still found under its own key, with exactly its own
images; no two series share kind, exposure and photon count. -/
theorem C08_no_overwrite (text : Str) (r : Desc K)
    (h : parse pf pi zero filename path text = .ok r) :
    ∃ ss, Grammar pf pi zero (content text) ss ∧
      (seriesOf ss).Pairwise (fun s t => ¬ Collide s t) ∧
      ∀ e p names, (e, p, names) ∈ seriesOf ss →
        r.lookup (if names.length = 2 then .temporal else .spatial) e p
          = some (names.map (imagePath (imageDir filename path))) := by
  obtain ⟨ss, hg, hc, hm⟩ := C07_sound pf pi zero filename path text r h
  refine ⟨ss, hg, hc.2, fun e p names hmem => (hm.lookup _ _ _ _).2 ⟨names, hmem, ?_, rfl⟩⟩
  by_cases h2 : names.length = 2 <;> simp [h2]

/-- C08: a text with two series of the same kind at the same exposure and photon count is rejected
with `SyntaxError`. -/
theorem C08_duplicate_rejected (text : Str) (ss : List (Stmt K))
    (hg : Grammar pf pi zero (content text) ss)
    (hd : ¬ (seriesOf ss).Pairwise (fun s t => ¬ Collide s t)) :
    parse pf pi zero filename path text = .error .syntaxError := by
  have e := fillInfo_complete pf pi zero (imageDir filename path) _ ss hg _ (loadLines_words text)
    Desc.empty
  have hno : ¬ ∃ r, ss.foldlM (execStmt (imageDir filename path)) Desc.empty = .ok r := by
    rw [(exec_spec _ ss).1]
    exact fun hc => hd hc.2
  have herr : ∀ (ss : List (Stmt K)) (d : Desc K) (x : PyErr),
      ss.foldlM (execStmt (imageDir filename path)) d = .error x → x = .syntaxError := by
    intro ss
    induction ss with
    | nil => simp [pure, Except.pure]
    | cons s t ih =>
      intro d x hx
      rw [List.foldlM_cons] at hx
      cases hs : execStmt (imageDir filename path) d s with
      | ok d' => rw [hs] at hx; exact ih d' x hx
      | error y =>
        rw [hs] at hx
        simp [bind, Except.bind] at hx
        subst hx
        cases s with
        | version t => simp [execStmt] at hs
        | format a b c =>
          simp only [execStmt] at hs
          split at hs <;> simp at hs
          exact hs.symm
        | series a b c =>
          simp only [execStmt, addPcount] at hs
          split at hs <;> simp at hs
          exact hs.symm
        | other => simp [execStmt] at hs
  unfold parse
  rw [show path.getD (dirname filename) = imageDir filename path from rfl, e]
  cases hr : ss.foldlM (execStmt (imageDir filename path)) Desc.empty with
  | ok r => exact absurd ⟨r, hr⟩ hno
  | error x => rw [herr _ _ _ hr]

/-- a bright series with photon count 0 collides with the dark series of the same exposure -/
example : parse decFloat decInt (0 : ℚ) [] none
    "d 1\ni a\ni b\nb 1 0\ni c\ni d\n".toList = .error .syntaxError := by
  decide +kernel

/-- C09: in an accepted text every temporal entry has exactly two images, every spatial entry at
least three. -/
theorem C09_kind_by_count (text : Str) (r : Desc K)
    (h : parse pf pi zero filename path text = .ok r) (e p : K) (fs : List Str) :
    (r.lookup .temporal e p = some fs → fs.length = 2) ∧
    (r.lookup .spatial e p = some fs → 3 ≤ fs.length) := by
  obtain ⟨ss, hg, hc, hm⟩ := C07_sound pf pi zero filename path text r h
  have two : ∀ (ls : List (List Str)) (ss : List (Stmt K)), Grammar pf pi zero ls ss →
      ∀ e p names, (e, p, names) ∈ seriesOf ss → 2 ≤ names.length := by
    intro ls ss hg
    induction hg with
    | nil => simp [seriesOf]
    | version g ih => simpa [seriesOf] using ih
    | format _ _ _ g ih => simpa [seriesOf] using ih
    | other _ g ih => simpa [seriesOf] using ih
    | bright _ _ h2 _ g ih =>
      intro e p names hmem
      simp only [seriesOf, List.filterMap_cons, List.mem_cons, Prod.mk.injEq] at hmem
      rcases hmem with ⟨rfl, rfl, rfl⟩ | hmem
      · exact h2
      · exact ih e p names hmem
    | dark _ h2 _ g ih =>
      intro e p names hmem
      simp only [seriesOf, List.filterMap_cons, List.mem_cons, Prod.mk.injEq] at hmem
      rcases hmem with ⟨rfl, rfl, rfl⟩ | hmem
      · exact h2
      · exact ih e p names hmem
  constructor
  · intro hl
    obtain ⟨names, hmem, hk, rfl⟩ := (hm.lookup _ _ _ _).1 hl
    simpa using hk
  · intro hl
    obtain ⟨names, hmem, hk, rfl⟩ := (hm.lookup _ _ _ _).1 hl
    have := two _ _ hg e p names hmem
    simp at hk ⊢
    omega

/-- C09: a series with fewer than two images is rejected. -/
theorem C09_short_series_rejected (text : Str) (hdr : List Str) (names : List Str)
    (pre post : List (List Str)) (hc : content text = pre ++ hdr :: (names.map (fun n => [['i'], n]) ++ post))
    (hh : hdr.head? = some ['b'] ∨ hdr.head? = some ['d']) (hn : names.length < 2)
    (hp : ¬ nextIsImage post) (r : Desc K) :
    parse pf pi zero filename path text ≠ .ok r := by
  intro h
  obtain ⟨ss, hg, -, -⟩ := C07_sound pf pi zero filename path text r h
  rw [hc] at hg
  clear hc h
  -- number of leading image lines
  have imgs : ∀ (names names' : List Str) (l l' : List (List Str)), ¬ nextIsImage l →
      ¬ nextIsImage l' → names.map (fun n => [['i'], n]) ++ l
        = names'.map (fun n => [['i'], n]) ++ l' → names = names' := by
    intro names
    induction names with
    | nil =>
      intro names' l l' hl hl' e
      cases names' with
      | nil => rfl
      | cons n ns => simp at e; exact absurd ⟨_, by rw [e]; rfl, rfl⟩ hl
    | cons n ns ih =>
      intro names' l l' hl hl' e
      cases names' with
      | nil => simp at e; exact absurd ⟨_, by rw [← e]; rfl, rfl⟩ hl'
      | cons m ms =>
        simp at e
        rw [e.1, ih ms l l' hl hl' e.2]
  -- the header is not an image line, so it cannot be inside the image list of an earlier series
  have skip : ∀ (ns : List Str) (ls pre : List (List Str)) (x : List (List Str)),
      ns.map (fun n => [['i'], n]) ++ ls = pre ++ hdr :: x →
      ∃ pre', ls = pre' ++ hdr :: x := by
    intro ns
    induction ns with
    | nil => intro ls pre x e; exact ⟨pre, by simpa using e⟩
    | cons n ns ih =>
      intro ls pre x e
      cases pre with
      | nil =>
        simp at e
        rw [← e.1] at hh
        simp at hh
      | cons a as =>
        simp at e
        exact ih ls as x e.2
  have key : ∀ (ls : List (List Str)) (ss : List (Stmt K)), Grammar pf pi zero ls ss →
      ∀ pre, ls = pre ++ hdr :: (names.map (fun n => [['i'], n]) ++ post) → False := by
    intro ls ss g
    induction g with
    | nil => intro pre e; simp at e
    | version g ih =>
      intro pre e
      cases pre with
      | nil => simp at e; rw [← e.1] at hh; simp at hh
      | cons a as => simp at e; exact ih as e.2
    | format _ _ _ g ih =>
      intro pre e
      cases pre with
      | nil => simp at e; rw [← e.1] at hh; simp at hh
      | cons a as => simp at e; exact ih as e.2
    | other hc g ih =>
      intro pre e
      cases pre with
      | nil =>
        simp at e
        rw [← e.1] at hh
        simp at hh hc
        rcases hh with rfl | rfl <;> simp at hc
      | cons a as => simp at e; exact ih as e.2
    | bright _ _ h2 hn' g ih =>
      intro pre e
      cases pre with
      | nil =>
        simp at e
        rw [imgs _ _ _ _ hn' hp e.2] at h2
        omega
      | cons a as =>
        simp at e
        obtain ⟨pre', e'⟩ := skip _ _ _ _ e.2
        exact ih pre' e'
    | dark _ h2 hn' g ih =>
      intro pre e
      cases pre with
      | nil =>
        simp at e
        rw [imgs _ _ _ _ hn' hp e.2] at h2
        omega
      | cons a as =>
        simp at e
        obtain ⟨pre', e'⟩ := skip _ _ _ _ e.2
        exact ih pre' e'
  exact key _ _ hg pre rfl

/-- C10: the parse result is a function of the content lines. -/
theorem C10_content_only (text text' : Str) (h : content text = content text') :
    parse pf pi zero filename path text = parse pf pi zero filename path text' := by
  unfold parse
  apply fillInfo_congr
  have := congrArg (List.map commaNorm) h
  rw [← loadLines_words, ← loadLines_words, List.map_map, List.map_map] at this
  exact this

/-- C10: replacing a line (anywhere) by one with the same words (re-indentation, different or more
white space between tokens, trailing blanks) does not change the result. -/
theorem C10_whitespace_irrelevant (pre post l l' : Str) (hl : ∀ c ∈ l, isNl c = false)
    (hl' : ∀ c ∈ l', isNl c = false) (h : words l = words l') :
    parse pf pi zero filename path (pre ++ '\n' :: (l ++ '\n' :: post))
      = parse pf pi zero filename path (pre ++ '\n' :: (l' ++ '\n' :: post)) := by
  apply C10_content_only
  have n : isNl '\n' = true := by decide
  rw [content_append_nl _ _ n, content_append_nl _ _ n, content_append_nl _ _ n,
    content_append_nl _ _ n, content_line hl, content_line hl', h]

/-- A line that carries no statement: blank, or its first non-blank character is `#`. -/
def Ignorable (l : Str) : Prop :=
  (∀ c ∈ l, isNl c = false) ∧ ((∀ c ∈ l, isSpace c = true) ∨
    ∃ w t, l = w ++ '#' :: t ∧ ∀ c ∈ w, isSpace c = true)

theorem words_spaces_append {w : Str} (h : ∀ c ∈ w, isSpace c = true) (t : Str) :
    words (w ++ t) = words t := by
  induction w with
  | nil => rfl
  | cons c cs ih =>
    rw [List.cons_append, words_cons_space _ (h c (by simp)),
      ih fun x hx => h x (List.mem_cons_of_mem _ hx)]

theorem content_ignorable {l : Str} (h : Ignorable l) : content l = [] := by
  rw [content_line h.1]
  rcases h.2 with h | ⟨w, t, rfl, hw⟩
  · have := words_spaces_append h []
    simp at this
    simp [this, keepWords]
  · rw [words_spaces_append hw]
    obtain ⟨v, vs, e⟩ := words_cons_nonspace (c := '#') t (by decide)
    rw [e]
    simp [keepWords]

/-- C10: inserting a comment or blank line before any line does not change the result. -/
theorem C10_ignorable_line (pre post l : Str) (h : Ignorable l) :
    parse pf pi zero filename path (pre ++ '\n' :: (l ++ '\n' :: post))
      = parse pf pi zero filename path (pre ++ '\n' :: post) := by
  apply C10_content_only
  have n : isNl '\n' = true := by decide
  rw [content_append_nl _ _ n, content_append_nl _ _ n, content_append_nl _ _ n,
    content_ignorable h]
  rfl

/-- C10: the same at the beginning and at the end of the file. -/
theorem C10_ignorable_line_ends (text l : Str) (h : Ignorable l) :
    parse pf pi zero filename path (l ++ '\n' :: text) = parse pf pi zero filename path text ∧
    parse pf pi zero filename path (text ++ '\n' :: l) = parse pf pi zero filename path text := by
  have n : isNl '\n' = true := by decide
  constructor
  · apply C10_content_only
    rw [content_append_nl _ _ n, content_ignorable h]
    rfl
  · apply C10_content_only
    rw [content_append_nl _ _ n, content_ignorable h]
    simp

/-- `\n` line ends written as `\r\n`. -/
def crlf (text : Str) : Str := text.flatMap fun c => if c = '\n' then ['\r', '\n'] else [c]

/-- C10: Windows line ends give the same result. -/
theorem C10_crlf (text : Str) :
    parse pf pi zero filename path (crlf text) = parse pf pi zero filename path text := by
  apply C10_content_only
  have gen : ∀ cur : Str, content (cur ++ crlf text) = content (cur ++ text) := by
    induction text with
    | nil => intro cur; rfl
    | cons c cs ih =>
      intro cur
      by_cases hc : c = '\n'
      · subst hc
        have n : isNl '\n' = true := by decide
        have r : isNl '\r' = true := by decide
        have e : crlf ('\n' :: cs) = '\r' :: '\n' :: crlf cs := by simp [crlf]
        rw [e, content_append_nl _ _ r, content_append_nl _ _ n]
        have := content_append_nl [] (crlf cs) n
        have c0 : content [] = [] := by decide
        simp only [List.nil_append, c0] at this
        rw [this]
        have := ih []
        simp only [List.nil_append] at this
        rw [this]
      · have e : crlf (c :: cs) = c :: crlf cs := by simp [crlf, hc]
        rw [e]
        have := ih (cur ++ [c])
        simpa using this
  simpa using gen []

/-- an indented comment inside an image list is ignorable -/
example : Ignorable "  # still the same series".toList := by
  refine ⟨by decide, .inr ⟨"  ".toList, " still the same series".toList, by decide, by decide⟩⟩

/-- C11: the decimal comma.  Two texts that differ in one header line, where the numbers of one
header are those of the other with `,` replaced by `.`, give the same result. -/
theorem C11_decimal_comma (pre post e p : Str) (he : e ≠ []) (hp : p ≠ [])
    (hes : ∀ c ∈ e, isSpace c = false) (hps : ∀ c ∈ p, isSpace c = false) :
    parse pf pi zero filename path
        (pre ++ '\n' :: ("b ".toList ++ (e ++ ' ' :: p) ++ '\n' :: post))
      = parse pf pi zero filename path
        (pre ++ '\n' :: ("b ".toList ++ (replaceChar ',' '.' e ++ ' ' :: replaceChar ',' '.' p)
          ++ '\n' :: post)) ∧
    parse pf pi zero filename path (pre ++ '\n' :: ("d ".toList ++ e ++ '\n' :: post))
      = parse pf pi zero filename path
        (pre ++ '\n' :: ("d ".toList ++ replaceChar ',' '.' e ++ '\n' :: post)) := by
  have n : isNl '\n' = true := by decide
  have rw0 : ∀ s : Str, s ≠ [] → (∀ c ∈ s, isSpace c = false) →
      replaceChar ',' '.' s ≠ [] ∧ ∀ c ∈ replaceChar ',' '.' s, isSpace c = false := by
    intro s h0 hs
    refine ⟨by simpa [replaceChar] using h0, ?_⟩
    intro c hc
    simp only [replaceChar, List.mem_map] at hc
    obtain ⟨x, hx, rfl⟩ := hc
    split
    · decide
    · exact hs x hx
  have idem : ∀ s : Str, replaceChar ',' '.' (replaceChar ',' '.' s) = replaceChar ',' '.' s := by
    intro s
    simp only [replaceChar, List.map_map]
    apply List.map_congr_left
    intro c _
    simp only [Function.comp]
    split
    · decide
    · rfl
  have nonl : ∀ s : Str, (∀ c ∈ s, isSpace c = false) → ∀ c ∈ s, isNl c = false := by
    intro s hs c hc
    have := hs c hc
    by_contra hcon
    simp only [isNl, Bool.not_eq_false, decide_eq_true_eq] at hcon
    rcases hcon with rfl | rfl <;> simp at this
  have main : ∀ l l' : Str, (∀ c ∈ l, isNl c = false) → (∀ c ∈ l', isNl c = false) →
      keepWords (words l) = keepWords (words l') → commaNorm (words l) = commaNorm (words l') →
      parse pf pi zero filename path (pre ++ '\n' :: (l ++ '\n' :: post))
        = parse pf pi zero filename path (pre ++ '\n' :: (l' ++ '\n' :: post)) := by
    intro l l' hl hl' hk hw
    unfold parse
    apply fillInfo_congr
    have e : ∀ t, (loadLines t).map seen = (content t).map commaNorm := by
      intro t
      rw [← loadLines_words, List.map_map]
      rfl
    rw [e, e, content_append_nl _ _ n, content_append_nl _ _ n, content_append_nl _ _ n,
      content_append_nl _ _ n, content_line hl, content_line hl']
    simp only [List.map_append, List.filter_cons, hk, List.filter_nil]
    split <;> simp [hw]
  have b1 : ∀ c ∈ "b ".toList, isNl c = false := by decide
  have d1 : ∀ c ∈ "d ".toList, isNl c = false := by decide
  have wb : ∀ x y : Str, x ≠ [] → y ≠ [] → (∀ c ∈ x, isSpace c = false) →
      (∀ c ∈ y, isSpace c = false) → words ("b ".toList ++ (x ++ ' ' :: y)) = [['b'], x, y] := by
    intro x y hx hy hxs hys
    show words (['b'] ++ ' ' :: (x ++ ' ' :: y)) = _
    rw [words_append_space _ _ isSpace_sp, words_append_space _ _ isSpace_sp,
      words_of_no_space hx hxs, words_of_no_space hy hys, words_of_no_space (by simp) (by decide)]
    rfl
  have wd : ∀ x : Str, x ≠ [] → (∀ c ∈ x, isSpace c = false) →
      words ("d ".toList ++ x) = [['d'], x] := by
    intro x hx hxs
    show words (['d'] ++ ' ' :: x) = _
    rw [words_append_space _ _ isSpace_sp, words_of_no_space hx hxs,
      words_of_no_space (by simp) (by decide)]
    rfl
  obtain ⟨e0, es⟩ := rw0 e he hes
  obtain ⟨p0, ps⟩ := rw0 p hp hps
  have sp : isNl ' ' = false := by decide
  have app : ∀ a b : Str, (∀ c ∈ a, isNl c = false) → (∀ c ∈ b, isNl c = false) →
      ∀ c ∈ a ++ b, isNl c = false := by
    intro a b ha hb c hc
    rcases List.mem_append.1 hc with h | h
    exacts [ha c h, hb c h]
  have cns : ∀ b : Str, (∀ c ∈ b, isNl c = false) → ∀ c ∈ ' ' :: b, isNl c = false := by
    intro b hb c hc
    rcases List.mem_cons.1 hc with rfl | h
    exacts [sp, hb c h]
  constructor
  · apply main
    · exact app _ _ b1 (app _ _ (nonl _ hes) (cns _ (nonl _ hps)))
    · exact app _ _ b1 (app _ _ (nonl _ es) (cns _ (nonl _ ps)))
    · rw [wb e p he hp hes hps, wb _ _ e0 p0 es ps]
      rfl
    · rw [wb e p he hp hes hps, wb _ _ e0 p0 es ps]
      simp [commaNorm, idem]
  · apply main
    · exact app _ _ d1 (nonl _ hes)
    · exact app _ _ d1 (nonl _ es)
    · rw [wd e he hes, wd _ e0 es]
      rfl
    · rw [wd e he hes, wd _ e0 es]
      simp [commaNorm, idem]

example : parse decFloat decInt (0 : ℚ) [] none "\nb 1,5 2,25\ni a\ni b".toList
    = parse decFloat decInt (0 : ℚ) [] none "\nb 1.5 2.25\ni a\ni b".toList ∧
    succeeds (parse decFloat decInt (0 : ℚ) [] none "\nb 1,5 2,25\ni a\ni b".toList) = true := by
  decide +kernel

/-- C12: every exception raised by the parser is a `SyntaxError` or a `ValueError`. -/
theorem C12_error_classes (text : Str) (e : PyErr)
    (h : parse pf pi zero filename path text = .error e) : e = .syntaxError ∨ e = .valueError :=
  fillInfo_error _ _ _ _ _ _ _ h

/-- The number of tokens required after each command is respected. -/
def WellFormedLine (l : List Str) : Prop :=
  2 ≤ l.length ∧ (l.head? = some ['n'] → l.length = 4) ∧ (l.head? = some ['b'] → l.length = 3) ∧
    (l.head? = some ['d'] → l.length = 2)

/-- C12: a text containing a content line with a single token, or an `n`/`b`/`d` line with the wrong
number of tokens, is rejected, wherever that line is. -/
theorem C12_malformed_rejected (text : Str) (l : List Str) (hl : l ∈ content text)
    (hw : ¬ WellFormedLine l) (r : Desc K) : parse pf pi zero filename path text ≠ .ok r := by
  intro h
  obtain ⟨ss, hg, -, -⟩ := C07_sound pf pi zero filename path text r h
  apply hw
  clear h hw
  generalize content text = ls at hg hl
  induction hg with
  | nil => simp at hl
  | version g ih =>
    rcases List.mem_cons.1 hl with rfl | hl
    · simp [WellFormedLine]
    · exact ih hl
  | format _ _ _ g ih =>
    rcases List.mem_cons.1 hl with rfl | hl
    · simp [WellFormedLine]
    · exact ih hl
  | bright _ _ _ _ g ih =>
    rcases List.mem_cons.1 hl with rfl | hl
    · simp [WellFormedLine]
    · rcases List.mem_append.1 hl with hl | hl
      · simp only [List.mem_map] at hl
        obtain ⟨n, -, rfl⟩ := hl
        simp [WellFormedLine]
      · exact ih hl
  | dark _ _ _ g ih =>
    rcases List.mem_cons.1 hl with rfl | hl
    · simp [WellFormedLine]
    · rcases List.mem_append.1 hl with hl | hl
      · simp only [List.mem_map] at hl
        obtain ⟨n, -, rfl⟩ := hl
        simp [WellFormedLine]
      · exact ih hl
  | other hc g ih =>
    rcases List.mem_cons.1 hl with rfl | hl
    · simp at hc
      simp [WellFormedLine, hc]
    · exact ih hl

/-- C12: an image line of a series (directly after its header or after other image lines of that
series) with more than one file name is rejected. -/
theorem C12_bad_image_line_rejected (text : Str) (hdr : List Str) (names : List Str)
    (bad : List Str) (pre post : List (List Str))
    (hc : content text = pre ++ hdr :: (names.map (fun n => [['i'], n]) ++ bad :: post))
    (hh : hdr.head? = some ['b'] ∨ hdr.head? = some ['d'])
    (hb : bad.head? = some ['i']) (hbl : bad.length ≠ 2) (r : Desc K) :
    parse pf pi zero filename path text ≠ .ok r := by
  intro h
  obtain ⟨ss, hg, -, -⟩ := C07_sound pf pi zero filename path text r h
  rw [hc] at hg
  clear hc h
  have inside : ∀ (ns names : List Str) (ls : List (List Str)), ¬ nextIsImage ls →
      ns.map (fun n => [['i'], n]) ++ ls = names.map (fun n => [['i'], n]) ++ bad :: post →
      False := by
    intro ns
    induction ns with
    | nil =>
      intro names ls hn e
      simp at e
      apply hn
      rw [e]
      cases names with
      | nil => exact ⟨bad, rfl, hb⟩
      | cons n ns => exact ⟨_, rfl, rfl⟩
    | cons n ns ih =>
      intro names ls hn e
      cases names with
      | nil => simp at e; rw [← e.1] at hbl; simp at hbl
      | cons m ms => simp at e; exact ih ms ls hn e.2
  have skip : ∀ (ns : List Str) (ls pre : List (List Str)) (x : List (List Str)),
      ns.map (fun n => [['i'], n]) ++ ls = pre ++ hdr :: x →
      ∃ pre', ls = pre' ++ hdr :: x := by
    intro ns
    induction ns with
    | nil => intro ls pre x e; exact ⟨pre, by simpa using e⟩
    | cons n ns ih =>
      intro ls pre x e
      cases pre with
      | nil =>
        simp at e
        rw [← e.1] at hh
        simp at hh
      | cons a as =>
        simp at e
        exact ih ls as x e.2
  have key : ∀ (ls : List (List Str)) (ss : List (Stmt K)), Grammar pf pi zero ls ss →
      ∀ pre, ls = pre ++ hdr :: (names.map (fun n => [['i'], n]) ++ bad :: post) → False := by
    intro ls ss g
    induction g with
    | nil => intro pre e; simp at e
    | version g ih =>
      intro pre e
      cases pre with
      | nil => simp at e; rw [← e.1] at hh; simp at hh
      | cons a as => simp at e; exact ih as e.2
    | format _ _ _ g ih =>
      intro pre e
      cases pre with
      | nil => simp at e; rw [← e.1] at hh; simp at hh
      | cons a as => simp at e; exact ih as e.2
    | other hc g ih =>
      intro pre e
      cases pre with
      | nil =>
        simp at e
        rw [← e.1] at hh
        simp at hh hc
        rcases hh with rfl | rfl <;> simp at hc
      | cons a as => simp at e; exact ih as e.2
    | bright _ _ h2 hn' g ih =>
      intro pre e
      cases pre with
      | nil =>
        simp at e
        exact inside _ _ _ hn' e.2
      | cons a as =>
        simp at e
        obtain ⟨pre', e'⟩ := skip _ _ _ _ e.2
        exact ih pre' e'
    | dark _ h2 hn' g ih =>
      intro pre e
      cases pre with
      | nil =>
        simp at e
        exact inside _ _ _ hn' e.2
      | cons a as =>
        simp at e
        obtain ⟨pre', e'⟩ := skip _ _ _ _ e.2
        exact ih pre' e'
  exact key _ _ hg pre rfl

/-- C12: two `n` lines are rejected. -/
theorem C12_second_format_rejected (text : Str) (a b : List Str) (l1 l2 l3 : List (List Str))
    (hc : content text = l1 ++ a :: (l2 ++ b :: l3)) (ha : a.head? = some ['n'])
    (hb : b.head? = some ['n']) (r : Desc K) : parse pf pi zero filename path text ≠ .ok r := by
  intro h
  obtain ⟨ss, hg, hcons, -⟩ := C07_sound pf pi zero filename path text r h
  have count : ∀ (ls : List (List Str)) (ss : List (Stmt K)), Grammar pf pi zero ls ss →
      (formats ss).length = (ls.filter (fun l => l.head? = some ['n'])).length := by
    intro ls ss g
    have noimg : ∀ ns : List Str, (ns.map (fun n => [['i'], n])).filter
        (fun l : List Str => l.head? = some ['n']) = [] := by
      intro ns
      induction ns with
      | nil => rfl
      | cons n ns ih => simp
    induction g with
    | nil => rfl
    | version g ih => simpa [formats, List.filter_cons] using ih
    | format _ _ _ g ih => simpa [formats, List.filter_cons] using ih
    | bright _ _ _ _ g ih =>
      simp only [List.filter_cons, List.filter_append, noimg]
      simpa [formats] using ih
    | dark _ _ _ g ih =>
      simp only [List.filter_cons, List.filter_append, noimg]
      simpa [formats] using ih
    | other hc g ih =>
      simp at hc
      simpa [formats, List.filter_cons, hc] using ih
  have := count _ _ hg
  rw [hc] at this
  have h1 := hcons.1
  simp [List.filter_append, ha, hb] at this
  omega

/-- C12: a dark series is stored under photon count 0.0. -/
theorem C12_dark_is_zero (text : Str) (r : Desc K) (e : Str) (x : K) (names : List Str)
    (pre post : List (List Str))
    (hc : content text = pre ++ [['d'], e] :: (names.map (fun n => [['i'], n]) ++ post))
    (hx : pf (replaceChar ',' '.' e) = some x) (hn : ¬ nextIsImage post)
    (h : parse pf pi zero filename path text = .ok r) :
    r.lookup (if names.length = 2 then .temporal else .spatial) x zero
      = some (names.map (imagePath (imageDir filename path))) := by
  obtain ⟨ss, hg, hcons, hm⟩ := C07_sound pf pi zero filename path text r h
  suffices hs : (x, zero, names) ∈ seriesOf ss by
    refine (hm.lookup _ _ _ _).2 ⟨names, hs, ?_, rfl⟩
    by_cases h2 : names.length = 2 <;> simp [h2]
  rw [hc] at hg
  clear hc h hm hcons
  have imgs : ∀ (names names' : List Str) (l l' : List (List Str)), ¬ nextIsImage l →
      ¬ nextIsImage l' → names.map (fun n => [['i'], n]) ++ l
        = names'.map (fun n => [['i'], n]) ++ l' → names = names' := by
    intro names
    induction names with
    | nil =>
      intro names' l l' hl hl' e
      cases names' with
      | nil => rfl
      | cons n ns => simp at e; exact absurd ⟨_, by rw [e]; rfl, rfl⟩ hl
    | cons n ns ih =>
      intro names' l l' hl hl' e
      cases names' with
      | nil => simp at e; exact absurd ⟨_, by rw [← e]; rfl, rfl⟩ hl'
      | cons m ms =>
        simp at e
        rw [e.1, ih ms l l' hl hl' e.2]
  have skip : ∀ (ns : List Str) (ls pre : List (List Str)) (z : List (List Str)),
      ns.map (fun n => [['i'], n]) ++ ls = pre ++ [['d'], e] :: z →
      ∃ pre', ls = pre' ++ [['d'], e] :: z := by
    intro ns
    induction ns with
    | nil => intro ls pre z e; exact ⟨pre, by simpa using e⟩
    | cons n ns ih =>
      intro ls pre z e
      cases pre with
      | nil => simp at e
      | cons a as => simp at e; exact ih ls as z e.2
  have key : ∀ (ls : List (List Str)) (ss : List (Stmt K)), Grammar pf pi zero ls ss →
      ∀ pre, ls = pre ++ [['d'], e] :: (names.map (fun n => [['i'], n]) ++ post) →
        (x, zero, names) ∈ seriesOf ss := by
    intro ls ss g
    induction g with
    | nil => intro pre e; simp at e
    | version g ih =>
      intro pre e
      cases pre with
      | nil => simp at e
      | cons a as => simp at e; simpa [seriesOf] using ih as e.2
    | format _ _ _ g ih =>
      intro pre e
      cases pre with
      | nil => simp at e
      | cons a as => simp at e; simpa [seriesOf] using ih as e.2
    | other hc g ih =>
      intro pre e
      cases pre with
      | nil =>
        simp at e
        simp [e.1.1] at hc
      | cons a as => simp at e; simpa [seriesOf] using ih as e.2
    | bright _ _ h2 hn' g ih =>
      intro pre e
      cases pre with
      | nil => simp at e
      | cons a as =>
        simp at e
        obtain ⟨pre', e'⟩ := skip _ _ _ _ e.2
        exact List.mem_cons_of_mem _ (ih pre' e')
    | dark hx' h2 hn' g ih =>
      intro pre e
      cases pre with
      | nil =>
        simp at e
        obtain ⟨rfl, e⟩ := e
        rw [hx] at hx'
        simp at hx'
        subst hx'
        rw [imgs _ _ _ _ hn' hn e]
        simp [seriesOf]
      | cons a as =>
        simp at e
        obtain ⟨pre', e'⟩ := skip _ _ _ _ e.2
        exact List.mem_cons_of_mem _ (ih pre' e')
  exact key _ _ hg pre rfl

/-- malformed texts, one of each sort -/
example : (["v", "n 8 4", "b 1\ni a\ni b", "d 1 2\ni a\ni b", "d 1\ni a", "d 1\ni a b\ni c",
    "n 8 1 1\nn 8 1 1", "n 8 x 1"].map
    fun t => succeeds (parse decFloat decInt (0 : ℚ) [] none t.toList)) = List.replicate 8 false := by
  decide +kernel

end Emva
