import Verif.Lemmas.Num
import Verif.Lemmas.Parser
import Verif.Spec.Dataset

set_option autoImplicit false
namespace Emva
namespace Gen
open Py Spec Emva.Parser

/-- text made of complete lines -/
def EndsNl (t : Str) : Prop := t = [] ∨ ∃ u, t = u ++ ['\n']

theorem content_nil : content [] = [] := by
  rw [content_line (by simp)]; simp [keepWords]

theorem add_line {t l : Str} (ht : EndsNl t) (hl : ∀ c ∈ l, isNl c = false)
    (hk : keepWords (words l) = true) :
    content (t ++ (l ++ ['\n'])) = content t ++ [words l] ∧ EndsNl (t ++ (l ++ ['\n'])) := by
  have n : isNl '\n' = true := by decide
  have cl : content l = [words l] := by rw [content_line hl]; simp [hk]
  refine ⟨?_, .inr ⟨t ++ l, by simp⟩⟩
  rcases ht with rfl | ⟨u, rfl⟩
  · rw [List.nil_append, content_append_nl l [] n, cl, content_nil]
    simp
  · have e : u ++ ['\n'] ++ (l ++ ['\n']) = u ++ '\n' :: (l ++ '\n' :: []) := by simp
    rw [e, content_append_nl _ _ n, content_append_nl _ _ n, content_append_nl _ _ n, cl,
      content_nil]
    simp

theorem isNl_of_notSpace {c : Char} (h : isSpace c = false) : isNl c = false := by
  unfold isNl
  by_cases h1 : c = '\n'
  · subst h1; simp at h
  · by_cases h2 : c = '\r'
    · subst h2; simp at h
    · simp [h1, h2]

/-- a token: not empty, no white space -/
def Word (w : Str) : Prop := w ≠ [] ∧ ∀ c ∈ w, isSpace c = false

theorem Word.nl {w : Str} (h : Word w) : ∀ c ∈ w, isNl c = false :=
  fun c hc => isNl_of_notSpace (h.2 c hc)

theorem Word.words {w : Str} (h : Word w) : words w = [w] := words_of_no_space h.1 h.2

theorem word_fmtNat (n : ℕ) : Word (fmtNat n) := ⟨fmtNat_ne_nil n, (allDig_fmtNat n).noSpace⟩

theorem word_fmtFixed (d : ℕ) (hd : 0 < d) {x : ℚ} (h : 0 ≤ x) : Word (fmtFixed d x) :=
  ⟨(fmtFixed_facts d hd h).1, (fmtFixed_facts d hd h).2.1⟩

/-- `cmd word` -/
theorem cmd_line (k : Char) (hk : isSpace k = false) (hk' : k ≠ '#') (rest : Str)
    (hr : ∀ c ∈ rest, isNl c = false) :
    (∀ c ∈ k :: ' ' :: rest, isNl c = false) ∧ words (k :: ' ' :: rest) = [k] :: words rest ∧
      keepWords (words (k :: ' ' :: rest)) = true := by
  have w : words (k :: ' ' :: rest) = [k] :: words rest := by
    have := words_append_space [k] rest isSpace_sp
    rw [show k :: ' ' :: rest = [k] ++ ' ' :: rest from rfl, this,
      words_of_no_space (by simp) (by simpa using hk)]
    rfl
  refine ⟨?_, w, by rw [w]; simpa [keepWords] using hk'⟩
  intro c hc
  simp only [List.mem_cons] at hc
  rcases hc with rfl | rfl | hc
  · exact isNl_of_notSpace hk
  · decide
  · exact hr c hc

/-- tokens of a header -/
def hdrTok (e : ℚ) : Option ℚ → List Str
  | none => [['d'], fmtFixed 1 e]
  | some p => [['b'], fmtFixed 1 e, fmtFixed 3 (roundTo 3 p)]

/-- the point has representable numbers -/
def Nonneg (e : ℚ) (r : Option ℚ) : Prop := 0 ≤ e ∧ ∀ p, r = some p → 0 ≤ p

theorem descriptorLine_spec {e : ℚ} {r : Option ℚ} (h : Nonneg e r) :
    (∀ c ∈ descriptorLine e r, isNl c = false) ∧ words (descriptorLine e r) = hdrTok e r ∧
      keepWords (words (descriptorLine e r)) = true := by
  have we := word_fmtFixed 1 (by omega) h.1
  cases r with
  | none =>
    have := cmd_line 'd' (by decide) (by decide) (fmtFixed 1 e) we.nl
    refine ⟨this.1, ?_, this.2.2⟩
    rw [show descriptorLine e none = 'd' :: ' ' :: fmtFixed 1 e from rfl, this.2.1, we.words]
    rfl
  | some p =>
    have wp := word_fmtFixed 3 (by omega) (roundTo_nonneg 3 (h.2 p rfl))
    have := cmd_line 'b' (by decide) (by decide)
      (fmtFixed 1 e ++ ' ' :: fmtFixed 3 (roundTo 3 p)) (by
        intro c hc
        simp only [List.mem_append, List.mem_cons] at hc
        rcases hc with hc | rfl | hc
        · exact we.nl c hc
        · decide
        · exact wp.nl c hc)
    refine ⟨this.1, ?_, this.2.2⟩
    rw [show descriptorLine e (some p)
      = 'b' :: ' ' :: (fmtFixed 1 e ++ ' ' :: fmtFixed 3 (roundTo 3 p)) from rfl, this.2.1,
      words_append_space _ _ isSpace_sp, we.words, wp.words]
    rfl

/-- the image format extension -/
def GoodExt (s : Str) : Prop := ∀ c ∈ s, isSpace c = false ∧ c ≠ '/' ∧ c ≠ '\\'

theorem imageName_mem {c : Cfg} (h : GoodExt c.imageFormat) (n : ℕ) :
    ∀ x ∈ imageName c n, isSpace x = false ∧ x ≠ '/' ∧ x ≠ '\\' := by
  intro x hx
  unfold imageName at hx
  simp only [List.mem_append, List.mem_cons] at hx
  rcases hx with hx | hx | rfl | hx
  · have : ∀ y ∈ "image".toList, isSpace y = false ∧ y ≠ '/' ∧ y ≠ '\\' := by decide
    exact this x hx
  · obtain ⟨d, hd, rfl⟩ := allDig_fmtNat n x hx
    have f := digitChar_facts hd
    exact ⟨f.2.2.1, f.2.2.2.2.2.2.2⟩
  · decide
  · exact h x hx

/-- name token in the descriptor -/
def nameTok (c : Cfg) (n : ℕ) : Str := "images\\".toList ++ imageName c n

theorem word_nameTok {c : Cfg} (h : GoodExt c.imageFormat) (n : ℕ) : Word (nameTok c n) := by
  refine ⟨fun e => List.cons_ne_nil _ _ (List.append_eq_nil_iff.1 e).1, ?_⟩
  intro x hx
  unfold nameTok at hx
  rcases List.mem_append.1 hx with hx | hx
  · have : ∀ y ∈ "images\\".toList, isSpace y = false := by decide
    exact this x hx
  · exact (imageName_mem h n x hx).1

theorem image_line {c : Cfg} (h : GoodExt c.imageFormat) (n : ℕ) :
    (∀ x ∈ "i images\\".toList ++ imageName c n, isNl x = false) ∧
      words ("i images\\".toList ++ imageName c n) = [['i'], nameTok c n] ∧
      keepWords (words ("i images\\".toList ++ imageName c n)) = true := by
  have w := word_nameTok h n
  have := cmd_line 'i' (by decide) (by decide) (nameTok c n) w.nl
  refine ⟨this.1, ?_, this.2.2⟩
  rw [show "i images\\".toList ++ imageName c n = 'i' :: ' ' :: nameTok c n from rfl, this.2.1,
    w.words]

/-- what the loops have produced so far -/
structure Prod (c : Cfg) (s : St) (lines : List (List Str)) (n : ℕ) : Prop where
  content : content s.text = lines
  nl : EndsNl s.text
  number : s.number = n
  saved : s.saved = (List.range n).map fun i => savePath c (imageName c i)

theorem genImages_spec {c : Cfg} (h : GoodExt c.imageFormat) (L : ℕ) (s : St)
    (lines : List (List Str)) (n : ℕ) (hs : Prod c s lines n) :
    Prod c (genImages c L s)
      (lines ++ ((List.range L).map (n + ·)).map (fun i => [['i'], nameTok c i])) (n + L) := by
  induction L generalizing s lines n with
  | zero => simpa [genImages] using hs
  | succ L ih =>
    have il := image_line h n
    have al := add_line hs.nl il.1 il.2.2
    have step : Prod c (genImage c s) (lines ++ [[['i'], nameTok c n]]) (n + 1) := by
      refine ⟨?_, ?_, ?_, ?_⟩
      · simp only [genImage, hs.number]
        rw [al.1, hs.content, il.2.1]
      · simp only [genImage, hs.number]
        exact al.2
      · simp [genImage, hs.number]
      · simp [genImage, hs.number, hs.saved, List.range_succ]
    have := ih _ _ _ step
    simp only [genImages]
    convert this using 1
    · simp only [List.append_assoc, List.range_succ_eq_map, List.map_cons, List.map_map,
        List.cons_append, List.nil_append, Nat.add_zero]
      congr 2
      apply List.map_congr_left
      intro i _
      simp only [Function.comp]
      rw [show n + (i + 1) = n + 1 + i by omega]
    · omega

/-- the lines of one point -/
def pointLines (c : Cfg) (s : ℚ × Option ℚ × List ℕ) : List (List Str) :=
  hdrTok s.1 s.2.1 :: s.2.2.map (fun i => [['i'], nameTok c i])

theorem genPoint_spec {c : Cfg} (h : GoodExt c.imageFormat) (L : ℕ) (e : ℚ) (r : Option ℚ)
    (hn : Nonneg e r) (s : St) (lines : List (List Str)) (n : ℕ) (hs : Prod c s lines n) :
    Prod c (genPoint c L e s r)
      (lines ++ pointLines c (e, r, (List.range L).map (n + ·))) (n + L) := by
  have d := descriptorLine_spec hn
  have al := add_line hs.nl d.1 d.2.2
  have := genImages_spec h L { s with text := s.text ++ (descriptorLine e r ++ ['\n']) }
    (lines ++ [hdrTok e r]) n ⟨by simp only; rw [al.1, hs.content, d.2.1], al.2, hs.number, hs.saved⟩
  simpa [genPoint, pointLines] using this

/-- number of images of a plan -/
def total (ps : List (ℚ × Option ℚ × ℕ)) : ℕ := (ps.map fun p => p.2.2).sum

theorem fold_spec {c : Cfg} (h : GoodExt c.imageFormat) (ps : List (ℚ × Option ℚ × ℕ))
    (hp : ∀ p ∈ ps, Nonneg p.1 p.2.1) (s : St) (lines : List (List Str)) (n : ℕ)
    (hs : Prod c s lines n) :
    Prod c (ps.foldl (fun s p => genPoint c p.2.2 p.1 s p.2.1) s)
      (lines ++ (numbered n ps).flatMap (pointLines c)) (n + total ps) := by
  induction ps generalizing s lines n with
  | nil => simpa [numbered, total] using hs
  | cons p ps ih =>
    have := ih (fun q hq => hp q (List.mem_cons_of_mem _ hq)) _ _ _
      (genPoint_spec h p.2.2 p.1 p.2.1 (hp p (by simp)) s lines n hs)
    simp only [List.foldl_cons]
    convert this using 1
    · simp [numbered]
    · simp [total]; omega

theorem genKind_eq (c : Cfg) (L : ℕ) (pts : Points) (s : St) :
    genKind c L pts s
      = (pts.flatMap (fun t => t.2.map fun r => (t.1, r, L))).foldl
          (fun s p => genPoint c p.2.2 p.1 s p.2.1) s := by
  rw [List.foldl_flatMap]
  simp only [List.foldl_map]
  rfl

/-- first two lines -/
def headLines (c : Cfg) : List (List Str) :=
  [[['v'], c.version], [['n'], fmtNat c.bits, fmtNat c.width, fmtNat c.height]]

theorem runTest_spec (c : Cfg) (temporal spatial : Points) (hv : Word c.version)
    (h : GoodExt c.imageFormat)
    (hp : ∀ p ∈ plan c.L temporal spatial, Nonneg p.1 p.2.1) :
    Prod c (runTest c temporal spatial)
      (headLines c ++ (numbered 0 (plan c.L temporal spatial)).flatMap (pointLines c))
      (total (plan c.L temporal spatial)) := by
  unfold runTest
  simp only []
  rw [genKind_eq, genKind_eq, ← List.foldl_append]
  have key := fold_spec h (plan c.L temporal spatial) hp
    { text := ("v ".toList ++ c.version ++ ['\n']) ++
        ("n ".toList ++ (fmtNat c.bits ++ ' ' :: (fmtNat c.width ++ ' ' :: fmtNat c.height)) ++ ['\n'])
      number := 0, saved := [] } (headLines c) 0 ?_
  · simp only [Nat.zero_add] at key
    exact key
  · have v := cmd_line 'v' (by decide) (by decide) c.version hv.nl
    have n := cmd_line 'n' (by decide) (by decide)
      (fmtNat c.bits ++ ' ' :: (fmtNat c.width ++ ' ' :: fmtNat c.height)) (by
        intro x hx
        simp only [List.mem_append, List.mem_cons] at hx
        rcases hx with hx | rfl | hx | rfl | hx
        · exact (word_fmtNat _).nl x hx
        · decide
        · exact (word_fmtNat _).nl x hx
        · decide
        · exact (word_fmtNat _).nl x hx)
    have a1 := add_line (t := []) (.inl rfl) v.1 v.2.2
    have a2 := add_line a1.2 n.1 n.2.2
    refine ⟨?_, a2.2, rfl, rfl⟩
    have e := a2.1
    rw [a1.1, v.2.1, n.2.1, hv.words, words_append_space _ _ isSpace_sp,
      words_append_space _ _ isSpace_sp, (word_fmtNat _).words, (word_fmtNat _).words,
      (word_fmtNat _).words, content_nil] at e
    exact e

/-- statement of a point -/
def pointStmt (c : Cfg) (s : ℚ × Option ℚ × List ℕ) : Stmt ℚ :=
  .series (roundTo 1 s.1) (match s.2.1 with | none => 0 | some p => roundTo 3 p)
    (s.2.2.map (nameTok c))

theorem grammar_points (c : Cfg) (ns : List (ℚ × Option ℚ × List ℕ))
    (hn : ∀ s ∈ ns, Nonneg s.1 s.2.1 ∧ 2 ≤ s.2.2.length) :
    Grammar decFloat decInt 0 (ns.flatMap (pointLines c)) (ns.map (pointStmt c)) ∧
      ¬ nextIsImage (ns.flatMap (pointLines c)) := by
  induction ns with
  | nil => exact ⟨.nil, by simp [nextIsImage]⟩
  | cons s ns ih =>
    obtain ⟨g, hi⟩ := ih fun x hx => hn x (List.mem_cons_of_mem _ hx)
    obtain ⟨e, r, is⟩ := s
    obtain ⟨h0, h2⟩ := hn (e, r, is) (by simp)
    have fe := fmtFixed_facts 1 (by omega) h0.1
    have de : decFloat (replaceChar ',' '.' (fmtFixed 1 e)) = some (roundTo 1 e) := by
      rw [fe.2.2, decFloat_fmtFixed 1 (by omega) h0.1]
    have nm : is.map (fun i => [['i'], nameTok c i])
        = (is.map (nameTok c)).map (fun n => [['i'], n]) := by simp
    cases r with
    | none =>
      refine ⟨?_, by simp [nextIsImage, pointLines, hdrTok]⟩
      simp only [List.flatMap_cons, List.map_cons, pointLines, pointStmt, hdrTok]
      rw [nm]
      exact .dark de (by simpa using h2) hi g
    | some p =>
      refine ⟨?_, by simp [nextIsImage, pointLines, hdrTok]⟩
      have hp := roundTo_nonneg 3 (h0.2 p rfl)
      have fp := fmtFixed_facts 3 (by omega) hp
      have dp : decFloat (replaceChar ',' '.' (fmtFixed 3 (roundTo 3 p))) = some (roundTo 3 p) := by
        rw [fp.2.2, decFloat_fmtFixed 3 (by omega) hp, roundTo_roundTo]
      simp only [List.flatMap_cons, List.map_cons, pointLines, pointStmt, hdrTok]
      rw [nm]
      exact .bright de dp (by simpa using h2) hi g

/-- statements of the generated descriptor -/
def stmts (c : Cfg) (ps : List (ℚ × Option ℚ × ℕ)) : List (Stmt ℚ) :=
  .version c.version :: .format c.bits c.width c.height :: (numbered 0 ps).map (pointStmt c)

theorem mem_numbered {n : ℕ} {ps : List (ℚ × Option ℚ × ℕ)} {s : ℚ × Option ℚ × List ℕ}
    (h : s ∈ numbered n ps) : (s.1, s.2.1, s.2.2.length) ∈ ps := by
  induction ps generalizing n with
  | nil => simp [numbered] at h
  | cons p ps ih =>
    obtain ⟨e, r, L⟩ := p
    simp only [numbered, List.mem_cons] at h
    rcases h with rfl | h
    · simp
    · exact List.mem_cons_of_mem _ (ih h)

theorem numbered_of_mem {n : ℕ} {ps : List (ℚ × Option ℚ × ℕ)} {p : ℚ × Option ℚ × ℕ}
    (h : p ∈ ps) : ∃ is, (p.1, p.2.1, is) ∈ numbered n ps ∧ is.length = p.2.2 := by
  induction ps generalizing n with
  | nil => simp at h
  | cons q ps ih =>
    obtain ⟨e, r, L⟩ := q
    simp only [List.mem_cons] at h
    rcases h with rfl | h
    · exact ⟨_, List.mem_cons_self .., by simp⟩
    · obtain ⟨is, h1, h2⟩ := ih (n := n + L) h
      exact ⟨is, List.mem_cons_of_mem _ h1, h2⟩

theorem grammar_text (c : Cfg) (temporal spatial : Points) (hv : Word c.version)
    (h : GoodExt c.imageFormat) (hp : ∀ p ∈ plan c.L temporal spatial, Nonneg p.1 p.2.1)
    (hL : ∀ p ∈ plan c.L temporal spatial, 2 ≤ p.2.2) :
    Grammar decFloat decInt 0 (content (runTest c temporal spatial).text)
      (stmts c (plan c.L temporal spatial)) := by
  rw [(runTest_spec c temporal spatial hv h hp).content]
  refine .version (.format (decInt_fmtNat _) (decInt_fmtNat _) (decInt_fmtNat _)
    (grammar_points c _ ?_).1)
  intro s hs
  have := mem_numbered hs
  exact ⟨hp _ this, hL _ this⟩

theorem seriesOf_map (c : Cfg) (ns : List (ℚ × Option ℚ × List ℕ)) :
    seriesOf (ns.map (pointStmt c)) = ns.map fun s => (roundTo 1 s.1,
      (match s.2.1 with | none => 0 | some p => roundTo 3 p), s.2.2.map (nameTok c)) := by
  induction ns with
  | nil => rfl
  | cons s ns ih => simp [seriesOf, pointStmt] at ih ⊢; exact ih

theorem formats_map (c : Cfg) (ns : List (ℚ × Option ℚ × List ℕ)) :
    formats (ns.map (pointStmt c)) = [] := by
  induction ns with
  | nil => rfl
  | cons s ns ih => simp [formats, pointStmt]

theorem versions_map (c : Cfg) (ns : List (ℚ × Option ℚ × List ℕ)) :
    versions (ns.map (pointStmt c)) = [] := by
  induction ns with
  | nil => rfl
  | cons s ns ih => simp [versions, pointStmt]

/-- key under which a point is stored: exposure to 0.1, photons to 0.001 -/
def key (e : ℚ) (r : Option ℚ) : ℚ × ℚ :=
  (roundTo 1 e, match r with | none => 0 | some p => roundTo 3 p)

theorem seriesOf_stmts (c : Cfg) (ps : List (ℚ × Option ℚ × ℕ)) :
    seriesOf (stmts c ps) = (numbered 0 ps).map fun s =>
      ((key s.1 s.2.1).1, (key s.1 s.2.1).2, s.2.2.map (nameTok c)) := by
  have := seriesOf_map c (numbered 0 ps)
  simp only [stmts, seriesOf, List.filterMap_cons] at this ⊢
  exact this

theorem formats_stmts (c : Cfg) (ps : List (ℚ × Option ℚ × ℕ)) :
    formats (stmts c ps) = [((c.bits : ℤ), (c.width : ℤ), (c.height : ℤ))] := by
  have := formats_map c (numbered 0 ps)
  simp only [stmts, formats, List.filterMap_cons] at this ⊢
  rw [this]

theorem versions_stmts (c : Cfg) (ps : List (ℚ × Option ℚ × ℕ)) :
    versions (stmts c ps) = [c.version] := by
  have := versions_map c (numbered 0 ps)
  simp only [stmts, versions, List.filterMap_cons] at this ⊢
  rw [this]

theorem pairwise_numbered {R : (ℚ × Option ℚ × ℕ) → (ℚ × Option ℚ × ℕ) → Prop} (n : ℕ)
    (ps : List (ℚ × Option ℚ × ℕ)) :
    (numbered n ps).Pairwise (fun s t => R (s.1, s.2.1, s.2.2.length) (t.1, t.2.1, t.2.2.length)) ↔
      ps.Pairwise R := by
  induction ps generalizing n with
  | nil => simp [numbered]
  | cons p ps ih =>
    obtain ⟨e, r, L⟩ := p
    simp only [numbered, List.pairwise_cons, ih]
    refine and_congr_left fun _ => ?_
    constructor
    · intro h q hq
      obtain ⟨is, h1, h2⟩ := numbered_of_mem (n := n + L) hq
      have := h _ h1
      simp [h2] at this
      exact this
    · intro h s hs
      have := h _ (mem_numbered hs)
      simpa using this

/-- paths: what the parser resolves is where the generator saved. -/
theorem splitOnChar_none (sep : Char) {s : Str} (h : ∀ c ∈ s, c ≠ sep) :
    splitOnChar sep s = [s] := by
  induction s with
  | nil => rfl
  | cons c cs ih =>
    simp [splitOnChar, h c (by simp), ih fun x hx => h x (List.mem_cons_of_mem _ hx)]

theorem splitOnChar_cons (sep : Char) {a : Str} (h : ∀ c ∈ a, c ≠ sep) (b : Str) :
    splitOnChar sep (a ++ sep :: b) = a :: splitOnChar sep b := by
  induction a with
  | nil => simp [splitOnChar]
  | cons c cs ih =>
    simp [splitOnChar, h c (by simp), ih fun x hx => h x (List.mem_cons_of_mem _ hx)]

theorem normpath_nameTok {c : Cfg} (h : GoodExt c.imageFormat) (n : ℕ) :
    normpath (nameTok c n) = nameTok c n := by
  have hns : ∀ x ∈ nameTok c n, x ≠ '/' := by
    intro x hx
    unfold nameTok at hx
    rcases List.mem_append.1 hx with hx | hx
    · have : ∀ y ∈ "images\\".toList, y ≠ '/' := by decide
      exact this x hx
    · exact (imageName_mem h n x hx).2.1
  have hcons : nameTok c n = 'i' :: 'm' :: ("ages\\".toList ++ imageName c n) := rfl
  have ne : nameTok c n ≠ [] := by rw [hcons]; simp
  have sw : startsWith (nameTok c n) ['/'] = false := by
    rw [hcons]; unfold startsWith; rw [List.isPrefixOf_cons_cons]; rfl
  unfold normpath
  rw [splitOnChar_none '/' hns]
  have nc : normComps false [] [nameTok c n] = [nameTok c n] := by
    rw [hcons]; simp [normComps]
  simp [ne, sw, nc, joinSlash]

theorem imagePath_nameTok {c : Cfg} (h : GoodExt c.imageFormat) (n : ℕ) (dir : Str) :
    imagePath dir (nameTok c n) = pathJoin dir ["images".toList, imageName c n] := by
  unfold imagePath
  rw [normpath_nameTok h]
  congr 1
  rw [show nameTok c n = "images".toList ++ '\\' :: imageName c n from rfl,
    splitOnChar_cons '\\' (by decide),
    splitOnChar_none '\\' fun x hx => (imageName_mem h n x hx).2.2]

theorem dirname_join {d b : Str} (hd : d = [] ∨ endsWithChar d '/' = false) (hb : ∀ c ∈ b, c ≠ '/') :
    dirname (join1 d b) = d := by
  have hsw : startsWith b ['/'] = false := by
    cases b with
    | nil => rfl
    | cons c cs =>
      have := hb c (by simp)
      simp only [startsWith, List.isPrefixOf_cons_cons, Bool.and_eq_false_iff, beq_eq_false_iff_ne]
      exact .inl fun e => this e.symm
  have dw : ∀ t : Str, (b.reverse ++ t).dropWhile (· != '/') = t.dropWhile (· != '/') := by
    intro t
    rw [List.dropWhile_append_of_pos]
    intro x hx
    simpa using hb x (by simpa using hx)
  unfold join1
  rw [if_neg (by simp [hsw])]
  rcases eq_or_ne d [] with rfl | hne
  · have := dw []
    rw [List.append_nil] at this
    rw [if_pos (.inl rfl), List.nil_append]
    unfold dirname
    rw [this]
    rfl
  · have hl : endsWithChar d '/' = false := by
      rcases hd with rfl | h
      · exact absurd rfl hne
      · exact h
    rw [if_neg (by simp [hne, hl])]
    obtain ⟨u, x, rfl⟩ := List.eq_nil_or_concat' d |>.resolve_left hne
    have hx : x ≠ '/' := by simpa [endsWithChar] using hl
    have := dw ('/' :: (u ++ [x]).reverse)
    unfold dirname
    simp only [List.reverse_append, List.reverse_cons, List.append_assoc] at this ⊢
    simp at this ⊢
    rw [this]
    simp [hx]

end Gen
end Emva
