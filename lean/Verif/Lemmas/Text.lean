import Verif.Py.Str
import Verif.Model.Parser
import Verif.Spec.Descriptor
import Mathlib.Data.List.DropRight

set_option autoImplicit false
namespace Emva
namespace Py
open Spec

@[simp] theorem isSpace_lf : isSpace '\n' = true := by decide
@[simp] theorem isSpace_cr : isSpace '\r' = true := by decide
@[simp] theorem isSpace_sp : isSpace ' ' = true := by decide

theorem splitAux_eq (cur s : Str) :
    splitAux cur s = ((s.splitOnP isSpace).modifyHead (cur ++ ·)).filter (· ≠ []) := by
  induction s generalizing cur with
  | nil => by_cases h : cur = [] <;> simp [splitAux, h]
  | cons c cs ih =>
    simp only [splitAux, List.splitOnP_cons_eq_if_modifyHead]
    by_cases hc : isSpace c = true
    · rw [if_pos hc, if_pos hc]
      have e : (cs.splitOnP isSpace).modifyHead ([] ++ ·) = cs.splitOnP isSpace := by
        cases cs.splitOnP isSpace <;> simp
      have := ih []
      rw [e] at this
      rw [this]
      by_cases h : cur = [] <;> simp [h]
    · rw [if_neg hc, if_neg hc, ih]
      congr 1
      cases cs.splitOnP isSpace <;> simp

theorem split_eq_words (s : Str) : split s = words s := by
  unfold split words
  rw [splitAux_eq]
  congr 1
  cases s.splitOnP isSpace <;> simp

@[simp] theorem words_nil : words [] = [] := by simp [words]

theorem words_append_space (a b : Str) {c : Char} (h : isSpace c = true) :
    words (a ++ c :: b) = words a ++ words b := by
  simp [words, List.splitOnP_append_cons _ _ h]

theorem words_cons_space (b : Str) {c : Char} (h : isSpace c = true) :
    words (c :: b) = words b := by
  simpa using words_append_space [] b h

theorem words_snoc_space (a : Str) {c : Char} (h : isSpace c = true) :
    words (a ++ [c]) = words a := by
  simpa using words_append_space a [] h

theorem words_dropWhile (s : Str) : words (s.dropWhile isSpace) = words s := by
  induction s with
  | nil => rfl
  | cons c cs ih =>
    rw [List.dropWhile_cons]
    split
    · rename_i h; rw [ih, words_cons_space _ h]
    · rfl

theorem words_rdropWhile (s : Str) : words (s.rdropWhile isSpace) = words s := by
  induction s using List.reverseRecOn with
  | nil => rfl
  | append_singleton t c ih =>
    rw [List.rdropWhile_concat]
    split
    · rename_i h; rw [ih, words_snoc_space _ h]
    · rfl

theorem strip_eq (s : Str) : strip s = (s.dropWhile isSpace).rdropWhile isSpace := rfl

@[simp] theorem words_strip (s : Str) : words (strip s) = words s := by
  rw [strip_eq, words_rdropWhile, words_dropWhile]

/-- a string without white space is one word -/
theorem words_of_no_space {s : Str} (hs : s ≠ []) (h : ∀ c ∈ s, isSpace c = false) :
    words s = [s] := by
  have : s.splitOnP isSpace = [s] := by
    clear hs
    induction s with
    | nil => simp
    | cons c cs ih =>
      rw [List.splitOnP_cons_eq_if_modifyHead, if_neg (by simp [h c (by simp)]),
        ih fun x hx => h x (List.mem_cons_of_mem _ hx)]
      simp
  simp [words, this, hs]

theorem words_cons_nonspace {c : Char} (s : Str) (h : isSpace c = false) :
    ∃ w ws, words (c :: s) = (c :: w) :: ws := by
  unfold words
  rw [List.splitOnP_cons_eq_if_modifyHead, if_neg (by simp [h])]
  cases hs : s.splitOnP isSpace with
  | nil => exact absurd hs (List.splitOnP_ne_nil _ _)
  | cons w ws => exact ⟨w, ws.filter (· ≠ []), by simp⟩

/-- words contain no white space and are not empty -/
theorem mem_words {s w : Str} (h : w ∈ words s) : w ≠ [] ∧ ∀ c ∈ w, isSpace c = false := by
  have key : ∀ s : Str, ∀ w ∈ s.splitOnP isSpace, ∀ c ∈ w, isSpace c = false := by
    intro s
    induction s with
    | nil => simp
    | cons c cs ih =>
      intro w hw
      rw [List.splitOnP_cons_eq_if_modifyHead] at hw
      split at hw
      · rcases List.mem_cons.1 hw with rfl | hw
        · simp
        · exact ih w hw
      · rename_i hc
        cases hs : cs.splitOnP isSpace with
        | nil => exact absurd hs (List.splitOnP_ne_nil _ _)
        | cons v vs =>
          rw [hs] at hw ih
          simp only [List.modifyHead_cons, List.mem_cons] at hw
          rcases hw with rfl | hw
          · intro d hd
            rcases List.mem_cons.1 hd with rfl | hd
            · simpa using hc
            · exact ih v (by simp) d hd
          · exact ih w (by simp [hw])
  unfold words at h
  rw [List.mem_filter] at h
  exact ⟨by simpa using h.2, key s w h.1⟩

theorem strip_word {s : Str} (h : ∀ c ∈ s, isSpace c = false) : strip s = s := by
  rw [strip_eq]
  have h1 : s.dropWhile isSpace = s := by
    cases s with
    | nil => rfl
    | cons c cs => rw [List.dropWhile_cons, if_neg (by simp [h c (by simp)])]
  rw [h1]
  rcases List.eq_nil_or_concat' s with rfl | ⟨t, c, rfl⟩
  · rfl
  · rw [List.rdropWhile_concat, if_neg]
    simp [h c (by simp)]

theorem strip_head (s : Str) : strip s = [] ∨ ∃ c t, strip s = c :: t ∧ isSpace c = false := by
  rw [strip_eq]
  cases hd : s.dropWhile isSpace with
  | nil => left; simp
  | cons c t =>
    have hc : isSpace c = false := by
      have := List.head?_dropWhile_not isSpace s
      rw [hd] at this
      simpa using this
    cases hr : (c :: t).rdropWhile isSpace with
    | nil => left; rfl
    | cons a b =>
      right
      have hp := List.rdropWhile_prefix isSpace (c :: t)
      rw [hr] at hp
      have : a = c := by
        obtain ⟨u, hu⟩ := hp
        simp at hu
        exact hu.1
      exact ⟨a, b, rfl, this ▸ hc⟩

/-- the line filter of `_load_file` in terms of words -/
def keepWords : List Str → Bool
  | [] => false
  | w :: _ => w.head? ≠ some '#'

theorem keep_iff (x : Str) :
    (decide (strip x ≠ [] ∧ ¬ startsWith (strip x) ['#'] = true)) = keepWords (words x) := by
  rw [← words_strip x]
  rcases strip_head x with h | ⟨c, t, h, hc⟩
  · simp [h, keepWords]
  · rw [h]
    obtain ⟨w, ws, e⟩ := words_cons_nonspace t hc
    rw [e]
    by_cases hh : c = '#'
    · simp [keepWords, startsWith, hh]
    · simp [keepWords, startsWith, hh, List.isPrefixOf, Ne.symm hh]

/-- line separators of the specification -/
def isNl (c : Char) : Bool := decide (c = '\n' ∨ c = '\r')

theorem readlinesAux_words (s cur : Str) :
    ((readlinesAux cur (universalNewlines s)).map words).filter (· ≠ [])
      = (((s.splitOnP isNl).modifyHead (cur ++ ·)).map words).filter (· ≠ []) := by
  induction s using universalNewlines.induct generalizing cur with
  | case1 => by_cases h : cur = [] <;> simp [universalNewlines, readlinesAux, h]
  | case2 cs ih =>
    have e : (cs.splitOnP isNl).modifyHead (([] : Str) ++ ·) = cs.splitOnP isNl := by
      cases cs.splitOnP isNl <;> simp
    have := ih []
    rw [e] at this
    have h1 : isNl '\r' = true := by decide
    have h2 : isNl '\n' = true := by decide
    simp only [universalNewlines, readlinesAux, if_true, List.map_cons,
      words_snoc_space cur isSpace_lf, List.splitOnP_cons_eq_if_modifyHead, h1, h2]
    simp only [List.modifyHead_cons, List.append_nil, List.map_cons, words_nil]
    rw [List.filter_cons, List.filter_cons, this]
    simp
  | case3 c cs hne ih =>
    have e : (cs.splitOnP isNl).modifyHead (([] : Str) ++ ·) = cs.splitOnP isNl := by
      cases cs.splitOnP isNl <;> simp
    have hu : universalNewlines (c :: cs) = (if c = '\r' then '\n' else c) :: universalNewlines cs := by
      unfold universalNewlines
      split
      · rename_i h; simp at h
      · rename_i ds h
        simp only [List.cons.injEq] at h
        exact absurd h.2 (hne ds h.1)
      · rename_i h1 h
        simp only [List.cons.injEq] at h
        obtain ⟨rfl, rfl⟩ := h
        conv_lhs => rw [universalNewlines.eq_def]
    rw [hu]
    by_cases hn : isNl c = true
    · have hc : (if c = '\r' then '\n' else c) = '\n' := by
        simp only [isNl, decide_eq_true_eq] at hn
        rcases hn with rfl | rfl <;> simp
      have := ih []
      rw [e] at this
      rw [hc]
      simp only [readlinesAux, if_true, List.map_cons, words_snoc_space cur isSpace_lf,
        List.splitOnP_cons_eq_if_modifyHead, hn]
      rw [List.filter_cons, this]
      simp [List.filter_cons]
    · have hc : ¬ c = '\r' ∧ ¬ c = '\n' := by
        simp only [isNl, decide_eq_true_eq, not_or] at hn
        exact ⟨hn.2, hn.1⟩
      rw [if_neg hc.1]
      simp only [readlinesAux, if_neg hc.2, List.splitOnP_cons_eq_if_modifyHead, if_neg hn]
      rw [ih]
      congr 2
      cases cs.splitOnP isNl <;> simp

end Py

namespace Parser
open Py Spec

theorem content_eq (text : Str) :
    content text = ((text.splitOnP isNl).map words).filter keepWords := by
  unfold content
  have : (fun c : Char => decide (c = '\n' ∨ c = '\r')) = isNl := rfl
  rw [this]
  congr 1

theorem content_append_nl (a b : Str) {c : Char} (hc : isNl c = true) :
    content (a ++ c :: b) = content a ++ content b := by
  rw [content_eq, content_eq, content_eq, List.splitOnP_append_cons _ _ hc]
  simp

theorem content_line {l : Str} (h : ∀ c ∈ l, isNl c = false) :
    content l = [words l].filter keepWords := by
  have : l.splitOnP isNl = [l] := by
    induction l with
    | nil => simp
    | cons c cs ih =>
      rw [List.splitOnP_cons_eq_if_modifyHead, if_neg (by simp [h c (by simp)]),
        ih fun x hx => h x (List.mem_cons_of_mem _ hx)]
      simp
  rw [content_eq, this]
  simp


theorem filter_keep (ls : List (List Str)) :
    ls.filter keepWords = (ls.filter (· ≠ [])).filter keepWords := by
  rw [List.filter_filter]
  congr 1
  funext l
  cases l <;> simp [keepWords]

/-- The parser works on exactly the specified content lines. -/
theorem loadLines_words (text : Str) : (loadLines text).map words = content text := by
  rw [content_eq, filter_keep]
  have := readlinesAux_words text []
  have e : (text.splitOnP isNl).modifyHead (([] : Str) ++ ·) = text.splitOnP isNl := by
    cases text.splitOnP isNl <;> simp
  rw [e] at this
  rw [← this, ← filter_keep]
  unfold loadLines readlines
  rw [List.map_map]
  have hw : (words ∘ strip) = words := by funext x; simp
  rw [hw, List.filter_map]
  congr 1
  apply List.filter_congr
  intro x _
  exact keep_iff x

theorem splitLine_eq (line : Str) :
    splitLine line = if (words line).length < 2 then .error .syntaxError else .ok (words line) := by
  unfold splitLine
  have : (split line).map strip = words line := by
    rw [split_eq_words]
    conv_rhs => rw [← List.map_id (words line)]
    apply List.map_congr_left
    intro w hw
    exact strip_word (mem_words hw).2
  simp only [this]
  by_cases h : (words line).length < 2
  · simp [h]
  · have : words line ≠ [] := by rintro e; simp [e] at h
    simp [h, this]

end Parser
end Emva
