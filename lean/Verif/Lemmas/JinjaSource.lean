import Verif.Lemmas.JinjaLexer

/-!
The pieces of a template are those that were written: texts, tags and comments in turn.
-/
set_option autoImplicit false
namespace Emva
namespace Jinja
open Py Spec

theorem minus_sign (l : Bool) (x : Str) (h : x.head? ≠ some '-') : minus (sign l ++ x) = (l, x) := by
  cases l with
  | true => rfl
  | false =>
    show minus x = _
    unfold minus
    split
    · simp at h
    · rfl

theorem opening_var (x : Str) : opening ("%{{".toList ++ x) = some (.var, x) := by
  simp [opening, afterPrefix, commentStart, variableStart]

theorem opening_comment (x : Str) : opening ("%{#".toList ++ x) = some (.comment, x) := by
  simp [opening, afterPrefix, commentStart]

theorem opening_block (c : Char) (x : Str) (h1 : '{' ≠ c) (h2 : '#' ≠ c) : opening ("%{".toList ++ c :: x) = some (.block, c :: x) := by
  simp [opening, afterPrefix, commentStart, variableStart, blockStart, h1, h2]

theorem no_end (b x : Str) (hb : b ≠ []) (h : ¬ "%#}".toList <:+: b) (hx : x.head? = some '-' ∨ x.head? = some '%') :
    afterPrefix commentEnd (b ++ x) = none := by
  match x, hx with
  | d :: x, hx =>
  have hd : '#' ≠ d ∧ '}' ≠ d := by
    rcases hx with hx | hx <;> obtain rfl : d = _ := by simpa using hx
    all_goals decide
  match b, hb with
  | [a], _ =>
    by_cases e1 : '%' = a
    · simp [afterPrefix, commentEnd, hd.1]
    · simp [afterPrefix, commentEnd, e1]
  | [a, b], _ =>
    by_cases e1 : '%' = a
    · by_cases e2 : '#' = b
      · simp [afterPrefix, commentEnd, hd.2]
      · simp [afterPrefix, commentEnd, e2]
    · simp [afterPrefix, commentEnd, e1]
  | a :: b :: c :: r, _ =>
    by_cases e1 : '%' = a
    · by_cases e2 : '#' = b
      · by_cases e3 : '}' = c
        · subst e1 e2 e3
          exact absurd ⟨[], r, by simp⟩ h
        · simp [afterPrefix, commentEnd, e3]
      · simp [afterPrefix, commentEnd, e2]
    · simp [afterPrefix, commentEnd, e1]

theorem afterComment_read (m : Bool) (r : Str) : ∀ body : Str, ¬ "%#}".toList <:+: body → (m = false → body.getLast? ≠ some '-') →
    afterComment (body ++ (sign m ++ ("%#}".toList ++ r))) = some (m, r)
  | [], _, _ => by
    cases m with
    | true => simp [sign, afterComment, afterPrefix, commentEnd]
    | false => simp [sign, afterComment, afterPrefix, commentEnd]
  | c :: body, h, hl => by
    have hx : (sign m ++ ("%#}".toList ++ r)).head? = some '-' ∨ (sign m ++ ("%#}".toList ++ r)).head? = some '%' := by
      cases m <;> simp [sign]
    have ih := afterComment_read m r body (infix_cons h) (fun hm => by
      have := hl hm
      match body with
      | [] => simp
      | d :: b => rwa [List.getLast?_cons_cons] at this)
    have h1 := no_end (c :: body) _ (by simp) h hx
    have h2 : afterPrefix ('-' :: commentEnd) (c :: (body ++ (sign m ++ ("%#}".toList ++ r)))) = none := by
      by_cases e : '-' = c
      · rw [afterPrefix, if_pos e]
        match body, h, hl with
        | [], _, hl =>
          cases m with
          | true => simp [sign, afterPrefix, commentEnd]
          | false => exact absurd (by rw [← e]; rfl) (hl rfl)
        | d :: b, h, _ => exact no_end (d :: b) _ (by simp) (infix_cons h) hx
      · exact afterPrefix_head _ _ e
    rw [List.cons_append] at h1 ⊢
    rw [afterComment, h2, h1]
    exact ih

theorem write_head (g : Tag) : ∃ x, g.write = '%' :: x := by
  match g with
  | .tag true l items sp r => exact ⟨_, by simp [Tag.write]; rfl⟩
  | .tag false l items sp r => exact ⟨_, by simp [Tag.write]; rfl⟩
  | .comment l body r => exact ⟨_, by simp [Tag.write]; rfl⟩

theorem source_cons (t : Str) (g : Tag) (s : Str) (l : List (Tag × Str)) : source t ((g, s) :: l) = t ++ (g.write ++ source s l) := by
  simp [source]

theorem dropSpace_source (t : Str) (l : List (Tag × Str)) : (source t l).dropWhile isSpace = source (t.dropWhile isSpace) l := by
  cases l with
  | nil => simp [source]
  | cons p l =>
    obtain ⟨g, s⟩ := p
    obtain ⟨x, hx⟩ := write_head g
    rw [source_cons, source_cons, hx]
    induction t with
    | nil => simp [List.dropWhile, show isSpace '%' = false by decide]
    | cons c t ih =>
      by_cases hc : isSpace c = true
      · simp only [List.cons_append, List.dropWhile_cons, hc, if_true]; simpa using ih
      · simp [List.dropWhile_cons, hc]

theorem content_strip (b : Bool) (t : Str) (l : List (Tag × Str)) :
    contents b t l = contents false (if b then t.dropWhile isSpace else t) l := by
  cases l <;> cases b <;> rfl

theorem noOpen_drop {t : Str} (h : ¬ "%{".toList <:+: t) : ¬ "%{".toList <:+: t.dropWhile isSpace :=
  fun x => h (x.trans (List.dropWhile_suffix _).isInfix)

theorem noOpen_if {t : Str} (b : Bool) (h : ¬ "%{".toList <:+: t) : ¬ "%{".toList <:+: (if b then t.dropWhile isSpace else t) := by
  cases b
  · exact h
  · exact noOpen_drop h

theorem items_head {items : List Item} (h : items ≠ []) (hs : Spaced items) (x : Str) :
    ∃ c k, writeItems items ++ x = c :: k ∧ '-' ≠ c ∧ '{' ≠ c ∧ '#' ≠ c := by
  match items, h with
  | a :: l, _ =>
  have hb : Blanks a.space ∧ TokOK a.quote a.tok := by
    match l, hs with
    | [], hs => exact hs
    | _ :: _, hs => exact ⟨hs.1, hs.2.1⟩
  have e1 : writeItems (a :: l) ++ x = a.space ++ (writeTok a.quote a.tok ++ (writeItems l ++ x)) := by simp [writeItems]
  rw [e1]
  match hsp : a.space with
  | c :: w =>
    have hc : isSpace c = true := hb.1 c (by rw [hsp]; simp)
    exact ⟨c, _, rfl, space_ne hc (by decide), space_ne hc (by decide), space_ne hc (by decide)⟩
  | [] =>
    obtain ⟨c, tl, e2, _, h2, _, h4, h5, _⟩ := tok_start hb.2
    rw [e2]
    exact ⟨c, _, rfl, h2, h4, h5⟩

theorem trim_false (r : Bool) (t : Str) : trim false r t = if r then rstrip t else t := by cases r <;> rfl

theorem data_eq (s : Str) : data s = textPiece s := by
  by_cases h : s = [] <;> simp [data, textPiece, h]

theorem lex_source : ∀ (l : List (Tag × Str)) (t : Str), LayoutOK t l → ∀ n : Str, (source t l).length < n.length →
    lex n (source t l) = some (contents false t l)
  | [], t, h, n, hn => by
    match n, hn with
    | _ :: n, _ =>
    have : source t [] = t := by simp [source]
    rw [this, lex, splitTag_text t h.1]
    rfl
  | (g, s) :: l, t, ⟨ht, hl⟩, n, hn => by
    obtain ⟨hg, hs⟩ := hl (g, s) (by simp)
    match n, hn with
    | _ :: n, hn =>
    have ih := fun b : Bool => lex_source l (if b then s.dropWhile isSpace else s) ⟨noOpen_if b hs, fun p hp => hl p (by simp [hp])⟩ n
    have hlen : ∀ b : Bool, (source (if b then s.dropWhile isSpace else s) l).length ≤ (source s l).length := by
      intro b
      cases b
      · exact le_rfl
      · simp only [if_true, source, List.length_append]
        have := (List.dropWhile_suffix isSpace (l := s)).length_le
        omega
    have hst : ∀ b : Bool, (if b = true then (source s l).dropWhile isSpace else source s l)
        = source (if b then s.dropWhile isSpace else s) l := by
      intro b
      cases b
      · rfl
      · exact dropSpace_source s l
    rw [source_cons] at hn ⊢
    obtain ⟨x, hx⟩ := write_head g
    have hhead : (g.write ++ source s l).head? = some '%' := by rw [hx]; rfl
    have hw : 0 < g.write.length := by rw [hx]; simp
    have ih' := fun b => ih b (by have := hlen b; simp only [List.length_append, List.length_cons] at hn; omega)
    match g, hg, hhead with
    | .comment lf body rt, ⟨h1, h2, h3, h4⟩, hhead =>
      have e1 : (Tag.comment lf body rt).write ++ source s l
          = "%{#".toList ++ (sign lf ++ (body ++ (sign rt ++ ("%#}".toList ++ source s l)))) := by simp [Tag.write]
      rw [lex, splitTag_tag t _ ht _ hhead (by rw [e1]; exact opening_comment _)]
      have hm : minus (sign lf ++ (body ++ (sign rt ++ ("%#}".toList ++ source s l))))
          = (lf, body ++ (sign rt ++ ("%#}".toList ++ source s l))) := by
        cases lf with
        | true => rfl
        | false =>
          apply minus_sign
          match body, h2 rfl, h4 with
          | c :: body, h2, _ => simpa using h2
      simp only [hm, afterComment_read rt _ body h1 h3, hst, ih' rt]
      rw [contents, trim_false]
      simp only [Tag.pieces, Tag.left, Tag.right, content_strip rt s l]
      cases lf <;> simp [data_eq]
    | .tag true lf items sp rt, ⟨h1, h2, h3⟩, hhead =>
      have e1 : (Tag.tag true lf items sp rt).write ++ source s l
          = "%{{".toList ++ (sign lf ++ (writeItems items ++ (sp ++ (sign rt ++ (variableEnd ++ source s l))))) := by
        simp [Tag.write, variableEnd]
      rw [lex, splitTag_tag t _ ht _ hhead (by rw [e1]; exact opening_var _)]
      obtain ⟨c, k, e2, c1, _, _⟩ := items_head h1 h2 (sp ++ (sign rt ++ (variableEnd ++ source s l)))
      have hm : minus (sign lf ++ (writeItems items ++ (sp ++ (sign rt ++ (variableEnd ++ source s l)))))
          = (lf, writeItems items ++ (sp ++ (sign rt ++ (variableEnd ++ source s l)))) := by
        apply minus_sign
        rw [e2]
        simpa using fun e => c1 e.symm
      simp only [hm]
      rw [lexTag_read (.inl rfl) sp h3 rt (source s l) items h2 _ (by simp)]
      simp only [hst, ih' rt]
      rw [contents, trim_false]
      simp only [Tag.pieces, Tag.left, Tag.right, content_strip rt s l]
      cases lf <;> simp [data_eq]
    | .tag false lf items sp rt, ⟨h1, h2, h3⟩, hhead =>
      have e1 : (Tag.tag false lf items sp rt).write ++ source s l
          = "%{".toList ++ (sign lf ++ (writeItems items ++ (sp ++ (sign rt ++ (blockEnd ++ source s l))))) := by
        simp [Tag.write, blockEnd]
      obtain ⟨c, k, e2, c1, c2, c3⟩ := items_head h1 h2 (sp ++ (sign rt ++ (blockEnd ++ source s l)))
      have ho : opening ("%{".toList ++ (sign lf ++ (writeItems items ++ (sp ++ (sign rt ++ (blockEnd ++ source s l))))))
          = some (.block, sign lf ++ (writeItems items ++ (sp ++ (sign rt ++ (blockEnd ++ source s l))))) := by
        cases lf with
        | true => exact opening_block '-' _ (by decide) (by decide)
        | false =>
          show opening ("%{".toList ++ (writeItems items ++ _)) = some (_, writeItems items ++ _)
          rw [e2]
          exact opening_block c k c2 c3
      rw [lex, splitTag_tag t _ ht _ hhead (by rw [e1]; exact ho)]
      have hm : minus (sign lf ++ (writeItems items ++ (sp ++ (sign rt ++ (blockEnd ++ source s l)))))
          = (lf, writeItems items ++ (sp ++ (sign rt ++ (blockEnd ++ source s l)))) := by
        apply minus_sign
        rw [e2]
        simpa using fun e => c1 e.symm
      simp only [hm]
      rw [lexTag_read (.inr rfl) sp h3 rt (source s l) items h2 _ (by simp)]
      simp only [hst, ih' rt]
      rw [contents, trim_false]
      simp only [Tag.pieces, Tag.left, Tag.right, content_strip rt s l]
      cases lf <;> simp [data_eq]

end Jinja
end Emva
