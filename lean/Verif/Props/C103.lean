import Verif.Model.TemplateFiles
import Verif.Model.ReportTex
import Verif.Lemmas.JinjaParser
import Verif.Lemmas.JinjaSource

/-!
C103: the templates of the report say what is written in them.
-/
set_option autoImplicit false
namespace Emva
open Spec Jinja Py

/-- the text of a file: with the line ends of unix, without the last one -/
def Spec.FileText (s t : Str) : Prop :=
  universalNewlines s = t ++ ['\n'] ∨ (universalNewlines s = t ∧ t.getLast? ≠ some '\n')

theorem chop_text {s t : Str} (h : FileText s t) : chop (universalNewlines s) = t := by
  rcases h with h | ⟨h, hl⟩
  · rw [h, chop, if_pos (by simp)]; simp
  · rw [h, chop, if_neg hl]

/-- The statements of a template are those that its texts, tags and comments stand for, however they are spaced. -/
theorem C103_read (inc : Str → Option (List Node)) (s t : Str) (l : List (Tag × Str)) (N : List Node)
    (hs : FileText s (source t l)) (ok : LayoutOK t l) (h : Reads inc N (contents false t l)) :
    template inc s = some N := by
  unfold template
  rw [chop_text hs]
  simp only
  rw [lex_source l t ok _ (by simp)]
  simp only
  have := parse_read h (() :: (contents false t l).flatMap fun _ => [(), ()]) [] trivial
    (by simp [List.length_flatMap, Nat.mul_comm])
  rw [List.append_nil] at this
  rw [this]

/-- A text without delimiters is written to the report as it is. -/
theorem C103_verbatim (inc : Str → Option (List Node)) (s t : Str) (hs : FileText s t) (ht : ¬ "%{".toList <:+: t) :
    ∃ N, template inc s = some N ∧ ∀ (x : Texts) (env : Env), render x env N = .ok t := by
  have src : source t [] = t := by simp [source]
  have ok : LayoutOK t [] := ⟨ht, by simp⟩
  have hc : contents false t [] = textPiece t := rfl
  by_cases h0 : t = []
  · refine ⟨[], C103_read inc s t [] [] (by rwa [src]) ok (by rw [hc, textPiece, if_pos h0]; exact .nil), fun x env => ?_⟩
    rw [h0]; rfl
  · refine ⟨[.text (String.ofList t)], C103_read inc s t [] _ (by rwa [src]) ok ?_, fun x env => ?_⟩
    · rw [hc, textPiece, if_neg h0]
      have := Reads.text (inc := inc) (String.ofList t) [] [] .nil
      rwa [String.toList_ofList] at this
    · have e1 : render x env [Node.text (String.ofList t)] = (do
          let a ← renderNode x env (.text (String.ofList t))
          let b ← render x env []
          .ok (a ++ b)) := by rw [render.eq_def]
      have e2 : renderNode x env (.text (String.ofList t)) = .ok t := by rw [renderNode, String.toList_ofList]
      have e3 : render x env [] = .ok [] := by rw [render]
      rw [e1, e2, e3]
      show Except.ok (t ++ []) = _
      rw [List.append_nil]

theorem lexTok_suffix {c : Char} {r : Str} {t : Token} {r' : Str} (h : lexTok c r = some (t, r')) : r' <:+ r := by
  unfold lexTok at h
  split at h
  · simp only [Option.some.injEq, Prod.mk.injEq] at h
    rw [← h.2]; exact List.dropWhile_suffix _
  split at h
  · simp only at h
    split at h
    · cases h
    split at h
    · cases h
    simp only [Option.some.injEq, Prod.mk.injEq] at h
    rw [← h.2]; exact List.dropWhile_suffix _
  split at h
  · simp only at h
    split at h
    · cases h
    · rename_i rest e
      split at h
      · cases h
      simp only [Option.some.injEq, Prod.mk.injEq] at h
      rw [← h.2]
      have := List.dropWhile_suffix (fun x => decide (x ≠ c)) (l := r)
      rw [e] at this
      exact (List.suffix_cons _ _).trans this
  split at h
  · split at h
    · simp only [Option.some.injEq, Prod.mk.injEq] at h
      rw [← h.2]; exact List.suffix_cons _ _
    · cases h
  split at h
  · simp only [Option.some.injEq, Prod.mk.injEq] at h
    rw [← h.2]
  · cases h

theorem afterPrefix_some : ∀ {p s r : Str}, afterPrefix p s = some r → s = p ++ r
  | [], s, r, h => by simpa [afterPrefix] using h
  | _ :: _, [], r, h => by simp [afterPrefix] at h
  | a :: p, c :: s, r, h => by
    by_cases e : a = c
    · rw [afterPrefix, if_pos e] at h
      rw [afterPrefix_some h, e]; rfl
    · rw [afterPrefix, if_neg e] at h; cases h

theorem lexTag_infix {close : Str} : ∀ {n s : Str} {x : List Token × Bool × Str}, lexTag close n s = some x → close <:+: s
  | [], _, _, h => by simp [lexTag] at h
  | _ :: n, s, x, h => by
    rw [lexTag.eq_def] at h
    simp only at h
    split at h
    · rename_i r e
      have := afterPrefix_some e
      exact ⟨['-'], r, by rw [this]; simp⟩
    split at h
    · rename_i r e
      have := afterPrefix_some e
      exact ⟨[], r, by rw [this]; simp⟩
    split at h
    · cases h
    · rename_i c r _ _
      split at h
      · exact (lexTag_infix h).trans (List.suffix_cons _ _).isInfix
      split at h
      · cases h
      · rename_i t r' e
        split at h
        · cases h
        · rename_i ts y e2
          exact (lexTag_infix e2).trans ((lexTok_suffix e).isInfix.trans (List.suffix_cons _ _).isInfix)

theorem afterComment_infix : ∀ {s : Str} {x : Bool × Str}, afterComment s = some x → commentEnd <:+: s
  | [], _, h => by simp [afterComment] at h
  | c :: s, x, h => by
    rw [afterComment] at h
    split at h
    · rename_i r e
      have := afterPrefix_some e
      exact ⟨['-'], r, by rw [this]; simp⟩
    split at h
    · rename_i r e
      have := afterPrefix_some e
      exact ⟨[], r, by rw [this]; simp⟩
    · exact (afterComment_infix h).trans (List.suffix_cons _ _).isInfix

theorem minus_suffix (r : Str) : (minus r).2 <:+ r := by
  unfold minus
  split
  · exact List.suffix_cons _ _
  · exact List.suffix_rfl

/-- A tag without an end is an error: there is no report. -/
theorem C103_unclosed (inc : Str → Option (List Node)) (s a b : Str) (hs : FileText s (a ++ "%{".toList ++ b))
    (ha : ¬ "%{".toList <:+: a) (h1 : ¬ "%}".toList <:+: b) (h2 : ¬ "%#}".toList <:+: b) : template inc s = none := by
  have key : ∀ n, lex n (a ++ "%{".toList ++ b) = none := by
    intro n
    cases n with
    | nil => rfl
    | cons c n =>
      have ho : ∃ o r, opening ("%{".toList ++ b) = some (o, r) ∧ r <:+ b := by
        unfold opening
        split
        · rename_i r e
          have e1 := afterPrefix_some e
          have e2 : b = '#' :: r := by simpa [commentStart] using e1
          exact ⟨_, _, rfl, by rw [e2]; exact List.suffix_cons _ _⟩
        split
        · rename_i r e
          have e1 := afterPrefix_some e
          have e2 : b = '{' :: r := by simpa [variableStart] using e1
          exact ⟨_, _, rfl, by rw [e2]; exact List.suffix_cons _ _⟩
        split
        · rename_i r e
          have e1 := afterPrefix_some e
          have e2 : b = r := by simpa [blockStart] using e1
          exact ⟨_, _, rfl, by rw [e2]⟩
        · rename_i e
          simp [afterPrefix, blockStart] at e
      obtain ⟨o, r, ho, hr⟩ := ho
      rw [List.append_assoc, lex, splitTag_tag a _ ha (o, r) (by simp) ho]
      have hm : (minus r).2 <:+: b := ((minus_suffix r).trans hr).isInfix
      cases o with
      | comment =>
        simp only
        split
        · rfl
        · rename_i e; exact absurd ((afterComment_infix e).trans hm) h2
      | var =>
        simp only
        split
        · rfl
        · rename_i e
          have : "%}".toList <:+: variableEnd := ⟨[], ['}'], by simp [variableEnd]⟩
          exact absurd (this.trans ((lexTag_infix e).trans hm)) h1
      | block =>
        simp only
        split
        · rfl
        · rename_i e; exact absurd ((lexTag_infix e).trans hm) h1
  unfold template
  rw [chop_text hs]
  simp only [key]

/-- The templates of the package are read as the statements that C92 and C93 are about. -/
theorem C103_templates (n : List Unit) :
    getTemplate templateFiles (() :: () :: () :: n) "report.tex".toList = some reportTex ∧
    getTemplate templateFiles (() :: () :: () :: n) "emvadatasheet.sty".toList = some emvadatasheetSty :=
  ⟨by kernel_rfl, by kernel_rfl⟩

/-- a template with a comment, minus signs, an `elif` and a format: a comment and a text, -/
def noteTag : Tag := .comment false " note ".toList false
/-- `%{- if not x.y-%}`, -/
def ifTag : Tag := .tag false true [⟨[' '], ' ', .name ['i', 'f']⟩, ⟨[' '], ' ', .name ['n', 'o', 't']⟩, ⟨[' '], ' ', .name ['x']⟩,
  ⟨[], ' ', .op ['.']⟩, ⟨[], ' ', .name ['y']⟩] [] true
/-- `%{ elif x.z == "u" %}`, -/
def elifTag : Tag := .tag false false [⟨[' '], ' ', .name ['e', 'l', 'i', 'f']⟩, ⟨[' '], ' ', .name ['x']⟩, ⟨[], ' ', .op ['.']⟩,
  ⟨[], ' ', .name ['z']⟩, ⟨[' '], ' ', .op ['=', '=']⟩, ⟨[' '], '"', .str ['u']⟩] [' '] false
/-- `%{{'%.2f'%x.z%}}` -/
def outTag : Tag := .tag true false [⟨[], '\'', .str ['%', '.', '2', 'f']⟩, ⟨[], ' ', .op ['%']⟩, ⟨[], ' ', .name ['x']⟩,
  ⟨[], ' ', .op ['.']⟩, ⟨[], ' ', .name ['z']⟩] [] false
/-- and `%{endif%}` -/
def endTag : Tag := .tag false false [⟨[], ' ', .name ['e', 'n', 'd', 'i', 'f']⟩] [] false

example (inc : Str → Option (List Node)) :
    template inc "A\r\n%{# note %#} B %{- if not x.y-%}\n  C\n%{ elif x.z == \"u\" %}%{{'%.2f'%x.z%}}%{endif%}D\n".toList =
    some [.text "A\n", .text " B", .ite (.isFalse (.attr (.var "x") "y")) [.text "C\n"]
      [.ite (.eqStr (.attr (.var "x") "z") "u") [.out (.percent 2 (.attr (.var "x") "z"))] []], .text "D"] := by
  have dig : fmtNat 2 = ['2'] := by norm_num [fmtNat, digitChar]; decide
  have px : ∀ n : String, Path (.attr (.var "x") n) [.name ['x'], .op ['.'], .name n.toList] := fun n =>
    .attr (.var "x") [.name ['x']] n (by have := Path.var "x" (by simp [reserved]); simpa using this)
  refine C103_read inc _ ['A', '\n'] [(noteTag, [' ', 'B', ' ']), (ifTag, "\n  C\n".toList), (elifTag, []), (outTag, []), (endTag, ['D'])] _
    (.inl ?_) ⟨by decide, ?_⟩ ?_
  · simp [source, Tag.write, noteTag, ifTag, elifTag, outTag, endTag, writeItems, writeTok, sign, universalNewlines]
  · simp only [List.mem_cons, List.not_mem_nil, or_false, forall_eq_or_imp, forall_eq]
    have blank : Blanks [] := by simp [Blanks]
    have space : Blanks [' '] := by simp [Blanks]; decide
    have nm : ∀ (c : Char) (r : Str), isNameStart c = true → r.all isNameChar = true → TokOK ' ' (.name (c :: r)) := fun c r h1 h2 =>
      ⟨c, r, rfl, h1, List.all_eq_true.1 h2⟩
    have opk : ∀ c ∈ opChars, TokOK ' ' (.op [c]) := fun c h => .inr ⟨c, h, rfl⟩
    refine ⟨⟨?_, by decide⟩, ⟨⟨by simp, ?_, blank⟩, by decide⟩, ⟨⟨by simp, ?_, space⟩, by decide⟩, ⟨⟨by simp, ?_, blank⟩, by decide⟩,
      ⟨⟨by simp, ?_, blank⟩, by decide⟩⟩
    · exact ⟨by decide, fun _ => by decide, fun _ => by decide, by simp⟩
    · exact ⟨space, nm _ _ (by decide) (by decide), .inl (by simp), space, nm _ _ (by decide) (by decide), .inl (by simp),
        space, nm _ _ (by decide) (by decide), .inr trivial, blank, opk _ (by decide), .inr trivial, blank,
        nm _ _ (by decide) (by decide)⟩
    · exact ⟨space, nm _ _ (by decide) (by decide), .inl (by simp), space, nm _ _ (by decide) (by decide), .inr trivial,
        blank, opk _ (by decide), .inr trivial, blank, nm _ _ (by decide) (by decide), .inl (by simp), space, .inl rfl,
        .inl (by simp), space, .inr rfl, by decide, by decide⟩
    · exact ⟨blank, ⟨.inl rfl, by decide, by decide⟩, .inr trivial, blank, opk _ (by decide), .inr trivial, blank,
        nm _ _ (by decide) (by decide), .inr trivial, blank, opk _ (by decide), .inr trivial, blank,
        nm _ _ (by decide) (by decide)⟩
    · exact ⟨blank, nm _ _ (by decide) (by decide)⟩
  · have hc : contents false ['A', '\n'] [(noteTag, [' ', 'B', ' ']), (ifTag, "\n  C\n".toList), (elifTag, []), (outTag, []), (endTag, ['D'])]
        = .text "A\n".toList :: .text " B".toList :: .stmt (.name "if".toList :: .name "not".toList :: [.name ['x'], .op ['.'], .name "y".toList]) ::
          (([.text "C\n".toList] ++ .stmt (.name "elif".toList :: ([.name ['x'], .op ['.'], .name "z".toList] ++ [.op ['=', '='], .str "u".toList])) ::
            ([.out (.str ("%.".toList ++ fmtNat 2 ++ "f".toList) :: .op ['%'] :: [.name ['x'], .op ['.'], .name "z".toList])]
              ++ [.stmt [.name "endif".toList]])) ++ [.text "D".toList]) := by
      rw [dig]
      decide
    rw [hc]
    exact .text _ _ _ (.text _ _ _ (.cond _ _ _ _ _ (.elif _ _ _ _ _ _ _ (.isFalse _ _ (px "y")) (.text _ _ _ .nil)
      (.plain _ _ _ _ (.eqStr _ _ _ (px "z")) (.out _ _ _ _ (.percent 2 _ _ (px "z")) .nil))) (.text _ _ _ .nil)))

/-- the same by computation -/
example : template (fun _ => none) (chars! "A\r\n%{# note %#} B %{- if not x.y-%}\n  C\n%{ elif x.z == \"u\" %}%{{'%.2f'%x.z%}}%{endif%}D\n") =
    some [.text "A\n", .text " B", .ite (.isFalse (.attr (.var "x") "y")) [.text "C\n"]
      [.ite (.eqStr (.attr (.var "x") "z") "u") [.out (.percent 2 (.attr (.var "x") "z"))] []], .text "D"] := by kernel_rfl

/-- a text with percent signs and braces, but no delimiter -/
example (inc : Str → Option (List Node)) : ∃ N, template inc "\\SI{50}{\\%} {%\r\n}\n".toList = some N ∧
    ∀ (x : Texts) (env : Env), render x env N = .ok "\\SI{50}{\\%} {%\n}".toList :=
  C103_verbatim inc _ _ (.inl (by simp [universalNewlines])) (by decide)

/-- a value closed as usual with jinja2, without the percent sign, is not closed -/
example (inc : Str → Option (List Node)) : template inc "A %{{ x.y }} B\n".toList = none :=
  C103_unclosed inc _ "A ".toList "{ x.y }} B".toList (.inl (by simp [universalNewlines])) (by decide) (by decide) (by decide)

end Emva
