import Verif.Spec.Templates
import Verif.Lemmas.Num

/-!
The lexer of the templates finds the pieces that were written.
-/
set_option autoImplicit false
namespace Emva
namespace Jinja
open Py Spec

theorem afterPrefix_append (p s : Str) : afterPrefix p (p ++ s) = some s := by
  induction p with
  | nil => rfl
  | cons c p ih => simp [afterPrefix, ih]

theorem afterPrefix_head {p c : Char} (ps s : Str) (h : p ≠ c) : afterPrefix (p :: ps) (c :: s) = none := by
  simp [afterPrefix, h]

/-- no delimiter: the letters `%{` do not come first -/
theorem opening_none {s : Str} (h : afterPrefix blockStart s = none) : opening s = none := by
  unfold opening
  have h1 : afterPrefix commentStart s = none := by
    match s with
    | [] => rfl
    | [c] => simp [afterPrefix, commentStart]
    | c :: d :: s =>
      by_cases e1 : '%' = c
      · by_cases e2 : '{' = d
        · subst e1 e2; simp [afterPrefix, blockStart] at h
        · simp [afterPrefix, commentStart, e2]
      · simp [afterPrefix, commentStart, e1]
  have h2 : afterPrefix variableStart s = none := by
    match s with
    | [] => rfl
    | [c] => simp [afterPrefix, variableStart]
    | c :: d :: s =>
      by_cases e1 : '%' = c
      · by_cases e2 : '{' = d
        · subst e1 e2; simp [afterPrefix, blockStart] at h
        · simp [afterPrefix, variableStart, e2]
      · simp [afterPrefix, variableStart, e1]
  rw [h1, h2, h]

theorem infix_cons {p : Str} {c : Char} {s : Str} (h : ¬ p <:+: c :: s) : ¬ p <:+: s := fun x => h (x.trans (List.infix_cons (List.infix_rfl)))

theorem open_none {c : Char} {s r : Str} (h : ¬ "%{".toList <:+: c :: s) (hr : r.head? ≠ some '{') :
    afterPrefix blockStart (c :: (s ++ r)) = none := by
  by_cases e1 : '%' = c
  · subst e1
    match s with
    | [] =>
      match r with
      | [] => simp [afterPrefix, blockStart]
      | d :: r =>
        have : '{' ≠ d := fun e => hr (by rw [← e]; rfl)
        simp [afterPrefix, blockStart, this]
    | d :: s =>
      by_cases e2 : '{' = d
      · subst e2
        exact absurd ⟨[], s, by simp⟩ h
      · simp [afterPrefix, blockStart, e2]
  · simp [afterPrefix, blockStart, e1]

theorem splitTag_text (t : Str) (h : ¬ "%{".toList <:+: t) : splitTag t = (t, none) := by
  induction t with
  | nil => rfl
  | cons c t ih =>
    have := open_none (r := []) h (by simp)
    rw [List.append_nil] at this
    rw [splitTag, opening_none this, ih (infix_cons h)]

theorem splitTag_tag (t s : Str) (h : ¬ "%{".toList <:+: t) (o : Opening × Str) (hs : s.head? = some '%') (ho : opening s = some o) :
    splitTag (t ++ s) = (t, some o) := by
  induction t with
  | nil =>
    match s, hs with
    | c :: s, _ => rw [List.nil_append, splitTag, ho]
  | cons c t ih =>
    have := open_none (r := s) h (by rw [hs]; simp)
    rw [List.cons_append, splitTag, opening_none this, ih (infix_cons h)]

theorem space_ne {c d : Char} (h : isSpace c = true) (hd : isSpace d = false) : d ≠ c := by
  rintro rfl; rw [h] at hd; cases hd

/-- the two closing delimiters -/
def IsClose (close : Str) : Prop := close = variableEnd ∨ close = blockEnd

theorem IsClose.cons {close : Str} (h : IsClose close) : ∃ k, close = '%' :: '}' :: k := by
  rcases h with rfl | rfl
  · exact ⟨_, rfl⟩
  · exact ⟨_, rfl⟩

theorem lexTag_blank {close : Str} (hc : IsClose close) (w : Str) (hw : Blanks w) (s : Str) (x : Option (List Token × Bool × Str))
    (h : ∀ n : Str, s.length < n.length → lexTag close n s = x) :
    ∀ n : Str, (w ++ s).length < n.length → lexTag close n (w ++ s) = x := by
  obtain ⟨k, rfl⟩ := hc.cons
  induction w with
  | nil => exact h
  | cons c w ih =>
    intro n hn
    match n, hn with
    | _ :: n, hn =>
    have hs : isSpace c = true := hw c (by simp)
    have h1 : '-' ≠ c := space_ne hs (by decide)
    have h2 : '%' ≠ c := space_ne hs (by decide)
    rw [List.cons_append, lexTag, afterPrefix_head _ _ h1, afterPrefix_head _ _ h2]
    simp only [hs, if_true]
    exact ih (fun c hc => hw c (by simp [hc])) n (by simpa using hn)

theorem lexTag_close {close : Str} (hc : IsClose close) (m : Bool) (r : Str) (n : Str) (hn : 0 < n.length) :
    lexTag close n (sign m ++ (close ++ r)) = some ([], m, r) := by
  obtain ⟨k, rfl⟩ := hc.cons
  match n, hn with
  | _ :: n, _ =>
  cases m with
  | true =>
    have : sign true ++ ('%' :: '}' :: k ++ r) = ('-' :: '%' :: '}' :: k) ++ r := rfl
    rw [this, lexTag.eq_def]
    simp only [afterPrefix_append]
  | false =>
    have : sign false ++ ('%' :: '}' :: k ++ r) = ('%' :: '}' :: k) ++ r := rfl
    rw [this, lexTag.eq_def]
    simp only [afterPrefix_append]
    simp [afterPrefix]

/-- what may follow a token directly -/
def HeadOK : Token → Char → Prop
  | .name _, h => isNameChar h = false
  | .int _, h => isNameChar h = false ∧ h ≠ '.'
  | .str _, _ => True
  | .op s, h => s = ['%'] → h ≠ '}'

theorem nameStart_ne {c d : Char} (h : isNameStart c = true) (hd : isNameStart d = false) : d ≠ c := by
  rintro rfl; rw [h] at hd; cases hd

theorem digit_ne {c d : Char} (h : isDigit c = true) (hd : isDigit d = false) : d ≠ c := by
  rintro rfl; rw [h] at hd; cases hd

theorem nameStart_range {c : Char} (h : isNameStart c = true) : 65 ≤ c.toNat ∧ c.toNat ≤ 122 := by
  simp only [isNameStart, Bool.or_eq_true, Bool.and_eq_true, decide_eq_true_eq, beq_iff_eq] at h
  omega

theorem digit_range {c : Char} (h : isDigit c = true) : 48 ≤ c.toNat ∧ c.toNat ≤ 57 := by
  simpa [isDigit] using h

theorem isSpace_of_range {c : Char} (h1 : 33 ≤ c.toNat) (h2 : c.toNat ≤ 122) : isSpace c = false := by
  simp only [isSpace, Bool.or_eq_false_iff, Bool.and_eq_false_iff, decide_eq_false_iff_not, beq_eq_false_iff_ne]
  omega

/-- how a written token starts -/
theorem tok_start {q : Char} {t : Token} (h : TokOK q t) : ∃ c tl, writeTok q t = c :: tl ∧ isSpace c = false ∧ '-' ≠ c ∧ '}' ≠ c ∧
    '{' ≠ c ∧ '#' ≠ c ∧ ('%' = c → t = .op ['%']) := by
  match t, h with
  | .name s, ⟨c, r, e, hc, _⟩ =>
    have := nameStart_range hc
    refine ⟨c, r, e, isSpace_of_range (by omega) (by omega), nameStart_ne hc (by decide), nameStart_ne hc (by decide),
      nameStart_ne hc (by decide), nameStart_ne hc (by decide), fun e => absurd e (nameStart_ne hc (by decide))⟩
  | .int n, _ =>
    match e : fmtNat n with
    | [] => exact absurd e (fmtNat_ne_nil n)
    | c :: tl =>
      have hc : isDigit c = true := (allDig_fmtNat n).isDigit c (by rw [e]; simp)
      have := digit_range hc
      exact ⟨c, tl, e, isSpace_of_range (by omega) (by omega), digit_ne hc (by decide), digit_ne hc (by decide),
        digit_ne hc (by decide), digit_ne hc (by decide), fun e => absurd e (digit_ne hc (by decide))⟩
  | .str s, ⟨hq, _, _⟩ =>
    refine ⟨q, s ++ [q], rfl, ?_⟩
    rcases hq with rfl | rfl <;>
      exact ⟨by decide, by decide, by decide, by decide, by decide, fun e => absurd e (by decide)⟩
  | .op s, h =>
    rcases h with rfl | ⟨c, hc, rfl⟩
    · refine ⟨'=', ['='], rfl, ?_⟩; decide
    · refine ⟨c, [], rfl, ?_⟩
      simp only [opChars, List.mem_cons, List.not_mem_nil, or_false] at hc
      rcases hc with rfl | rfl | rfl | rfl | rfl | rfl <;> decide

theorem takeWhile_stop {p : Char → Bool} (l : Str) (h : ∀ c ∈ l, p c = true) (d : Char) (r : Str) (hd : p d = false) :
    (l ++ d :: r).takeWhile p = l ∧ (l ++ d :: r).dropWhile p = d :: r := by
  constructor
  · rw [List.takeWhile_append_of_pos h]; simp [hd]
  · rw [List.dropWhile_append_of_pos h]; simp [hd]

theorem fmtNat_zero_head {n : ℕ} {tl : Str} (e : fmtNat n = '0' :: tl) : tl = [] := by
  unfold fmtNat at e
  split at e
  · simpa using e.symm
  · rename_i hn
    have h1 := Nat.getLast_digit_ne_zero 10 hn
    have h2 : (((Nat.digits 10 n).map digitChar).reverse).head? = some '0' := by rw [e]; rfl
    rw [List.head?_reverse, List.getLast?_map, List.getLast?_eq_getLast_of_ne_nil (Nat.digits_ne_nil_iff_ne_zero.2 hn)] at h2
    simp only [Option.map_some, Option.some.injEq] at h2
    have hlt : (Nat.digits 10 n).getLast (Nat.digits_ne_nil_iff_ne_zero.2 hn) < 10 :=
      Nat.digits_lt_base (by norm_num) (List.getLast_mem _)
    generalize (Nat.digits 10 n).getLast (Nat.digits_ne_nil_iff_ne_zero.2 hn) = x at *
    interval_cases x <;> simp_all [digitChar] <;> revert h2 <;> decide

theorem lexTok_read {q : Char} {t : Token} (h : TokOK q t) {c : Char} {tl : Str} (e : writeTok q t = c :: tl) (d : Char) (r : Str)
    (hd : HeadOK t d) : lexTok c (tl ++ d :: r) = some (t, d :: r) := by
  match t, h, hd with
  | .name s, ⟨c', r', e', hc, hr⟩, hd =>
    rw [writeTok, e'] at e
    obtain ⟨rfl, rfl⟩ := List.cons.inj e
    obtain ⟨h1, h2⟩ := takeWhile_stop r' hr d r hd
    unfold lexTok
    rw [if_pos hc, h1, h2, e']
  | .int n, _, ⟨hd1, hd2⟩ =>
    have hdig := (allDig_fmtNat n).isDigit
    rw [writeTok] at e
    rw [e] at hdig
    have hc : isDigit c = true := hdig c (by simp)
    have hn : isNameStart c = false := by
      have := digit_range hc
      simp only [isNameStart, Bool.or_eq_false_iff, Bool.and_eq_false_iff, decide_eq_false_iff_not, beq_eq_false_iff_ne]
      omega
    simp only [isNameChar, Bool.or_eq_false_iff] at hd1
    obtain ⟨h1, h2⟩ := takeWhile_stop tl (fun x hx => hdig x (by simp [hx])) d r hd1.2
    have h0 : ¬ (c = '0' && tl ≠ []) = true := by
      rintro h
      simp only [Bool.and_eq_true, decide_eq_true_eq, ne_eq] at h
      obtain ⟨rfl, h⟩ := h
      exact h (fmtNat_zero_head e)
    unfold lexTok
    rw [hn, hc]
    simp only [Bool.false_eq_true, if_false, if_true, h1, h2, if_neg h0, List.headD_cons, hd1.1, Bool.or_false, decide_eq_true_eq, hd2]
    rw [← e, digitsVal_fmtNat]
  | .str s, ⟨hq, h1, h2⟩, _ =>
    rw [writeTok] at e
    obtain ⟨rfl, rfl⟩ := List.cons.inj e
    have hs : ∀ x ∈ s, (decide (x ≠ q)) = true := fun x hx => by
      simp only [decide_eq_true_eq]; rintro rfl; exact h1 hx
    have e1 : (s ++ [q]) ++ d :: r = s ++ q :: (d :: r) := by simp
    obtain ⟨g1, g2⟩ := takeWhile_stop (p := fun x => decide (x ≠ q)) s hs q (d :: r) (by simp)
    have k1 : isNameStart q = false := by rcases hq with rfl | rfl <;> decide
    have k2 : isDigit q = false := by rcases hq with rfl | rfl <;> decide
    have k3 : (q = '\'' || q = '"') = true := by rcases hq with rfl | rfl <;> decide
    unfold lexTok
    rw [e1, k1, k2]
    simp only [Bool.false_eq_true, if_false, k3, if_true, g1, g2, if_neg h2]
  | .op s, h, _ =>
    rcases h with rfl | ⟨c', hc, rfl⟩
    · obtain ⟨rfl, rfl⟩ := List.cons.inj e
      rfl
    · obtain ⟨rfl, rfl⟩ := List.cons.inj e
      simp only [opChars, List.mem_cons, List.not_mem_nil, or_false] at hc
      rcases hc with rfl | rfl | rfl | rfl | rfl | rfl <;> rfl

theorem lexTag_tok {close : Str} (hc : IsClose close) {q : Char} {t : Token} (h : TokOK q t) (d : Char) (r : Str) (hd : HeadOK t d)
    (x : List Token × Bool × Str) (hr : ∀ n : Str, (d :: r).length < n.length → lexTag close n (d :: r) = some x) (n : Str)
    (hn : (writeTok q t ++ d :: r).length < n.length) :
    lexTag close n (writeTok q t ++ d :: r) = some (t :: x.1, x.2) := by
  obtain ⟨k, rfl⟩ := hc.cons
  obtain ⟨c, tl, e, h1, h2, h3, h4, h5, h6⟩ := tok_start h
  have hl := lexTok_read h e d r hd
  rw [e] at hn ⊢
  match n, hn with
  | _ :: n, hn =>
  have h0 : afterPrefix ('%' :: '}' :: k) (c :: (tl ++ d :: r)) = none := by
    by_cases e1 : '%' = c
    · have := h6 e1
      subst this e1
      have e2 : tl = [] := by simpa [writeTok] using e.symm
      subst e2
      have : '}' ≠ d := fun e => hd rfl e.symm
      simp [afterPrefix, this]
    · exact afterPrefix_head _ _ e1
  rw [List.cons_append, lexTag, afterPrefix_head _ _ h2, h0]
  simp only [h1, Bool.false_eq_true, if_false, hl]
  rw [hr n (by simp at hn ⊢; omega)]

theorem nameChar_of_start {c : Char} (h : isNameChar c = false) : isNameStart c = false ∧ isDigit c = false := by
  simpa [isNameChar] using h

theorem headOK_space {t : Token} {d : Char} (h : isSpace d = true) : HeadOK t d := by
  have ne : ∀ c : Char, 33 ≤ c.toNat → c.toNat ≤ 122 → d ≠ c := fun c h1 h2 e => by
    rw [e, isSpace_of_range h1 h2] at h; cases h
  have hn : isNameChar d = false := by
    by_contra hc
    simp only [Bool.not_eq_false, isNameChar, Bool.or_eq_true] at hc
    rcases hc with hc | hc
    · have := nameStart_range hc; exact ne d (by omega) (by omega) rfl
    · have := digit_range hc; exact ne d (by omega) (by omega) rfl
  cases t with
  | name s => exact hn
  | int n => exact ⟨hn, ne _ (by decide) (by decide)⟩
  | str s => trivial
  | op s => rintro - rfl; revert h; decide

theorem headOK_minus (t : Token) : HeadOK t '-' := by
  cases t with
  | name s => show isNameChar '-' = false; decide
  | int n => exact ⟨by decide, by decide⟩
  | str s => trivial
  | op s => intro _; decide

theorem headOK_percent (t : Token) : HeadOK t '%' := by
  cases t with
  | name s => show isNameChar '%' = false; decide
  | int n => exact ⟨by decide, by decide⟩
  | str s => trivial
  | op s => intro _; decide

/-- a token that may touch the next one -/
theorem headOK_touch {a b : Token} {q : Char} (h : Touch a b) (hb : TokOK q b) {c : Char} {tl : Str} (e : writeTok q b = c :: tl) :
    HeadOK a c := by
  have start := tok_start hb
  obtain ⟨c', tl', e', _, _, h3, _⟩ := start
  obtain ⟨rfl, rfl⟩ : c' = c ∧ tl' = tl := by rw [e] at e'; obtain ⟨h1, h2⟩ := List.cons.inj e'; exact ⟨h1.symm, h2.symm⟩
  have strq : ∀ s, b = .str s → isNameChar c' = false ∧ c' ≠ '.' := by
    rintro s rfl
    obtain ⟨hq, _⟩ := hb
    rw [writeTok] at e
    obtain ⟨rfl, _⟩ := List.cons.inj e
    rcases hq with rfl | rfl <;> decide
  have opq : ∀ s, b = .op s → isNameChar c' = false ∧ (s ≠ ['.'] → c' ≠ '.') := by
    rintro s rfl
    rw [writeTok] at e
    rcases hb with rfl | ⟨x, hx, rfl⟩
    · obtain ⟨rfl, _⟩ := List.cons.inj e; decide
    · obtain ⟨rfl, _⟩ := List.cons.inj e
      simp only [opChars, List.mem_cons, List.not_mem_nil, or_false] at hx
      rcases hx with rfl | rfl | rfl | rfl | rfl | rfl <;> simp <;> decide
  cases a with
  | name s =>
    cases b with
    | name _ => exact h.elim
    | int _ => exact h.elim
    | str s => exact (strq s rfl).1
    | op s => exact (opq s rfl).1
  | int n =>
    cases b with
    | name _ => exact h.elim
    | int _ => exact h.elim
    | str s => exact strq s rfl
    | op s => exact ⟨(opq s rfl).1, (opq s rfl).2 h⟩
  | str s => trivial
  | op s => exact fun _ => fun e => h3 e.symm

theorem lexTag_read {close : Str} (hc : IsClose close) (e : Str) (he : Blanks e) (m : Bool) (r : Str) :
    ∀ items : List Item, Spaced items → ∀ n : Str, (writeItems items ++ (e ++ (sign m ++ (close ++ r)))).length < n.length →
      lexTag close n (writeItems items ++ (e ++ (sign m ++ (close ++ r)))) = some (items.map (·.tok), m, r)
  | [], _ => lexTag_blank hc e he _ _ fun n hn => lexTag_close hc m r n (by omega)
  | a :: l, hs => by
    have tail := lexTag_read hc e he m r l (by
      match l, hs with
      | [], _ => trivial
      | b :: l, hs => exact hs.2.2.2)
    have hb : Blanks a.space := by
      match l, hs with
      | [], hs => exact hs.1
      | b :: l, hs => exact hs.1
    have ht : TokOK a.quote a.tok := by
      match l, hs with
      | [], hs => exact hs.2
      | b :: l, hs => exact hs.2.1
    have hd : ∃ d k, writeItems l ++ (e ++ (sign m ++ (close ++ r))) = d :: k ∧ HeadOK a.tok d := by
      match l, hs with
      | [], _ =>
        match e, he with
        | c :: e, he => exact ⟨c, _, rfl, headOK_space (he c (by simp))⟩
        | [], _ =>
          obtain ⟨k, rfl⟩ := hc.cons
          cases m with
          | true => exact ⟨'-', _, rfl, headOK_minus _⟩
          | false => exact ⟨'%', _, rfl, headOK_percent _⟩
      | b :: l, ⟨_, _, h3, h4⟩ =>
        have hbb : Blanks b.space ∧ TokOK b.quote b.tok := by
          match l, h4 with
          | [], h4 => exact h4
          | _ :: _, h4 => exact ⟨h4.1, h4.2.1⟩
        have e1 : writeItems (b :: l) = b.space ++ (writeTok b.quote b.tok ++ writeItems l) := by simp [writeItems]
        rw [e1]
        match hsp : b.space, h3 with
        | c :: w, _ => exact ⟨c, _, rfl, headOK_space (hbb.1 c (by rw [hsp]; simp))⟩
        | [], h3 =>
          obtain ⟨c, tl, e2, _⟩ := tok_start hbb.2
          rw [e2]
          exact ⟨c, _, rfl, headOK_touch (h3.resolve_left (by simp)) hbb.2 e2⟩
    obtain ⟨d, k, e2, hd⟩ := hd
    have e1 : writeItems (a :: l) ++ (e ++ (sign m ++ (close ++ r)))
        = a.space ++ (writeTok a.quote a.tok ++ (writeItems l ++ (e ++ (sign m ++ (close ++ r))))) := by simp [writeItems]
    rw [e1]
    apply lexTag_blank hc a.space hb
    intro n hn
    rw [e2] at hn ⊢ tail
    exact lexTag_tok hc ht d k hd _ tail n hn

end Jinja
end Emva
