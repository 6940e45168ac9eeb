import Verif.Spec.Info
import Verif.Lemmas.Compare
import Verif.Lemmas.Text

/-!
Lemmas on the documentation tags.
-/
set_option autoImplicit false
namespace Emva
namespace Info
open Xml Spec

theorem strip_nil_iff (l : Str) : Py.strip l = [] ↔ Blank l := by
  rw [Py.strip_eq, List.rdropWhile_eq_nil_iff]
  constructor
  · intro h
    rcases hd : l.dropWhile Py.isSpace with _ | ⟨c, t⟩
    · exact List.dropWhile_eq_nil_iff.1 hd
    · have h1 := h c (by rw [hd]; simp)
      have h2 : ¬ Py.isSpace c = true := by
        have := List.head_dropWhile_not Py.isSpace (l := l) (by rw [hd]; simp)
        simp only [hd, List.head_cons] at this
        rw [this]; simp
      exact absurd h1 h2
  · intro h c hc
    exact h c ((List.dropWhile_sublist _).subset hc)

theorem strip_strip (s : Str) : Py.strip (Py.strip s) = Py.strip s := by
  rcases Py.strip_head s with h | ⟨c, t, h, hc⟩
  · rw [h]; rfl
  · have hd : (Py.strip s).dropWhile Py.isSpace = Py.strip s := by
      rw [h, List.dropWhile_cons_of_neg (by rw [hc]; simp)]
    conv_lhs => rw [Py.strip_eq, hd]
    rw [List.rdropWhile_eq_self_iff]
    intro hl
    have := List.rdropWhile_last_not Py.isSpace (s.dropWhile Py.isSpace) (by rw [← Py.strip_eq]; exact hl)
    simpa only [← Py.strip_eq] using this

theorem startsWith_iff (l : Str) : Py.startsWith (Py.strip l) directive = true ↔ IsDirective l := by
  rw [Py.startsWith, List.isPrefixOf_iff_prefix]
  constructor
  · rintro ⟨r, h⟩; exact ⟨r, h.symm⟩
  · rintro ⟨r, h⟩; exact ⟨r, h.symm⟩

theorem directive_not_blank {l : Str} (h : IsDirective l) : ¬ Blank l := by
  rw [← strip_nil_iff]
  obtain ⟨r, h⟩ := h
  rw [h]; simp [directive]

/-! ### the block -/

/-- `InBlock` for a list of lines that starts inside (`flag`) or outside a block -/
def InB (flag : Bool) (ls : List Str) (i : ℕ) : Prop :=
  ∃ l, ls[i]? = some l ∧ ¬ Blank l ∧ ¬ IsDirective l ∧
    ((∃ j d, j < i ∧ ls[j]? = some d ∧ IsDirective d ∧ ∀ m x, j < m → m < i → ls[m]? = some x → ¬ Blank x) ∨
     (flag = true ∧ ∀ m x, m < i → ls[m]? = some x → ¬ Blank x))

theorem inB_false (ls : List Str) (i : ℕ) : InB false ls i ↔ InBlock ls i := by
  simp [InB, InBlock]

open Classical in
/-- the flag after a line -/
noncomputable def next (flag : Bool) (l : Str) : Bool := decide (IsDirective l ∨ (flag = true ∧ ¬ Blank l))

theorem next_iff (flag : Bool) (l : Str) : next flag l = true ↔ IsDirective l ∨ (flag = true ∧ ¬ Blank l) := by
  simp [next]

theorem inB_zero (flag : Bool) (l : Str) (ls : List Str) :
    InB flag (l :: ls) 0 ↔ flag = true ∧ ¬ Blank l ∧ ¬ IsDirective l := by
  constructor
  · rintro ⟨l', h, hb, hd, ⟨j, d, hj, -⟩ | ⟨hf, -⟩⟩
    · omega
    · simp only [List.getElem?_cons_zero, Option.some.injEq] at h
      subst h
      exact ⟨hf, hb, hd⟩
  · rintro ⟨hf, hb, hd⟩
    exact ⟨l, rfl, hb, hd, .inr ⟨hf, fun m x hm => by omega⟩⟩

theorem inB_succ (flag : Bool) (l : Str) (ls : List Str) (i : ℕ) :
    InB flag (l :: ls) (i + 1) ↔ InB (next flag l) ls i := by
  constructor
  · rintro ⟨l', h, hb, hd, ⟨j, d, hj, hjd, hdd, hall⟩ | ⟨hf, hall⟩⟩
    · refine ⟨l', h, hb, hd, ?_⟩
      cases j with
      | zero =>
        simp only [List.getElem?_cons_zero, Option.some.injEq] at hjd
        subst hjd
        exact .inr ⟨(next_iff _ _).2 (.inl hdd), fun m x hm hx => hall (m + 1) x (by omega) (by omega) hx⟩
      | succ j =>
        exact .inl ⟨j, d, by omega, hjd, hdd, fun m x h1 h2 hx => hall (m + 1) x (by omega) (by omega) hx⟩
    · exact ⟨l', h, hb, hd, .inr ⟨(next_iff _ _).2 (.inr ⟨hf, hall 0 l (by omega) rfl⟩),
        fun m x hm hx => hall (m + 1) x (by omega) hx⟩⟩
  · rintro ⟨l', h, hb, hd, ⟨j, d, hj, hjd, hdd, hall⟩ | ⟨hf, hall⟩⟩
    · refine ⟨l', h, hb, hd, .inl ⟨j + 1, d, by omega, hjd, hdd, fun m x h1 h2 hx => ?_⟩⟩
      obtain ⟨m, rfl⟩ : ∃ m', m = m' + 1 := ⟨m - 1, by omega⟩
      exact hall m x (by omega) (by omega) hx
    · rcases (next_iff _ _).1 hf with hl | ⟨hf, hl⟩
      · refine ⟨l', h, hb, hd, .inl ⟨0, l, by omega, rfl, hl, fun m x h1 h2 hx => ?_⟩⟩
        obtain ⟨m, rfl⟩ : ∃ m', m = m' + 1 := ⟨m - 1, by omega⟩
        exact hall m x (by omega) hx
      · refine ⟨l', h, hb, hd, .inr ⟨hf, fun m x hm hx => ?_⟩⟩
        cases m with
        | zero => cases hx; exact hl
        | succ m => exact hall m x (by omega) hx

theorem tagLines_cons (flag : Bool) (l : Str) (ls : List Str) :
    (InB flag (l :: ls) 0 ∧
      tagLines flag ((l :: ls).map Py.strip) = Py.strip l :: tagLines (next flag l) (ls.map Py.strip)) ∨
    (¬ InB flag (l :: ls) 0 ∧
      tagLines flag ((l :: ls).map Py.strip) = tagLines (next flag l) (ls.map Py.strip)) := by
  rw [inB_zero, List.map_cons, tagLines]
  by_cases hd : IsDirective l
  · rw [if_pos ((startsWith_iff l).2 hd), (next_iff flag l).2 (.inl hd)]
    exact .inr ⟨fun h => h.2.2 hd, rfl⟩
  · rw [if_neg (by rw [startsWith_iff]; exact hd)]
    cases flag with
    | false =>
      rw [if_neg (by simp), show next false l = false by rw [← Bool.not_eq_true, next_iff]; simp [hd]]
      exact .inr ⟨by simp, rfl⟩
    | true =>
      rw [if_pos rfl, strip_strip]
      by_cases hb : Blank l
      · rw [if_pos ((strip_nil_iff l).2 hb),
          show next true l = false by rw [← Bool.not_eq_true, next_iff]; simp [hd, hb]]
        exact .inr ⟨fun h => h.2.1 hb, rfl⟩
      · rw [if_neg (by rw [strip_nil_iff]; exact hb), (next_iff true l).2 (.inr ⟨rfl, hb⟩)]
        exact .inl ⟨⟨rfl, hb, hd⟩, rfl⟩

theorem tagLines_nil_iff (ls : List Str) : ∀ flag, tagLines flag (ls.map Py.strip) = [] ↔ ∀ i, ¬ InB flag ls i := by
  induction ls with
  | nil =>
    intro flag
    simp [tagLines, InB]
  | cons l ls ih =>
    intro flag
    rcases tagLines_cons flag l ls with ⟨h, e⟩ | ⟨h, e⟩
    · rw [e]
      constructor
      · intro h'; cases h'
      · intro h'; exact absurd h (h' 0)
    · rw [e, ih]
      constructor
      · intro h' i
        cases i with
        | zero => exact h
        | succ i => rw [inB_succ]; exact h' i
      · intro h' i
        rw [← inB_succ]; exact h' (i + 1)

/-! ### one line -/

theorem span_colon (s : Str) :
    (':' ∉ s ∧ s.span (fun c => decide (c ≠ ':')) = (s, [])) ∨
    ∃ a b, s = a ++ ':' :: b ∧ ':' ∉ a ∧ s.span (fun c => decide (c ≠ ':')) = (a, ':' :: b) := by
  rw [List.span_eq_takeWhile_dropWhile]
  induction s with
  | nil => exact .inl ⟨by simp, rfl⟩
  | cons c s ih =>
    by_cases hc : c = ':'
    · subst hc
      exact .inr ⟨[], s, rfl, by simp, by simp⟩
    · rw [List.takeWhile_cons_of_pos (by simpa using hc), List.dropWhile_cons_of_pos (by simpa using hc)]
      rcases ih with ⟨h1, h2⟩ | ⟨a, b, h1, h2, h3⟩
      · obtain ⟨e1, e2⟩ := Prod.mk.inj h2
        exact .inl ⟨by simp [h1, Ne.symm hc], by rw [e1, e2]⟩
      · obtain ⟨e1, e2⟩ := Prod.mk.inj h3
        exact .inr ⟨c :: a, b, by rw [h1]; rfl, by simp [h2, Ne.symm hc], by rw [e1, e2]⟩

theorem append_colon_inj {a b c d : Str} (ha : ':' ∉ a) (hc : ':' ∉ c) (h : a ++ ':' :: b = c ++ ':' :: d) :
    a = c ∧ b = d := by
  induction a generalizing c with
  | nil =>
    cases c with
    | nil => simpa using h
    | cons x c => simp at h; exact absurd (h.1 ▸ (by simp : x ∈ x :: c)) hc
  | cons x a ih =>
    cases c with
    | nil => simp at h; exact absurd (h.1.symm ▸ (by simp : x ∈ x :: a)) ha
    | cons y c =>
      simp only [List.cons_append, List.cons.injEq] at h
      obtain ⟨rfl, h⟩ := h
      obtain ⟨rfl, rfl⟩ := ih (fun hm => ha (by simp [hm])) (fun hm => hc (by simp [hm])) h
      exact ⟨rfl, rfl⟩

theorem splitMax_cases (s : Str) :
    (':' ∉ s ∧ splitMax ':' 2 s = [s]) ∨
    (∃ a b, s = a ++ ':' :: b ∧ ':' ∉ a ∧ ':' ∉ b ∧ splitMax ':' 2 s = [a, b]) ∨
    (∃ a b c, s = a ++ ':' :: b ++ ':' :: c ∧ ':' ∉ a ∧ ':' ∉ b ∧ splitMax ':' 2 s = [a, b, c]) := by
  rw [splitMax]
  rcases span_colon s with ⟨h1, h2⟩ | ⟨a, r, h1, h2, h3⟩
  · rw [h2]; exact .inl ⟨h1, rfl⟩
  · rw [h3]
    dsimp only
    rw [splitMax]
    rcases span_colon r with ⟨h4, h5⟩ | ⟨b, c, h4, h5, h6⟩
    · rw [h5]; exact .inr (.inl ⟨a, r, h1, h2, h4, rfl⟩)
    · rw [h6]
      refine .inr (.inr ⟨a, b, c, ?_, h2, h5, rfl⟩)
      rw [h1, h4, List.append_assoc]; rfl

theorem parseTag_iff (lower : Str → Str) (l k v : Str) :
    parseTag lower l = some (k, v) ↔ ∃ tag, TagLine l tag v ∧ k = lower tag := by
  have e : ∀ x, decide (Py.strip x ≠ []) = true ↔ ¬ Blank x := by
    intro x; rw [decide_eq_true_eq, Ne, strip_nil_iff]
  have nb : ∀ {x t}, Trimmed x t → ¬ Blank x := by
    rintro x t ⟨h, ht⟩ hb
    rw [(strip_nil_iff x).2 hb] at h
    exact ht h.symm
  have tr : ∀ {x}, ¬ Blank x → Trimmed x (Py.strip x) := by
    intro x h
    exact ⟨rfl, by rw [Ne, strip_nil_iff]; exact h⟩
  rcases splitMax_cases l with ⟨h1, h2⟩ | ⟨a, b, h0, ha, hb, h2⟩ | ⟨a, b, c, h0, ha, hb, h2⟩
  · constructor
    · intro h
      rw [parseTag, h2] at h
      by_cases hl : decide (Py.strip l ≠ []) = true
      · rw [List.filter_cons_of_pos (by exact hl)] at h; cases h
      · rw [List.filter_cons_of_neg (by exact hl)] at h; cases h
    · rintro ⟨tag, ⟨a, b, rfl, -⟩ | ⟨a, b, c, rfl, -⟩, -⟩ <;> simp at h1
  · have key : parseTag lower l = some (k, v) ↔ ¬ Blank a ∧ ¬ Blank b ∧ lower (Py.strip a) = k ∧ Py.strip b = v := by
      rw [parseTag, h2]
      by_cases h3 : Blank a <;> by_cases h4 : Blank b <;>
        simp [strip_nil_iff, h3, h4]
    rw [key]
    constructor
    · rintro ⟨h3, h4, rfl, rfl⟩
      exact ⟨_, .inl ⟨a, b, h0, ha, hb, tr h3, tr h4⟩, rfl⟩
    · rintro ⟨tag, ⟨a', b', h5, ha', hb', t1, t2⟩ | ⟨a', b', c', h5, ha', hb', -⟩, rfl⟩
      · rw [h0] at h5
        obtain ⟨rfl, rfl⟩ := append_colon_inj ha ha' h5
        exact ⟨nb t1, nb t2, by rw [t1.1], t2.1⟩
      · rw [h0, List.append_assoc] at h5
        obtain ⟨rfl, rfl⟩ := append_colon_inj ha ha' h5
        simp at hb
  · have key : parseTag lower l = some (k, v) ↔
        (Blank a ∧ ¬ Blank b ∧ ¬ Blank c ∧ lower (Py.strip b) = k ∧ Py.strip c = v) ∨
        (¬ Blank a ∧ Blank b ∧ ¬ Blank c ∧ lower (Py.strip a) = k ∧ Py.strip c = v) ∨
        (¬ Blank a ∧ ¬ Blank b ∧ Blank c ∧ lower (Py.strip a) = k ∧ Py.strip b = v) := by
      rw [parseTag, h2]
      by_cases h3 : Blank a <;> by_cases h4 : Blank b <;> by_cases h5 : Blank c <;>
        simp [strip_nil_iff, h3, h4, h5]
    rw [key]
    constructor
    · rintro (⟨h3, h4, h5, rfl, rfl⟩ | ⟨h3, h4, h5, rfl, rfl⟩ | ⟨h3, h4, h5, rfl, rfl⟩)
      · exact ⟨_, .inr ⟨a, b, c, h0, ha, hb, .inl ⟨h3, tr h4, tr h5⟩⟩, rfl⟩
      · exact ⟨_, .inr ⟨a, b, c, h0, ha, hb, .inr (.inl ⟨h4, tr h3, tr h5⟩)⟩, rfl⟩
      · exact ⟨_, .inr ⟨a, b, c, h0, ha, hb, .inr (.inr ⟨h5, tr h3, tr h4⟩)⟩, rfl⟩
    · rintro ⟨tag, ⟨a', b', h5, ha', hb', t1, t2⟩ | ⟨a', b', c', h5, ha', hb', ht⟩, rfl⟩
      · rw [h0, List.append_assoc] at h5
        obtain ⟨rfl, rfl⟩ := append_colon_inj ha ha' h5
        simp at hb'
      · rw [h0, List.append_assoc, List.append_assoc] at h5
        obtain ⟨rfl, h6⟩ := append_colon_inj ha ha' h5
        obtain ⟨rfl, rfl⟩ := append_colon_inj hb hb' h6
        rcases ht with ⟨h3, h4, h5⟩ | ⟨h4, h3, h5⟩ | ⟨h5, h3, h4⟩
        · exact .inl ⟨h3, nb h4, nb h5, by rw [h4.1], h5.1⟩
        · exact .inr (.inl ⟨nb h3, h4, nb h5, by rw [h3.1], h5.1⟩)
        · exact .inr (.inr ⟨nb h3, nb h4, h5, by rw [h3.1], h4.1⟩)

/-! ### the dictionary -/

/-- `Gives` for a list of lines that starts inside or outside a block -/
def G (lower : Str → Str) (flag : Bool) (ls : List Str) (k : Str) (i : ℕ) (v : Str) : Prop :=
  InB flag ls i ∧ ∃ l tag, ls[i]? = some l ∧ TagLine (Py.strip l) tag v ∧ k = lower tag

theorem last_step (P : ℕ → Str → Prop) (D D' : Option Str) (v : Str)
    (h : D' = some v ↔ P 0 v ∨ ((∀ w, ¬ P 0 w) ∧ D = some v)) :
    ((∃ i, P (i + 1) v ∧ ∀ j w, i < j → ¬ P (j + 1) w) ∨ ((∀ j w, ¬ P (j + 1) w) ∧ D' = some v)) ↔
    ((∃ i, P i v ∧ ∀ j w, i < j → ¬ P j w) ∨ ((∀ j w, ¬ P j w) ∧ D = some v)) := by
  rw [h]
  constructor
  · rintro (⟨i, h1, h2⟩ | ⟨h1, h2 | ⟨h2, h3⟩⟩)
    · refine .inl ⟨i + 1, h1, fun j w hj => ?_⟩
      obtain ⟨j, rfl⟩ : ∃ m', j = m' + 1 := ⟨j - 1, by omega⟩
      exact h2 j w (by omega)
    · refine .inl ⟨0, h2, fun j w hj => ?_⟩
      obtain ⟨j, rfl⟩ : ∃ m', j = m' + 1 := ⟨j - 1, by omega⟩
      exact h1 j w
    · refine .inr ⟨fun j w => ?_, h3⟩
      cases j with
      | zero => exact h2 w
      | succ j => exact h1 j w
  · rintro (⟨i, h1, h2⟩ | ⟨h1, h2⟩)
    · cases i with
      | zero => exact .inr ⟨fun j w => h2 (j + 1) w (by omega), .inl h1⟩
      | succ i => exact .inl ⟨i, h1, fun j w hj => h2 (j + 1) w (by omega)⟩
    · exact .inr ⟨fun j w => h1 (j + 1) w, .inr ⟨fun w => h1 0 w, h2⟩⟩

theorem fold_get (lower : Str → Str) (k v : Str) (ls : List Str) : ∀ (flag : Bool) (d : List (Str × Str)),
    Dict.get? (((tagLines flag (ls.map Py.strip)).filterMap (parseTag lower)).foldl
      (fun d kv => Dict.set d kv.1 kv.2) d) k = some v ↔
    ((∃ i, G lower flag ls k i v ∧ ∀ j w, i < j → ¬ G lower flag ls k j w) ∨
     ((∀ j w, ¬ G lower flag ls k j w) ∧ Dict.get? d k = some v)) := by
  induction ls with
  | nil =>
    intro flag d
    have : ∀ j w, ¬ G lower flag [] k j w := by
      rintro j w ⟨-, l, tag, h, -⟩
      simp at h
    simp [tagLines, this]
  | cons l ls ih =>
    intro flag d
    have hs : ∀ i w, G lower flag (l :: ls) k (i + 1) w ↔ G lower (next flag l) ls k i w := by
      intro i w
      unfold G
      rw [inB_succ]
      simp
    have h0 : ∀ w, G lower flag (l :: ls) k 0 w ↔ InB flag (l :: ls) 0 ∧ parseTag lower (Py.strip l) = some (k, w) := by
      intro w
      unfold G
      rw [parseTag_iff]
      simp
    have step := last_step (fun i w => G lower flag (l :: ls) k i w)
    simp only [hs] at step
    rcases tagLines_cons flag l ls with ⟨hB, e⟩ | ⟨hB, e⟩
    · rw [e]
      cases hp : parseTag lower (Py.strip l) with
      | none =>
        rw [List.filterMap_cons_none hp, ih, step (Dict.get? d k)]
        simp [h0, hp]
      | some p =>
        obtain ⟨a, b⟩ := p
        rw [List.filterMap_cons_some hp, List.foldl_cons, ih, step (Dict.get? d k)]
        simp only [h0, hp, Option.some.injEq, Prod.mk.injEq]
        rw [Dict.get?_set]
        by_cases hk : a = k
        · subst hk
          simp [hB, eq_comm]
        · simp [hB, hk]
    · rw [e, ih, step (Dict.get? d k)]
      simp [h0, hB]

/-! ### splitlines -/

theorem splitlinesAux_skip (l : Str) (hl : ∀ c ∈ l, isLineSep c = false) : ∀ (acc s : Str),
    splitlinesAux acc (l ++ s) = splitlinesAux (acc ++ l) s := by
  induction l with
  | nil => intro acc s; simp
  | cons c l ih =>
    intro acc s
    have hc : isLineSep c = false := hl c (by simp)
    rw [List.cons_append, splitlinesAux, if_neg (by rw [hc]; simp), ih (fun x hx => hl x (by simp [hx])), List.append_assoc]
    · rfl
    · rintro s' rfl
      exact absurd hc (by decide)

theorem splitlines_of_isLines {s : Str} {ls : List Str} (h : IsLines s ls) : splitlines s = ls := by
  unfold splitlines
  induction h with
  | nil => rfl
  | last l hne hl =>
    have := splitlinesAux_skip l hl [] []
    rw [List.append_nil, List.nil_append] at this
    rw [this, splitlinesAux, if_neg hne]
  | crlf l s ls hl _ ih => rw [splitlinesAux_skip l hl, splitlinesAux, ih]; rfl
  | sep l s c ls hl hc hn _ ih =>
    rw [splitlinesAux_skip l hl, splitlinesAux, if_pos hc, ih]; rfl
    rintro t rfl ht
    exact hn ⟨rfl, t, ht⟩

end Info
end Emva
