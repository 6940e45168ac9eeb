import Verif.Props.C87

/-!
C87: printing sections with an attribute that has no description (a subclass of `Results1288` whose docstring lacks `:Short:`).
-/
set_option autoImplicit false
namespace Emva
namespace Print
open Results Xml Info Export

/-- the attributes that are printed: those with a value -/
def Valued (x : Str × List (Str × PyVal ℝ)) : Prop := Dict.get? x.2 "value".toList ≠ none

/-- the description can be printed -/
def Described (x : Str × List (Str × PyVal ℝ)) : Prop := ∃ v, Dict.get? x.2 "short".toList = some v ∧
  ((∃ s, v = .str s) ∨ ∃ n, v = .num n)

theorem attrLine_ok (fmt : Fl ℝ → Str) (repr : PyVal ℝ → Str) (x : Str × List (Str × PyVal ℝ)) :
    (Described x → ∃ l, attrLine fmt repr x.2 = .ok l) ∧ (¬ Described x → attrLine fmt repr x.2 = .error .typeError) := by
  have hk : "short".toList = shortKey := by decide +kernel
  unfold Described
  rw [hk, attrLine, getNone]
  constructor
  · rintro ⟨v, h, ⟨s, rfl⟩ | ⟨n, rfl⟩⟩
    · rw [h]; exact ⟨_, rfl⟩
    · rw [h]; exact ⟨_, rfl⟩
  · intro hn
    rcases h : Dict.get? x.2 shortKey with _ | v
    · rfl
    · cases v with
      | str s => exact absurd ⟨_, h, .inl ⟨s, rfl⟩⟩ hn
      | num s => exact absurd ⟨_, h, .inr ⟨s, rfl⟩⟩ hn
      | none => rfl
      | arr a => rfl
      | dict a => rfl

theorem printAttrs_append (fmt : Fl ℝ → Str) (repr : PyVal ℝ → Str) (pre post : List (Str × List (Str × PyVal ℝ)))
    (hp : ∀ x ∈ pre, Valued x → Described x) :
    ∃ ls, printAttrs fmt repr pre = (ls, .ok ()) ∧
      printAttrs fmt repr (pre ++ post) = (ls ++ (printAttrs fmt repr post).1, (printAttrs fmt repr post).2) := by
  have hk : "value".toList = valueKey := by decide +kernel
  induction pre with
  | nil => exact ⟨[], rfl, rfl⟩
  | cons x pre ih =>
    obtain ⟨ls, h1, h2⟩ := ih fun y hy => hp y (List.mem_cons_of_mem _ hy)
    obtain ⟨name, info⟩ := x
    rw [List.cons_append, printAttrs, printAttrs]
    by_cases hv : Dict.has info valueKey = true
    · obtain ⟨v, hv'⟩ := (Dict.has_iff_exists _ _).1 hv
      obtain ⟨l, hl⟩ := (attrLine_ok fmt repr (name, info)).1 (hp _ (List.mem_cons_self ..) (by
        show Dict.get? info "value".toList ≠ none
        rw [hk, hv']; simp))
      have hl' : attrLine fmt repr info = .ok l := hl
      rw [if_pos hv, if_pos hv, hl', h1, h2]
      exact ⟨_, rfl, rfl⟩
    · rw [if_neg hv, if_neg hv, h1, h2]
      exact ⟨_, rfl, rfl⟩

theorem printSections_append (fmt : Fl ℝ → Str) (repr : PyVal ℝ → Str)
    (pre post : List (Str × List (Str × List (Str × PyVal ℝ)))) (hp : ∀ s ∈ pre, ∀ x ∈ s.2, Valued x → Described x) :
    ∃ ls, printSections fmt repr pre = (ls, .ok ()) ∧
      printSections fmt repr (pre ++ post) = (ls ++ (printSections fmt repr post).1, (printSections fmt repr post).2) := by
  induction pre with
  | nil => exact ⟨[], rfl, rfl⟩
  | cons s pre ih =>
    obtain ⟨ls, h1, h2⟩ := ih fun y hy => hp y (List.mem_cons_of_mem _ hy)
    obtain ⟨sec, attrs⟩ := s
    obtain ⟨as, h3, -⟩ := printAttrs_append fmt repr attrs [] (hp _ (List.mem_cons_self ..))
    rw [List.cons_append, printSections, printSections, h3]
    simp only [h1, h2]
    exact ⟨_, rfl, by simp⟩

end Print

open Print Results Xml Info Export

/-- C87: printing stops at the first attribute that has a value but no description: a `TypeError`, after the lines of the
complete sections before it and of the attributes before it in its section have been written, as they are without it. -/
theorem C87_interrupted (fmt : Fl ℝ → Str) (repr : PyVal ℝ → Str) (pre post : List (Str × List (Str × List (Str × PyVal ℝ))))
    (sec : Str) (as bs : List (Str × List (Str × PyVal ℝ))) (x : Str × List (Str × PyVal ℝ))
    (hpre : ∀ s ∈ pre, ∀ x ∈ s.2, Valued x → Described x) (has : ∀ x ∈ as, Valued x → Described x)
    (hx : Valued x) (hd : ¬ Described x) :
    ∃ ls, printSections fmt repr (pre ++ [(sec, as)]) = (ls, .ok ()) ∧
      printSections fmt repr (pre ++ (sec, as ++ x :: bs) :: post) = (ls, .error .typeError) := by
  obtain ⟨l1, e1, e2⟩ := printSections_append fmt repr pre [(sec, as)] hpre
  obtain ⟨l2, e3, e4⟩ := printSections_append fmt repr pre ((sec, as ++ x :: bs) :: post) hpre
  obtain ⟨l3, e5, e6⟩ := printAttrs_append fmt repr as (x :: bs) has
  have hk : "value".toList = valueKey := by decide +kernel
  have hx' : printAttrs fmt repr (x :: bs) = ([], .error .typeError) := by
    obtain ⟨name, info⟩ := x
    have hl : attrLine fmt repr info = .error .typeError := (attrLine_ok fmt repr (name, info)).2 hd
    have hv : Dict.has info valueKey = true := by
      rw [Valued, hk] at hx
      obtain ⟨v, hv⟩ := Option.ne_none_iff_exists'.1 hx
      exact (Dict.has_iff_exists _ _).2 ⟨v, hv⟩
    rw [printAttrs, if_pos hv, hl]
  have h1 : l1 = l2 := congrArg Prod.fst (e1.symm.trans e3)
  subst h1
  refine ⟨l1 ++ ([List.replicate 50 '*', sec, List.replicate 50 '-'] ++ l3), (e2.trans ?_), e4.trans ?_⟩
  · simp only [printSections, e5, List.append_nil]
  · simp only [printSections, e6, hx']
    simp

/-- the second attribute has no description -/
example (fmt : Fl ℝ → Str) (repr : PyVal ℝ → Str) : ∃ ls : List Str, ls.length = 4 ∧
    printSections fmt repr [("sec".toList, [("a".toList, [("short".toList, .str "A".toList), ("value".toList, .none)]),
      ("b".toList, [("value".toList, .none)])])] = (ls, .error .typeError) := by
  obtain ⟨ls, h1, h2⟩ := C87_interrupted fmt repr [] [] "sec".toList
    [("a".toList, [("short".toList, .str "A".toList), ("value".toList, .none)])] [] ("b".toList, [("value".toList, .none)])
    (by simp) (by
      intro x hx _
      rw [List.mem_singleton.1 hx]
      exact ⟨_, rfl, .inl ⟨_, rfl⟩⟩) (by
      show Dict.get? _ _ ≠ none
      rw [show Dict.get? _ _ = some (PyVal.none : PyVal ℝ) from rfl]
      simp) (by
      rintro ⟨v, h, -⟩
      cases h)
  refine ⟨ls, ?_, h2⟩
  have := congrArg (fun p => p.1.length) h1
  exact this.symm

end Emva
