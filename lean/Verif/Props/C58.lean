import Verif.Model.Plotter

/-!
C58: which of the tests given to `Plotting1288` are plotted.  The code keeps only the last one.
-/
set_option autoImplicit false
namespace Emva
open Py Report Plotter

namespace Plotter

theorem ensureId_spec (w : World) (ids : Ids) (t x : ℕ) :
    ensureId w ids t x = if x = t ∧ (ids x).getD 0 = 0 then some (w.addr x) else ids x := by
  unfold ensureId
  by_cases h : (ids t).getD 0 = 0
  · simp only [h, if_true]
    by_cases hx : x = t
    · subst hx; simp [h]
    · simp [hx]
  · simp only [h, if_false]
    by_cases hx : x = t
    · subst hx; simp [h]
    · simp [hx]

theorem foldl_ids (w : World) (ha : ∀ t, w.addr t ≠ 0) (l : List ℕ) (ids : Ids) (x : ℕ) :
    (l.foldl (ensureId w) ids) x = if x ∈ l ∧ (ids x).getD 0 = 0 then some (w.addr x) else ids x := by
  induction l generalizing ids with
  | nil => simp
  | cons t l ih =>
    rw [List.foldl_cons, ih, ensureId_spec]
    by_cases h0 : (ids x).getD 0 = 0
    · by_cases hx : x = t
      · subst hx
        simp [h0, ha x]
      · simp [h0, hx]
    · simp [h0]

theorem drawTests_ok (w : World) (cls : Str) (l : List ℕ) (h : ∀ t ∈ l, w.draw cls t = .ok ()) :
    drawTests w cls l = (l.map fun t => (cls, t), .ok ()) := by
  induction l with
  | nil => rfl
  | cons t l ih =>
    rw [drawTests, h t (by simp), ih fun t ht => h t (by simp [ht])]; rfl

theorem plotLoop_ok (w : World) (tests : List ℕ) (l : List Str)
    (h : ∀ cls ∈ l, w.make cls = .ok () ∧ w.finish cls = .ok () ∧ ∀ t ∈ tests, w.draw cls t = .ok ()) :
    plotLoop w tests l = (l.flatMap fun cls => tests.map fun t => (cls, t), .ok ()) := by
  induction l with
  | nil => rfl
  | cons cls l ih =>
    obtain ⟨h1, h2, h3⟩ := h cls (by simp)
    rw [plotLoop, h1, drawTests_ok w cls tests h3]
    simp only [h2, ih fun c hc => h c (by simp [hc])]
    rfl

theorem drawTests_mem (w : World) (cls : Str) (l : List ℕ) (p : Str × ℕ) (h : p ∈ (drawTests w cls l).1) :
    p.1 = cls ∧ p.2 ∈ l := by
  induction l with
  | nil => simp [drawTests] at h
  | cons t l ih =>
    rw [drawTests] at h
    split at h
    · simp at h
    · rcases List.mem_cons.1 h with rfl | h
      · simp
      · exact ⟨(ih h).1, by simp [(ih h).2]⟩

theorem plotLoop_mem (w : World) (tests : List ℕ) (l : List Str) (p : Str × ℕ)
    (h : p ∈ (plotLoop w tests l).1) : p.1 ∈ l ∧ p.2 ∈ tests := by
  induction l with
  | nil => simp [plotLoop] at h
  | cons cls l ih =>
    have hd : p ∈ (drawTests w cls tests).1 → p.1 ∈ cls :: l ∧ p.2 ∈ tests := fun h => by
      obtain ⟨h1, h2⟩ := drawTests_mem w cls tests p h
      exact ⟨by simp [h1], h2⟩
    rw [plotLoop] at h
    split at h
    · simp at h
    · split at h
      · rename_i d e he; exact hd (by rw [he]; exact h)
      · rename_i d u he
        split at h
        · exact hd (by rw [he]; exact h)
        · rcases List.mem_append.1 h with h | h
          · exact hd (by rw [he]; exact h)
          · exact ⟨by simp [(ih h).1], (ih h).2⟩

end Plotter

/-- C58: no test other than the last one is ever drawn, whatever the plots and whether they fail. -/
theorem C58_only_last (w : World) (tests : List ℕ) (ids : Ids) (self : List ℕ) (h : (new w tests ids).2 = .ok self)
    (plots : List Str) (cls : Str) (t : ℕ) (hd : (cls, t) ∈ (plot w self plots).1) : tests.getLast? = some t := by
  unfold new at h
  cases hl : tests.getLast? with
  | none => simp [hl] at h
  | some u =>
    simp only [hl, Except.ok.injEq] at h
    subst h
    have := (plotLoop_mem w [u] _ _ hd).2
    rw [List.mem_singleton] at this
    exact congrArg some this.symm

/-- C58 (negated): with two different tests one of them is not drawn, in any world. -/
theorem C58_counterexample (w : World) (t u : ℕ) (ids : Ids) (htu : t ≠ u) (plots : List Str) :
    ∃ self, (new w [t, u] ids).2 = .ok self ∧ ∀ cls, (cls, t) ∉ (plot w self plots).1 := by
  refine ⟨[u], rfl, fun cls h => ?_⟩
  have := C58_only_last w [t, u] ids [u] rfl plots cls t h
  simp at this
  exact htu this.symm

/-- C58 (the part that holds: one test, as in `Emva1288.plot` and in the report): the requested plots (all
sixteen when none is requested) are made of this test, in order, once each, when nothing fails. -/
theorem C58_single_partial (w : World) (t : ℕ) (ids : Ids) (plots : List Str)
    (h : ∀ cls, w.make cls = .ok () ∧ w.finish cls = .ok () ∧ w.draw cls t = .ok ()) :
    ∃ self, (new w [t] ids).2 = .ok self ∧
      plot w self plots = ((if plots = [] then plotClasses else plots).map fun cls => (cls, t), .ok ()) := by
  refine ⟨[t], rfl, ?_⟩
  unfold plot
  rw [plotLoop_ok w [t] _ fun cls _ => ⟨(h cls).1, (h cls).2.1, fun u hu => by
    rw [List.mem_singleton.1 hu]; exact (h cls).2.2⟩]
  have e : ∀ l : List Str, (l.flatMap fun cls => [t].map fun t => (cls, t)) = l.map fun cls => (cls, t) := by
    intro l; induction l with
    | nil => rfl
    | cons a l ih => rw [List.flatMap_cons, ih]; rfl
  rw [e]
  cases plots <;> rfl

theorem C58_rejected (w : Plotter.World) (tests : List ℕ) (ids : Plotter.Ids) (e : PyErr) :
    (Plotter.new w tests ids).2 = .error e ↔ tests = [] ∧ e = .unboundLocalError := by
  unfold Plotter.new
  cases h : tests.getLast? with
  | none => rw [List.getLast?_eq_none_iff] at h; simp [h, eq_comm]
  | some t =>
    have : tests ≠ [] := by rintro rfl; cases h
    simp [this]

/-- C58: after the constructor all the given tests have a non-zero id; an id that was there is kept, a new
one is the address; the other tests are not touched. -/
theorem C58_ids (w : World) (ha : ∀ t, w.addr t ≠ 0) (tests : List ℕ) (ids : Ids) (t : ℕ) :
    (t ∈ tests → ∃ i, (new w tests ids).1 t = some i ∧ i ≠ 0) ∧
    (∀ i, ids t = some i → i ≠ 0 → (new w tests ids).1 t = some i) ∧
    (t ∈ tests → (ids t = none ∨ ids t = some 0) → (new w tests ids).1 t = some (w.addr t)) ∧
    (t ∉ tests → (new w tests ids).1 t = ids t) := by
  have e : (new w tests ids).1 = tests.foldl (ensureId w) ids := by
    unfold new; split <;> rfl
  rw [e, foldl_ids w ha]
  refine ⟨fun h => ?_, fun i h hi => ?_, fun h h0 => ?_, fun h => ?_⟩
  · by_cases h0 : (ids t).getD 0 = 0
    · exact ⟨_, if_pos ⟨h, h0⟩, ha t⟩
    · rw [if_neg fun h' => h0 h'.2]
      cases hi : ids t with
      | none => simp [hi] at h0
      | some i => exact ⟨i, rfl, by simpa [hi] using h0⟩
  · rw [if_neg, h]
    intro h'; simp [h] at h'; exact hi h'.2
  · rw [if_pos ⟨h, by rcases h0 with h0 | h0 <;> simp [h0]⟩]
  · rw [if_neg fun h' => h h'.1]

-- three tests, two of them without id; the third one is plotted
def sampleWorld : World := ⟨fun t => t + 100, fun _ => .ok (), fun _ _ => .ok (), fun _ => .ok ()⟩
example : (new sampleWorld [1, 2, 3] fun t => if t = 2 then some 7 else none).2 = .ok [3] ∧
    ([1, 2, 3].map (new sampleWorld [1, 2, 3] fun t => if t = 2 then some 7 else none).1) =
      [some 101, some 7, some 103] := by decide
example : (plot sampleWorld [3] ["PlotPTC".toList]).1 = [("PlotPTC".toList, 3)] := by decide

end Emva
