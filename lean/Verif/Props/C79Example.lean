import Verif.Props.C79
import Verif.Props.C62Example
import Verif.Props.C77

/-!
Concrete cases for C79.
-/
set_option autoImplicit false
namespace Emva
open Py Loader Spec Data Results Parser Pipeline

theorem wf_unit : ∀ k, WF2 (unitImages ℝ k) := by
  rintro (_ | _) <;> refine ⟨by simp [unitImages, Dict.WF, Dict.keys], fun e i h => ?_⟩ <;>
  · simp only [unitImages, Dict.get?] at h
    split_ifs at h
    cases h
    simp [Dict.WF, Dict.keys]

theorem wf_quiet : ∀ k, WF2 (quietImages ℝ k) := by
  rintro (_ | _) <;> refine ⟨by simp [quietImages, Dict.WF, Dict.keys], fun e i h => ?_⟩ <;>
  · simp only [quietImages, Dict.get?] at h
    split_ifs at h
    cases h
    simp [Dict.WF, Dict.keys]

/-- Two datasets with different dark pairs and the same spatial images: the same PRNU. -/
example : ∃ r r', evaluate id unitFs [] id (unitImages ℝ) none none none = .ok r ∧
    evaluate id unitFs [] id (quietImages ℝ) none none none = .ok r' ∧ r.temporal ≠ r'.temporal ∧
    ∀ q, val (Results.read q .PRNU1288) r = val (Results.read q .PRNU1288) r' := by
  obtain ⟨r, hr, ht⟩ := unit_evaluate
  obtain ⟨r', hr', ht'⟩ := quiet_evaluate
  refine ⟨r, r', hr, hr', ?_, fun q => ?_⟩
  · rw [ht, ht']
    intro h
    have := congrArg Temporal.s2_ydark h
    simp at this
  · refine C79_evaluate q id unitFs [] id (fun _ => List.Perm.refl _) _ _ wf_unit wf_quiet none none none none
      none none r r' hr hr' _ ?_ ?_ ?_ ?_
    · simp [needs, Inp.kind]
    · exact fun _ => ⟨rfl, 1, 0, [['a'], ['b'], ['a']], ['a'], by simp [get2, unitImages, Dict.get?], by simp⟩
    · simp [needs]
    · simp [needs]

/-- The gain does not use the photon counts: any other calibration of the light source gives the same. -/
example (q : LSQ ℝ) (p : List ℝ) :
    val (Results.read q .K) { C77sample with temporal := { C77sample.temporal with u_p := p } } =
    val (Results.read q .K) C77sample := by
  refine C79_depends q .K _ _ ?_ [] []
  intro i hi
  simp only [needs, gainIn, rangeIn, satIn, List.mem_cons, List.not_mem_nil, or_false] at hi
  rcases hi with rfl | rfl | rfl | rfl | rfl <;> rfl

end Emva
