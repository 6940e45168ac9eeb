import Verif.Props.C104
import Verif.Props.C62Example

/-!
Cases that meet the hypotheses of C104.
-/
set_option autoImplicit false
namespace Emva
open Py Loader Spec Data Results Parser Pipeline Plots Routines

/-- with all grey values tripled the photon transfer curve is three times as wide and nine times as high -/
example : ∃ r r', evaluate id unitFs [] id (unitImages ℝ) none none none = .ok r ∧
    evaluate id (affFiles 3 0 unitFs) [] id (unitImages ℝ) none none none = .ok r' ∧
    val (draw (exactLSQ ℝ) .ptc) r' = (val (draw (exactLSQ ℝ) .ptc) r).map (List.map (redrawn 3 9)) ∧
    val (draw (exactLSQ ℝ) .deviation) r' = (val (draw (exactLSQ ℝ) .deviation) r).map (List.map (redrawn 1 1)) := by
  obtain ⟨r, h1, h2⟩ := unit_evaluate
  have h := C104_units_partial unitFs [] id (unitImages ℝ) none none none (exactLSQ ℝ) Fit.exactLSQ_good 3 (by norm_num) 2
    (by simp only [unitImages, List.mem_cons, List.not_mem_nil, or_false]; aesop)
  rw [h1] at h
  cases h' : evaluate id (affFiles 3 0 unitFs) [] id (unitImages ℝ) none none none with
  | error e => rw [h'] at h; exact h.elim
  | ok r' =>
    rw [h'] at h
    have h := h (by rw [h2]; simp) (by rw [h2]; simp; norm_num)
    refine ⟨r, r', h1, rfl, ?_, ?_⟩
    · have := h .ptc trivial
      rw [show greyPower (unitOf (xlabel .ptc)) = 1 from rfl, show greyPower (unitOf (ylabel .ptc)) = 2 from rfl] at this
      norm_num at this
      exact this
    · have := h .deviation trivial
      rw [show greyPower (unitOf (xlabel .deviation)) = 0 from rfl, show greyPower (unitOf (ylabel .deviation)) = 0 from rfl] at this
      norm_num at this
      exact this

example : ∀ e ∈ unitImages ℝ .temporal, ∀ p ∈ e.2, p.2.length = 2 := by
  simp only [unitImages, List.mem_cons, List.not_mem_nil, or_false]; aesop

example := C104_accumulated_not_number (exactLSQ ℝ) histSample (by decide) (by decide)
example : ¬ histSample.spatial.dark.h * histSample.spatial.dark.w = 100 := by decide

example := C104_accumulated_not_percent (exactLSQ ℝ) histSample 5 6 ⟨rfl, rfl⟩ ⟨rfl, rfl⟩ (by norm_num) (by norm_num) (by decide)
  40 (by norm_num)

/-- the sum of the dark pixels is not 0, so no point of the dark histogram is at a dark value -/
example : ∃ (x y : List (Fl ℝ)) (rest : List Drawn) (m : ℤ), val (draw (exactLSQ ℝ) .histogramDSNU) histSample = .ok (.line x y "Data" :: rest) ∧
    ∃ s : ℝ, x[0]? = some (.fin s) ∧ s ≠ (m : ℝ) / (2 : ℕ) := by
  obtain ⟨-, -, x, y, rest, W, m, e, h0, -, hk⟩ := C104_not_dark_value (exactLSQ ℝ) histSample (by decide) (by decide)
  obtain ⟨s, h1, -, h3⟩ := hk 0 h0
  refine ⟨x, y, rest, m, e, s, h1, fun hs => ?_⟩
  have : (Spec.pixels 5 6 fun i j => (10 : ℤ) + i + j).sum = 0 := h3.1 (by rw [hs]; push_cast; rw [zero_mul, add_zero]; rfl)
  revert this
  decide +kernel

example := C104_histogram (exactLSQ ℝ) histSample 5 6 ⟨rfl, rfl⟩ ⟨rfl, rfl⟩ (by norm_num) (by norm_num) (by decide)

end Emva
