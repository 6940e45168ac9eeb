import Verif.Model.Temporal
import Verif.Lemmas.GetIntImgs

set_option autoImplicit false
namespace Emva
open Finset
set_option linter.unusedSectionVars false
variable {F : Type*} [Field F] [LinearOrder F] [IsStrictOrderedRing F]

theorem sumImg_congr (wr : ℤ → ℤ) {h w : ℕ} {f g : ℕ → ℕ → ℤ}
    (e : ∀ r < h, ∀ c < w, f r c = g r c) : sumImg wr h w f = sumImg wr h w g := by
  unfold sumImg
  congr 1
  refine sum_congr rfl fun r hr => sum_congr rfl fun c hc => ?_
  exact e r (mem_range.1 hr) c (mem_range.1 hc)

theorem sum2_bounds {h w : ℕ} {f : ℕ → ℕ → ℤ} {M : ℤ}
    (e : ∀ r < h, ∀ c < w, 0 ≤ f r c ∧ f r c ≤ M) :
    0 ≤ ∑ i ∈ range h, ∑ j ∈ range w, f i j ∧
      ∑ i ∈ range h, ∑ j ∈ range w, f i j ≤ (h : ℤ) * w * M := by
  constructor
  · exact sum_nonneg fun r hr => sum_nonneg fun c hc =>
      (e r (mem_range.1 hr) c (mem_range.1 hc)).1
  · calc ∑ i ∈ range h, ∑ j ∈ range w, f i j ≤ ∑ i ∈ range h, ∑ j ∈ range w, M :=
          sum_le_sum fun r hr => sum_le_sum fun c hc =>
            (e r (mem_range.1 hr) c (mem_range.1 hc)).2
      _ = (h : ℤ) * w * M := by simp; ring

/-- `imgPopVar` in terms of raw sums. -/
theorem imgPopVar_eq (h w : ℕ) (hp : 0 < h * w) (f : ℕ → ℕ → F) :
    Spec.imgPopVar h w f = (∑ i ∈ range h, ∑ j ∈ range w, f i j ^ 2) / (h * w)
      - Spec.imgMean h w f ^ 2 := by
  have hne : ((h : F) * w) ≠ 0 := by exact_mod_cast hp.ne'
  obtain ⟨hh0, hw0⟩ := mul_ne_zero_iff.1 hne
  set m := Spec.imgMean h w f with hm
  have e : ∑ i ∈ range h, ∑ j ∈ range w, (f i j - m) ^ 2
      = (∑ i ∈ range h, ∑ j ∈ range w, f i j ^ 2)
        - 2 * m * (∑ i ∈ range h, ∑ j ∈ range w, f i j) + h * w * m ^ 2 := by
    simp only [sub_sq, sum_add_distrib, sum_sub_distrib, sum_const, card_range, nsmul_eq_mul,
      mul_sum]
    congr 1
    · congr 1
      refine sum_congr rfl fun i _ => sum_congr rfl fun j _ => by ring
    · ring
  have e2 : (∑ i ∈ range h, ∑ j ∈ range w, f i j) = h * w * m := by
    rw [hm, Spec.imgMean]; field_simp
  unfold Spec.imgPopVar
  rw [← hm, e, e2]
  field_simp
  ring

theorem imgMean_sub (h w : ℕ) (f g : ℕ → ℕ → F) :
    Spec.imgMean h w (fun i j => f i j - g i j) = Spec.imgMean h w f - Spec.imgMean h w g := by
  simp [Spec.imgMean, sum_sub_distrib, sub_div]

theorem pair_pvar_id (a b : Img) (r c : ℕ) :
    (getIntImgs F id [a, b]).pvar r c = 2 * (a.px r c - b.px r c) ^ 2 := by
  rw [pvar_id]; simp [pxs]; ring

end Emva
