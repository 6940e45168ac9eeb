import Verif.Spec.Noise
import Verif.Lemmas.Temporal
import Mathlib.MeasureTheory.Function.L2Space

/-!
Expected values of linear forms of the grey values and of their squares.
-/
set_option autoImplicit false
namespace Emva.Spec
open MeasureTheory ProbabilityTheory Finset
variable {Ω : Type*} [MeasurableSpace Ω] {μ : Measure Ω} [IsProbabilityMeasure μ]
variable {L M N : ℕ} {B : ℤ} {I : ℕ → Ω → Img} {m : ℕ → ℕ → ℕ → ℝ} {v : ℕ → ℕ → ℝ}

theorem Noisy.memLp (h : Noisy μ L M N B I m v) {l i j : ℕ} (hl : l < L) (hi : i < M) (hj : j < N) :
    MemLp (pixel I l i j) 2 μ := by
  refine MemLp.of_bound (C := (B : ℝ)) ?_ (ae_of_all _ fun ω => ?_)
  · exact (Measurable.comp (measurable_from_top (f := fun z : ℤ => (z : ℝ))) (h.meas l hl i hi j hj)).aestronglyMeasurable
  · have := h.bound l hl ω i hi j hj
    rw [pixel, Real.norm_eq_abs, abs_of_nonneg (by exact_mod_cast this.1)]
    exact_mod_cast this.2

/-- the sum of the grey values of some pixels in some images, with a weight for each image -/
def form (I : ℕ → Ω → Img) (c : ℕ → ℝ) (A S T : Finset ℕ) (ω : Ω) : ℝ :=
  ∑ l ∈ A, ∑ i ∈ S, ∑ j ∈ T, c l * pixel I l i j ω

theorem form_eq (I : ℕ → Ω → Img) (c : ℕ → ℝ) (A S T : Finset ℕ) :
    form I c A S T = fun ω => ∑ k ∈ A ×ˢ S ×ˢ T, c k.1 * pixel I k.1 k.2.1 k.2.2 ω := by
  funext ω
  simp only [form, sum_product]

section
variable (h : Noisy μ L M N B I m v) (c : ℕ → ℝ) {A S T : Finset ℕ} (hA : A ⊆ range L) (hS : S ⊆ range M) (hT : T ⊆ range N)
include h hA hS hT

theorem Noisy.mem_term : ∀ k ∈ A ×ˢ S ×ˢ T, MemLp (fun ω => c k.1 * pixel I k.1 k.2.1 k.2.2 ω) 2 μ := by
  intro k hk
  simp only [mem_product] at hk
  exact (h.memLp (mem_range.1 (hA hk.1)) (mem_range.1 (hS hk.2.1)) (mem_range.1 (hT hk.2.2))).const_mul _

theorem Noisy.form_memLp : MemLp (form I c A S T) 2 μ := by
  rw [form_eq]
  exact memLp_finsetSum _ (h.mem_term c hA hS hT)

theorem Noisy.form_int : Integrable (form I c A S T) μ := (h.form_memLp c hA hS hT).integrable one_le_two

theorem Noisy.form_sq_int : Integrable (fun ω => form I c A S T ω ^ 2) μ := (h.form_memLp c hA hS hT).integrable_sq

theorem Noisy.form_mean : ∫ ω, form I c A S T ω ∂μ = ∑ l ∈ A, ∑ i ∈ S, ∑ j ∈ T, c l * m l i j := by
  rw [form_eq, integral_finset_sum _ fun k hk => (h.mem_term c hA hS hT k hk).integrable one_le_two]
  have e : ∑ l ∈ A, ∑ i ∈ S, ∑ j ∈ T, c l * m l i j = ∑ k ∈ A ×ˢ S ×ˢ T, c k.1 * m k.1 k.2.1 k.2.2 := by
    simp only [sum_product]
  rw [e]
  refine sum_congr rfl fun k hk => ?_
  simp only [mem_product] at hk
  rw [integral_const_mul, h.mean _ (mem_range.1 (hA hk.1)) _ (mem_range.1 (hS hk.2.1)) _ (mem_range.1 (hT hk.2.2))]

theorem Noisy.form_var : Var[form I c A S T; μ] = ∑ l ∈ A, ∑ i ∈ S, ∑ j ∈ T, c l ^ 2 * v i j := by
  rw [form_eq, variance_fun_sum' (h.mem_term c hA hS hT)]
  have e : ∑ l ∈ A, ∑ i ∈ S, ∑ j ∈ T, c l ^ 2 * v i j = ∑ k ∈ A ×ˢ S ×ˢ T, c k.1 ^ 2 * v k.2.1 k.2.2 := by
    simp only [sum_product]
  rw [e]
  refine sum_congr rfl fun k hk => ?_
  have hk' := hk
  simp only [mem_product] at hk'
  rw [sum_eq_single_of_mem k hk]
  · rw [covariance_self (h.mem_term c hA hS hT k hk).aemeasurable, variance_const_mul,
      h.var _ (mem_range.1 (hA hk'.1)) _ (mem_range.1 (hS hk'.2.1)) _ (mem_range.1 (hT hk'.2.2))]
  · intro k2 hk2 hne
    simp only [mem_product] at hk2
    rw [covariance_const_mul_left, covariance_const_mul_right,
      h.uncorrelated _ (mem_range.1 (hA hk'.1)) _ (mem_range.1 (hS hk'.2.1)) _ (mem_range.1 (hT hk'.2.2))
        _ (mem_range.1 (hA hk2.1)) _ (mem_range.1 (hS hk2.2.1)) _ (mem_range.1 (hT hk2.2.2)) (fun e => hne (by
          rw [Prod.ext_iff, Prod.ext_iff] at e ⊢; exact ⟨e.1.symm, e.2.1.symm, e.2.2.symm⟩)), mul_zero, mul_zero]

/-- the expected square: the square of the expected value plus the variance -/
theorem Noisy.form_sq : ∫ ω, form I c A S T ω ^ 2 ∂μ =
    (∑ l ∈ A, ∑ i ∈ S, ∑ j ∈ T, c l * m l i j) ^ 2 + ∑ l ∈ A, ∑ i ∈ S, ∑ j ∈ T, c l ^ 2 * v i j := by
  have := variance_eq_sub (h.form_memLp c hA hS hT)
  rw [h.form_var c hA hS hT, h.form_mean c hA hS hT] at this
  simp only [Pi.pow_apply] at this
  linarith

end

/-! ### variances as differences of squares -/

theorem sq_dev (n : ℕ) (hn : 0 < n) (f : ℕ → ℝ) : ∑ j ∈ range n, (f j - (∑ j ∈ range n, f j) / n) ^ 2 =
    ∑ j ∈ range n, f j ^ 2 - (∑ j ∈ range n, f j) ^ 2 / n := by
  have hn0 : (n : ℝ) ≠ 0 := by exact_mod_cast hn.ne'
  simp only [sub_sq, sum_add_distrib, sum_sub_distrib, sum_const, card_range, nsmul_eq_mul, ← sum_mul, ← mul_sum]
  field_simp
  ring

theorem columnVar_eq (M N : ℕ) (hM : 0 < M) (hN : 0 < N) (f : ℕ → ℕ → ℝ) : columnVar M N f =
    (∑ j ∈ range N, ((∑ i ∈ range M, f i j) / M) ^ 2) / N - imgMean M N f ^ 2 := by
  have hM0 : (M : ℝ) ≠ 0 := by exact_mod_cast hM.ne'
  have hN0 : (N : ℝ) ≠ 0 := by exact_mod_cast hN.ne'
  have e : imgMean M N f = (∑ j ∈ range N, (∑ i ∈ range M, f i j) / M) / N := by
    rw [imgMean, sum_comm, ← sum_div]; field_simp
  rw [columnVar, e, sq_dev N hN]
  field_simp

theorem rowVar_eq (M N : ℕ) (hM : 0 < M) (hN : 0 < N) (f : ℕ → ℕ → ℝ) : rowVar M N f =
    (∑ i ∈ range M, ((∑ j ∈ range N, f i j) / N) ^ 2) / M - imgMean M N f ^ 2 := by
  have hM0 : (M : ℝ) ≠ 0 := by exact_mod_cast hM.ne'
  have hN0 : (N : ℝ) ≠ 0 := by exact_mod_cast hN.ne'
  have e : imgMean M N f = (∑ i ∈ range M, (∑ j ∈ range N, f i j) / N) / M := by
    rw [imgMean, ← sum_div]; field_simp
  rw [rowVar, e, sq_dev M hM]
  field_simp

theorem imgSampleVar_eq (M N : ℕ) (hp : 2 ≤ M * N) (f : ℕ → ℕ → ℝ) : imgSampleVar M N f =
    (∑ i ∈ range M, ∑ j ∈ range N, f i j ^ 2 - M * N * imgMean M N f ^ 2) / (M * N - 1) := by
  have h := imgPopVar_eq M N (by omega) f
  have hne : ((M : ℝ) * N) ≠ 0 := by exact_mod_cast (by omega : M * N ≠ 0)
  obtain ⟨hM, hN⟩ := mul_ne_zero_iff.1 hne
  rw [imgPopVar] at h
  rw [imgSampleVar]
  congr 1
  field_simp at h
  linarith

theorem sampleVar_eq (L : ℕ) (hL : 0 < L) (f : ℕ → ℝ) : sampleVar ((List.range L).map f) =
    (∑ l ∈ range L, f l ^ 2 - (∑ l ∈ range L, f l) ^ 2 / L) / (L - 1) := by
  have e : ∀ g : ℕ → ℝ, ((List.range L).map g).sum = ∑ l ∈ range L, g l := fun g => by
    rw [← List.sum_toFinset _ List.nodup_range, List.toFinset_range]
  rw [sampleVar, mean, List.map_map, e, e, List.length_map, List.length_range, ← sq_dev L hL]
  rfl

end Emva.Spec
