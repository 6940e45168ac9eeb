import Verif.Props.C81

/-!
C91: the mean and the temporal variance measured on a pair of images are close to their expected values, the closer the more
pixels there are.
-/
set_option autoImplicit false
namespace Emva
open Spec Data Finset MeasureTheory ProbabilityTheory
variable {Ω : Type*} [MeasurableSpace Ω] {μ : Measure Ω} [IsProbabilityMeasure μ]
variable {M N : ℕ} {B : ℤ} {I : ℕ → Ω → Img} {m v : ℕ → ℕ → ℝ}

/-- Two images: what happens in one pixel is independent of what happens in another. -/
def Spec.PixelsIndep (μ : Measure Ω) (M N : ℕ) (I : ℕ → Ω → Img) : Prop :=
  ∀ i < M, ∀ j < N, ∀ i' < M, ∀ j' < N, (i, j) ≠ (i', j') →
    IndepFun (fun ω => (pixel I 0 i j ω, pixel I 1 i j ω)) (fun ω => (pixel I 0 i' j' ω, pixel I 1 i' j' ω)) μ

theorem chebyshev {X : Ω → ℝ} (hX : MemLp X 2 μ) {c : ℝ} (hc : 0 < c) :
    μ.real {ω | c ≤ |X ω - ∫ ω, X ω ∂μ|} ≤ Var[X; μ] / c ^ 2 := by
  have := meas_ge_le_variance_div_sq hX hc
  rw [Measure.real]
  exact ENNReal.toReal_le_of_le_ofReal (div_nonneg (variance_nonneg _ _) (sq_nonneg _)) this

theorem markov_sq {X : Ω → ℝ} (hX : MemLp X 2 μ) {c : ℝ} (hc : 0 < c) :
    μ.real {ω | c ≤ X ω ^ 2} ≤ (∫ ω, X ω ^ 2 ∂μ) / c := by
  rw [le_div_iff₀ hc, mul_comm]
  exact mul_meas_ge_le_integral_of_nonneg (ae_of_all _ fun ω => sq_nonneg (X ω)) hX.integrable_sq c

/-- C91, one point. Of a pair of images with independent pixels, whose grey values have the means `m`, the variances `v` and
differences with fourth moments up to `κ`, the probability that the recorded mean is off by `ε` or more is at most
`v̄ / (2 n ε²)`, the probability that the recorded temporal variance is off by `ε` or more at most `(κ / ε² + 2 v̄ / ε) / n`,
for `n` pixels. -/
theorem C91_point (hp : 0 < M * N) (henv : (M : ℤ) * N * B ^ 2 < 2 ^ 62) (h : Noisy μ 2 M N B I (fun _ => m) v)
    (hI : PixelsIndep μ M N I) (κ : ℝ) (hκ : ∀ i < M, ∀ j < N, ∫ ω, (pixel I 1 i j ω - pixel I 0 i j ω) ^ 4 ∂μ ≤ κ)
    (ε : ℝ) (hε : 0 < ε) :
    ∃ y s : Ω → ℝ,
      (∀ ω, seriesPoint (M * N) (temporalEntry ℝ i64 (stack I 2 ω)) = (.fin (y ω), .fin (s ω))) ∧
      ∫ ω, y ω ∂μ = imgMean M N m ∧ ∫ ω, s ω ∂μ = (1 - 1 / (M * N)) * imgMean M N v ∧
      μ.real {ω | ε ≤ |y ω - imgMean M N m|} ≤ imgMean M N v / (2 * (M * N) * ε ^ 2) ∧
      μ.real {ω | ε ≤ |s ω - (1 - 1 / (M * N)) * imgMean M N v|} ≤ (κ / ε ^ 2 + 2 * imgMean M N v / ε) / (M * N) := by
  obtain ⟨y, s, e, iy, is, xy, xs⟩ := C81_temporal hp henv (fun _ => 0) (m := m) (by simpa using h)
  simp only [add_zero, zero_div] at xy
  have hne : ((M : ℝ) * N) ≠ 0 := by exact_mod_cast hp.ne'
  have hpos : (0 : ℝ) < M * N := by exact_mod_cast hp
  obtain ⟨hM, hN⟩ := mul_ne_zero_iff.1 hne
  have ok : ∀ ω, PairOK M N B (I 0 ω) (I 1 ω) := fun ω =>
    ⟨hp, (h.shape 0 (by norm_num) ω).1, (h.shape 0 (by norm_num) ω).2, (h.shape 1 (by norm_num) ω).1,
      (h.shape 1 (by norm_num) ω).2, h.bound 0 (by norm_num) ω, h.bound 1 (by norm_num) ω, henv⟩
  have hs : ∀ ω, stack I 2 ω = [I 0 ω, I 1 ω] := fun ω => rfl
  let cy : ℕ → ℝ := fun _ => 1 / (2 * (M * N))
  let cd : ℕ → ℝ := fun l => if l = 0 then -1 else 1
  let cm : ℕ → ℝ := fun l => cd l / (M * N)
  have key : ∀ ω, y ω = form I cy (range 2) (range M) (range N) ω ∧
      s ω = ((∑ i ∈ range M, ∑ j ∈ range N, (pixel I 1 i j ω - pixel I 0 i j ω) ^ 2) / (M * N)
        - form I cm (range 2) (range M) (range N) ω ^ 2) / 2 := by
    intro ω
    have h1 := e ω
    rw [hs, C05_temporal_point ℝ M N B _ _ (ok ω), imgPopVar_eq M N hp] at h1
    have ey : (imgMean M N (fun i j => ((I 0 ω).px i j : ℝ)) + imgMean M N (fun i j => ((I 1 ω).px i j : ℝ))) / 2
        = form I cy (range 2) (range M) (range N) ω := by
      simp only [form, cy, imgMean, sum_range_succ, sum_range_zero, ← mul_sum, pixel]
      field_simp
      ring
    have em : imgMean M N (fun i j => ((I 1 ω).px i j : ℝ) - (I 0 ω).px i j) =
        form I cm (range 2) (range M) (range N) ω := by
      simp only [form, cm, cd, imgMean, sum_range_succ, sum_range_zero, ← mul_sum, pixel, sum_sub_distrib]
      simp
      field_simp
      ring
    rw [ey, em, Prod.mk.injEq, Fl.fin.injEq, Fl.fin.injEq] at h1
    exact ⟨h1.1.symm, h1.2.symm⟩
  have ly : MemLp (form I cy (range 2) (range M) (range N)) 2 μ := h.form_memLp _ subset_rfl subset_rfl subset_rfl
  have ld : MemLp (form I cm (range 2) (range M) (range N)) 2 μ := h.form_memLp _ subset_rfl subset_rfl subset_rfl
  refine ⟨y, s, e, xy, xs, ?_, ?_⟩
  · have c := chebyshev ly hε
    have fy : form I cy (range 2) (range M) (range N) = y := funext fun ω => (key ω).1.symm
    rw [h.form_var _ subset_rfl subset_rfl subset_rfl, fy, xy] at c
    refine c.trans_eq ?_
    simp only [cy, imgMean, ← mul_sum, sum_const, card_range, nsmul_eq_mul]
    field_simp
    push_cast
    ring
  · -- the mean of the squared differences
    let Z : ℕ × ℕ → Ω → ℝ := fun x ω => (pixel I 1 x.1 x.2 ω - pixel I 0 x.1 x.2 ω) ^ 2
    have bd : ∀ x ∈ range M ×ˢ range N, ∀ ω, |pixel I 1 x.1 x.2 ω - pixel I 0 x.1 x.2 ω| ≤ B := fun x hx ω => by
      simp only [mem_product, mem_range] at hx
      have b0 := h.bound 0 (by norm_num) ω x.1 hx.1 x.2 hx.2
      have b1 := h.bound 1 (by norm_num) ω x.1 hx.1 x.2 hx.2
      have c0 : (0 : ℝ) ≤ pixel I 0 x.1 x.2 ω := by rw [pixel]; exact_mod_cast b0.1
      have c1 : (0 : ℝ) ≤ pixel I 1 x.1 x.2 ω := by rw [pixel]; exact_mod_cast b1.1
      have d0 : pixel I 0 x.1 x.2 ω ≤ B := by rw [pixel]; exact_mod_cast b0.2
      have d1 : pixel I 1 x.1 x.2 ω ≤ B := by rw [pixel]; exact_mod_cast b1.2
      rw [abs_le]
      constructor <;> linarith
    have mp : ∀ x ∈ range M ×ˢ range N, ∀ l < 2, Measurable (pixel I l x.1 x.2) := fun x hx l hl => by
      simp only [mem_product, mem_range] at hx
      exact Measurable.comp (measurable_from_top (f := fun z : ℤ => (z : ℝ))) (h.meas l hl x.1 hx.1 x.2 hx.2)
    have mZ : ∀ x ∈ range M ×ˢ range N, MemLp (Z x) 2 μ := fun x hx => by
      refine MemLp.of_bound (C := (B : ℝ) ^ 2)
        (((mp x hx 1 (by norm_num)).sub (mp x hx 0 (by norm_num))).pow_const 2).aestronglyMeasurable (ae_of_all _ fun ω => ?_)
      rw [Real.norm_of_nonneg (sq_nonneg _)]
      exact sq_le_sq.2 ((bd x hx ω).trans (le_abs_self _))
    have ind : Set.Pairwise (↑(range M ×ˢ range N) : Set (ℕ × ℕ)) fun x x' => IndepFun (Z x) (Z x') μ := by
      intro x hx x' hx' hne
      simp only [coe_product, Set.mem_prod, mem_coe, mem_range] at hx hx'
      exact (hI x.1 hx.1 x.2 hx.2 x'.1 hx'.1 x'.2 hx'.2 hne).comp (φ := fun z : ℝ × ℝ => (z.2 - z.1) ^ 2)
        (ψ := fun z : ℝ × ℝ => (z.2 - z.1) ^ 2) (by fun_prop) (by fun_prop)
    have vZ : Var[∑ x ∈ range M ×ˢ range N, Z x; μ] ≤ M * N * κ := by
      rw [IndepFun.variance_sum mZ ind]
      have : ∀ x ∈ range M ×ˢ range N, Var[Z x; μ] ≤ κ := fun x hx => by
        have hx' := hx
        simp only [mem_product, mem_range] at hx'
        refine (variance_le_expectation_sq (mZ x hx).1).trans (le_trans (le_of_eq ?_) (hκ x.1 hx'.1 x.2 hx'.2))
        refine integral_congr_ae (ae_of_all _ fun ω => ?_)
        simp only [Z, Pi.pow_apply]
        ring
      refine (sum_le_sum this).trans_eq ?_
      rw [sum_const, card_product, card_range, card_range, nsmul_eq_mul]
      push_cast; rfl
    let D : Ω → ℝ := fun ω => (∑ x ∈ range M ×ˢ range N, Z x ω) / (M * N)
    have lS : MemLp (∑ x ∈ range M ×ˢ range N, Z x) 2 μ := memLp_finsetSum' _ mZ
    have fD : D = fun ω => (1 / (M * N) : ℝ) * (∑ x ∈ range M ×ˢ range N, Z x) ω := by
      funext ω; simp only [D, Finset.sum_apply]; ring
    have lD : MemLp D 2 μ := by rw [fD]; exact lS.const_mul _
    have vD : Var[D; μ] ≤ κ / (M * N) := by
      rw [fD, variance_const_mul]
      refine (mul_le_mul_of_nonneg_left vZ (sq_nonneg _)).trans_eq ?_
      field_simp
    let d : Ω → ℝ := form I cm (range 2) (range M) (range N)
    have sD : ∀ ω, s ω = (D ω - d ω ^ 2) / 2 := fun ω => by
      rw [(key ω).2]
      simp only [D, Z, d, sum_product]
    have xd : ∫ ω, d ω ^ 2 ∂μ = 2 * imgMean M N v / (M * N) := by
      rw [h.form_sq _ subset_rfl subset_rfl subset_rfl]
      simp only [cm, cd, imgMean, ← mul_sum, sum_range_succ, sum_range_zero]
      simp
      field_simp
      norm_num
    have xD : (1 - 1 / (M * N)) * imgMean M N v = (∫ ω, D ω ∂μ - ∫ ω, d ω ^ 2 ∂μ) / 2 := by
      rw [← xs, funext sD, integral_div, integral_sub (lD.integrable one_le_two) ld.integrable_sq]
    have v0 : 0 ≤ imgMean M N v := by
      refine div_nonneg (sum_nonneg fun i hi => sum_nonneg fun j hj => ?_) hpos.le
      rw [← h.var 0 (by norm_num) i (mem_range.1 hi) j (mem_range.1 hj)]; exact variance_nonneg _ _
    have κ0 : 0 ≤ κ := by
      have hM' : 0 < M := Nat.pos_of_ne_zero (by exact_mod_cast hM)
      have hN' : 0 < N := Nat.pos_of_ne_zero (by exact_mod_cast hN)
      exact le_trans (integral_nonneg fun ω => by positivity) (hκ 0 hM' 0 hN')
    by_cases hc : ∫ ω, d ω ^ 2 ∂μ < ε
    · have sub : {ω | ε ≤ |s ω - (1 - 1 / (M * N)) * imgMean M N v|} ⊆
          {ω | ε ≤ |D ω - ∫ ω, D ω ∂μ|} ∪ {ω | ε ≤ d ω ^ 2} := by
        intro ω hω
        by_contra hn
        simp only [Set.mem_union, Set.mem_setOf_eq, not_or, not_le] at hn hω
        rw [sD ω, xD] at hω
        have d0 : 0 ≤ ∫ ω, d ω ^ 2 ∂μ := integral_nonneg fun ω => sq_nonneg _
        have d1 := sq_nonneg (d ω)
        have a := abs_lt.1 hn.1
        refine absurd hω (not_le.2 (abs_lt.2 ⟨?_, ?_⟩)) <;> linarith
      have p1 := chebyshev lD hε
      have p2 := markov_sq ld hε
      refine (measureReal_mono sub).trans ((measureReal_union_le _ _).trans ?_)
      calc _ ≤ Var[D; μ] / ε ^ 2 + (∫ ω, d ω ^ 2 ∂μ) / ε := add_le_add p1 p2
        _ ≤ κ / (M * N) / ε ^ 2 + (2 * imgMean M N v / (M * N)) / ε := by rw [xd]; gcongr
        _ = _ := by field_simp
    · rw [xd, not_lt, le_div_iff₀ hpos] at hc
      refine measureReal_le_one.trans ?_
      rw [le_div_iff₀ hpos, one_mul]
      have h1 : (M : ℝ) * N ≤ 2 * imgMean M N v / ε := by rw [le_div_iff₀ hε]; linarith
      have h2 : 0 ≤ κ / ε ^ 2 := by positivity
      linarith

end Emva
