import Verif.Model.Camera
import Verif.Spec.CameraNoise
import Mathlib.Probability.Moments.Variance
import Mathlib.Probability.Independence.Integration
import Mathlib.Probability.HasLaw
import Mathlib.MeasureTheory.Integral.IntervalIntegral.Basic
import Mathlib.MeasureTheory.Constructions.BorelSpace.Order
import Mathlib.MeasureTheory.Function.Floor
import Mathlib.MeasureTheory.Integral.Prod
import Mathlib.Tactic.Linarith

/-!
The quantisation of the simulated camera: `rint(x + u)` with `u` uniform in [-0.5, 0.5).
-/
set_option autoImplicit false
namespace Emva.Cam
open MeasureTheory ProbabilityTheory Set Spec

theorem rint_of_lt {y : ℝ} {n : ℤ} (h1 : n - 1 / 2 < y) (h2 : y < n + 1 / 2) : rint y = n := by
  unfold rint
  by_cases h : (n : ℝ) ≤ y
  · have hf : ⌊y⌋ = n := Int.floor_eq_iff.2 ⟨h, by linarith⟩
    simp only [hf]
    rw [if_pos (by linarith)]
  · have hf : ⌊y⌋ = n - 1 := Int.floor_eq_iff.2 ⟨by push_cast; linarith, by push_cast; linarith⟩
    simp only [hf]
    push_cast
    rw [if_neg (by linarith), if_pos (by linarith)]
    ring

theorem rint_err_real (y : ℝ) : |(rint y : ℝ) - y| ≤ 1 / 2 := by
  have h1 := Int.floor_le y
  have h2 := Int.lt_floor_add_one y
  unfold rint
  rw [abs_le]
  simp only
  split
  · constructor <;> linarith
  · split
    · push_cast
      constructor <;> linarith
    · have : y - ⌊y⌋ = 1 / 2 := le_antisymm (not_lt.1 (by assumption)) (not_lt.1 (by assumption))
      split
      · constructor <;> linarith
      · push_cast
        constructor <;> linarith

theorem measurable_rint : Measurable (rint : ℝ → ℤ) := by
  have hf : Measurable (fun y : ℝ => ⌊y⌋) := Int.measurable_floor
  have hd : Measurable (fun y : ℝ => y - ⌊y⌋) := measurable_id.sub (measurable_from_top.comp hf)
  have h1 : Measurable (fun y : ℝ => ⌊y⌋ + 1) := (measurable_from_top (f := fun n : ℤ => n + 1)).comp hf
  refine Measurable.ite (measurableSet_lt hd measurable_const) hf
    (Measurable.ite (measurableSet_lt measurable_const hd) h1 (Measurable.ite ?_ hf h1))
  exact hf (measurableSet_eq_fun measurable_from_top measurable_const : MeasurableSet {n : ℤ | n % 2 = 0})

theorem measurable_rintR : Measurable (fun y : ℝ => (rint y : ℝ)) :=
  (measurable_from_top (f := fun n : ℤ => (n : ℝ))).comp measurable_rint

/-- a function of the quantised value, averaged over the dither: the two neighbouring integers, weighted by the distance -/
theorem quant_integral (g : ℤ → ℝ) (x : ℝ) :
    ∫ u, g (rint (x + u)) ∂uniformLaw = (1 - Int.fract x) * g ⌊x⌋ + Int.fract x * g (⌊x⌋ + 1) := by
  have f0 := Int.fract_nonneg x
  have f1 := Int.fract_lt_one x
  have fx : x = ⌊x⌋ + Int.fract x := (Int.floor_add_fract x).symm
  set f := Int.fract x
  set n := ⌊x⌋
  have e1 : ∀ u ∈ Ioo (-1 / 2 : ℝ) (1 / 2 - f), g (rint (x + u)) = g n := fun u hu => by
    rw [rint_of_lt (n := n)] <;> [linarith [hu.1]; linarith [hu.2]]
  have e2 : ∀ u ∈ Ioo (1 / 2 - f : ℝ) (1 / 2), g (rint (x + u)) = g (n + 1) := fun u hu => by
    rw [rint_of_lt (n := n + 1)] <;> push_cast <;> [linarith [hu.1]; linarith [hu.2]]
  have i1 : IntegrableOn (fun u => g (rint (x + u))) (Ioo (-1 / 2 : ℝ) (1 / 2 - f)) :=
    (integrableOn_const (C := g n) (by simp)).congr_fun (fun u hu => (e1 u hu).symm) measurableSet_Ioo
  have i2 : IntegrableOn (fun u => g (rint (x + u))) (Ioo (1 / 2 - f : ℝ) (1 / 2)) :=
    (integrableOn_const (C := g (n + 1)) (by simp)).congr_fun (fun u hu => (e2 u hu).symm) measurableSet_Ioo
  have v1 : ∫ u in Ioo (-1 / 2 : ℝ) (1 / 2 - f), g (rint (x + u)) = (1 - f) * g n := by
    rw [setIntegral_congr_fun measurableSet_Ioo e1]
    simp
    left
    rw [max_eq_left (by linarith)]
    ring
  have v2 : ∫ u in Ioo (1 / 2 - f : ℝ) (1 / 2), g (rint (x + u)) = f * g (n + 1) := by
    rw [setIntegral_congr_fun measurableSet_Ioo e2]
    simp
    left
    exact f0
  rw [← v1, ← v2, ← integral_Ico_eq_integral_Ioo, ← integral_Ico_eq_integral_Ioo, uniformLaw,
    ← setIntegral_union (Ico_disjoint_Ico_same) measurableSet_Ico
      ((integrableOn_Ico_iff_integrableOn_Ioo).2 i1) ((integrableOn_Ico_iff_integrableOn_Ioo).2 i2),
    Ico_union_Ico_eq_Ico (by linarith) (by linarith)]

/-- the error of the quantiser has mean zero -/
theorem quant_mean (x : ℝ) : ∫ u, ((rint (x + u) : ℝ) - x) ∂uniformLaw = 0 := by
  rw [quant_integral (fun n => (n : ℝ) - x) x]
  have := Int.floor_add_fract x
  have h : (⌊x⌋ : ℝ) - x = - Int.fract x := by linarith
  push_cast
  rw [show (⌊x⌋ : ℝ) + 1 - x = 1 - Int.fract x by linarith, h]
  ring

/-- and the variance `f (1 - f)` -/
theorem quant_var (x : ℝ) : ∫ u, ((rint (x + u) : ℝ) - x) ^ 2 ∂uniformLaw = Int.fract x * (1 - Int.fract x) := by
  rw [quant_integral (fun n => ((n : ℝ) - x) ^ 2) x]
  have := Int.floor_add_fract x
  have h : (⌊x⌋ : ℝ) - x = - Int.fract x := by linarith
  push_cast
  rw [show (⌊x⌋ : ℝ) + 1 - x = 1 - Int.fract x by linarith, h]
  ring

variable {Ω : Type*} [MeasurableSpace Ω] {μ : Measure Ω} [IsProbabilityMeasure μ]

/-- the expected value of a function of two independent numbers -/
theorem integral_indep {X Q : Ω → ℝ} {ν : Measure ℝ} [IsProbabilityMeasure ν] (hX : AEMeasurable X μ) (hQ : HasLaw Q ν μ) (hi : IndepFun X Q μ)
    {G : ℝ × ℝ → ℝ} (hG : Measurable G) (hint : Integrable (fun ω => G (X ω, Q ω)) μ) :
    ∫ ω, G (X ω, Q ω) ∂μ = ∫ ω, ∫ u, G (X ω, u) ∂ν ∂μ := by
  have hp : AEMeasurable (fun ω => (X ω, Q ω)) μ := hX.prodMk hQ.aemeasurable
  have hm : μ.map (fun ω => (X ω, Q ω)) = (μ.map X).prod ν := by
    rw [(indepFun_iff_map_prod_eq_prod_map_map hX hQ.aemeasurable).1 hi, hQ.map_eq]
  have : IsProbabilityMeasure (μ.map X) := Measure.isProbabilityMeasure_map hX
  have hI : Integrable G ((μ.map X).prod ν) := by
    rw [← hm]
    exact (integrable_map_measure hG.aestronglyMeasurable hp).2 hint
  calc ∫ ω, G (X ω, Q ω) ∂μ = ∫ z, G z ∂(μ.map fun ω => (X ω, Q ω)) :=
        (integral_map hp hG.aestronglyMeasurable).symm
    _ = ∫ x, ∫ u, G (x, u) ∂ν ∂(μ.map X) := by rw [hm, integral_prod _ hI]
    _ = ∫ ω, ∫ u, G (X ω, u) ∂ν ∂μ :=
        integral_map hX hG.stronglyMeasurable.integral_prod_right'.aestronglyMeasurable

section
variable {X Q : Ω → ℝ} (hX : MemLp X 2 μ) (hQ : HasLaw Q uniformLaw μ) (hi : IndepFun X Q μ)
include hX hQ hi

omit hX hi [IsProbabilityMeasure μ] in
theorem quant_bound : ∀ᵐ ω ∂μ, |(rint (X ω + Q ω) : ℝ) - X ω| ≤ 1 := by
  have : ∀ᵐ u ∂uniformLaw, u ∈ Ico (-1 / 2 : ℝ) (1 / 2) := ae_restrict_mem measurableSet_Ico
  have := (hQ.ae_iff (p := fun u => u ∈ Ico (-1 / 2 : ℝ) (1 / 2)) measurableSet_Ico.mem).2 this
  filter_upwards [this] with ω h
  have h1 := abs_le.1 (rint_err_real (X ω + Q ω))
  rw [abs_le]
  constructor <;> linarith [h.1, h.2]

/-- the dithered quantiser keeps the expected value and adds the expected value of `f (1 - f)` to the variance -/
theorem dither : MemLp (fun ω => (rint (X ω + Q ω) : ℝ)) 2 μ ∧
    ∫ ω, (rint (X ω + Q ω) : ℝ) ∂μ = ∫ ω, X ω ∂μ ∧
    Var[fun ω => (rint (X ω + Q ω) : ℝ); μ] = Var[X; μ] + ∫ ω, Int.fract (X ω) * (1 - Int.fract (X ω)) ∂μ := by
  have hXm := hX.1.aemeasurable
  have hRm : AEMeasurable (fun ω => (rint (X ω + Q ω) : ℝ)) μ :=
    measurable_rintR.comp_aemeasurable (hXm.add hQ.aemeasurable)
  have hb := quant_bound (X := X) hQ
  let e : Ω → ℝ := fun ω => (rint (X ω + Q ω) : ℝ) - X ω
  have he : MemLp e 2 μ := MemLp.of_bound (hRm.sub hXm).aestronglyMeasurable 1 hb
  have hR : MemLp (fun ω => (rint (X ω + Q ω) : ℝ)) 2 μ := by
    have : (fun ω => (rint (X ω + Q ω) : ℝ)) = X + e := by funext ω; simp [e]
    rw [this]
    exact hX.add he
  have hG : Measurable fun z : ℝ × ℝ => (rint (z.1 + z.2) : ℝ) - z.1 :=
    (measurable_rintR.comp (measurable_fst.add measurable_snd)).sub measurable_fst
  have m0 : ∫ ω, e ω ∂μ = 0 := by
    rw [integral_indep hXm hQ hi (G := fun z : ℝ × ℝ => (rint (z.1 + z.2) : ℝ) - z.1) hG (he.integrable one_le_two)]
    simp only [quant_mean, integral_zero]
  have m2 : ∫ ω, e ω ^ 2 ∂μ = ∫ ω, Int.fract (X ω) * (1 - Int.fract (X ω)) ∂μ := by
    rw [integral_indep hXm hQ hi (G := fun z : ℝ × ℝ => ((rint (z.1 + z.2) : ℝ) - z.1) ^ 2) (hG.pow_const 2)
      he.integrable_sq]
    simp only [quant_var]
  have m1 : ∫ ω, X ω * e ω ∂μ = 0 := by
    rw [integral_indep hXm hQ hi (G := fun z : ℝ × ℝ => z.1 * ((rint (z.1 + z.2) : ℝ) - z.1)) (measurable_fst.mul hG)
      (hX.integrable_mul he)]
    simp only [integral_const_mul, quant_mean, mul_zero, integral_zero]
  have hXe : (fun ω => (rint (X ω + Q ω) : ℝ)) = X + e := by funext ω; simp [e]
  refine ⟨hR, ?_, ?_⟩
  · rw [hXe]
    rw [integral_add' (hX.integrable one_le_two) (he.integrable one_le_two), m0, add_zero]
  · rw [hXe, variance_add hX he, covariance_eq_sub hX he]
    have : ∫ ω, (X * e) ω ∂μ = 0 := m1
    rw [this, m0, variance_eq_sub he]
    have : ∫ ω, (e ^ 2) ω ∂μ = _ := m2
    rw [this, m0]
    ring

end

/-- the added variance is at most 1/4 -/
theorem fract_var_bound (x : ℝ) : 0 ≤ Int.fract x * (1 - Int.fract x) ∧ Int.fract x * (1 - Int.fract x) ≤ 1 / 4 := by
  have f0 := Int.fract_nonneg x
  have f1 := Int.fract_lt_one x
  constructor
  · exact mul_nonneg f0 (by linarith)
  · nlinarith [sq_nonneg (Int.fract x - 1 / 2)]

end Emva.Cam
