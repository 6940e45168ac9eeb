import Verif.Lemmas.Quantiser
import Verif.Lemmas.Laws
import Mathlib.Algebra.QuadraticDiscriminant
import Mathlib.MeasureTheory.Function.L2Space

/-!
Expected value and variance of clipped random numbers, and the moments of the number of electrons of a pixel.
-/
set_option autoImplicit false
namespace Emva.Cam
open MeasureTheory ProbabilityTheory Set Spec
open scoped NNReal

theorem clip_lip (x y lo hi : ℝ) : |clip x lo hi - clip y lo hi| ≤ |x - y| := by
  unfold clip
  refine (abs_min_sub_min_le_max _ _ _ _).trans ?_
  rw [sub_self, abs_zero, max_eq_left (abs_nonneg _)]
  refine (abs_max_sub_max_le_max _ _ _ _).trans ?_
  rw [sub_self, abs_zero, max_eq_left (abs_nonneg _)]

theorem clip_of_mem {a lo hi : ℝ} (h1 : lo ≤ a) (h2 : a ≤ hi) : clip a lo hi = a := by
  unfold clip
  rw [max_eq_left h1, min_eq_left h2]

theorem clip_near {a lo hi : ℝ} (h1 : lo ≤ a) (h2 : a ≤ hi) (x : ℝ) : |clip x lo hi - a| ≤ |x - a| := by
  have h := clip_lip x a lo hi
  have e : clip a lo hi = a := clip_of_mem h1 h2
  rwa [e] at h

theorem measurable_clip (lo hi : ℝ) : Measurable fun x => clip x lo hi :=
  (measurable_id.max measurable_const).min measurable_const

/-- clipping at a distance `δ` from `a` changes a number by at most `(x - a)² / (4 δ)` -/
theorem clip_diff {a lo hi δ : ℝ} (hδ : 0 < δ) (h1 : lo + δ ≤ a) (h2 : a + δ ≤ hi) (x : ℝ) :
    |clip x lo hi - x| ≤ (x - a) ^ 2 / (4 * δ) := by
  rw [le_div_iff₀ (by linarith)]
  by_cases hx : x ≤ hi
  · by_cases hl : lo ≤ x
    · rw [clip_of_mem hl hx, sub_self, abs_zero, zero_mul]
      exact sq_nonneg _
    · push Not at hl
      have : clip x lo hi = lo := by unfold clip; rw [max_eq_right hl.le, min_eq_left (by linarith)]
      rw [this, abs_of_pos (by linarith)]
      nlinarith [sq_nonneg (a - x - 2 * δ)]
  · push Not at hx
    have : clip x lo hi = hi := by unfold clip; rw [min_eq_right]; exact hx.le.trans (le_max_left _ _)
    rw [this, abs_of_neg (by linarith)]
    nlinarith [sq_nonneg (x - a - 2 * δ)]

theorem clip_int (z lo hi : ℤ) : ((clip z lo hi : ℤ) : ℝ) = clip (z : ℝ) lo hi := by
  simp [clip]

variable {Ω : Type*} [MeasurableSpace Ω] {μ : Measure Ω} [IsProbabilityMeasure μ]

/-- the variance is the smallest mean square distance from a number -/
theorem var_le (X : Ω → ℝ) (hX : MemLp X 2 μ) (a : ℝ) : Var[X; μ] ≤ ∫ ω, (X ω - a) ^ 2 ∂μ := by
  have h := variance_le_expectation_sq (μ := μ) (X := fun ω => X ω - a) (hX.1.sub aestronglyMeasurable_const)
  rw [variance_sub_const hX.1 a] at h
  exact h

theorem memLp_lip {X : Ω → ℝ} (hX : MemLp X 2 μ) {φ : ℝ → ℝ} (hm : Measurable φ) (hl : ∀ x y, |φ x - φ y| ≤ |x - y|) :
    MemLp (fun ω => φ (X ω)) 2 μ := by
  have h := (hX.norm.add (memLp_const ‖φ 0‖)).mono' (f := fun ω => φ (X ω)) (hm.comp_aemeasurable hX.1.aemeasurable).aestronglyMeasurable
    (ae_of_all _ fun ω => ?_)
  · exact h
  · have := hl (X ω) 0
    rw [sub_zero] at this
    simp only [Pi.add_apply, Real.norm_eq_abs]
    calc |φ (X ω)| = |(φ (X ω) - φ 0) + φ 0| := by rw [sub_add_cancel]
      _ ≤ |φ (X ω) - φ 0| + |φ 0| := abs_add_le _ _
      _ ≤ |X ω| + |φ 0| := by linarith

/-- a contraction does not increase the variance -/
theorem var_lip {X : Ω → ℝ} (hX : MemLp X 2 μ) {φ : ℝ → ℝ} (hm : Measurable φ) (hl : ∀ x y, |φ x - φ y| ≤ |x - y|) :
    Var[fun ω => φ (X ω); μ] ≤ Var[X; μ] := by
  have hφ := memLp_lip hX hm hl
  refine (var_le _ hφ (φ (∫ ω, X ω ∂μ))).trans ?_
  rw [variance_eq_integral hX.1.aemeasurable]
  refine integral_mono (hφ.sub (memLp_const _)).integrable_sq (hX.sub (memLp_const _)).integrable_sq fun ω => ?_
  exact sq_le_sq.2 (hl _ _)

theorem clip_var {X : Ω → ℝ} (hX : MemLp X 2 μ) (hi : ℝ) : Var[fun ω => clip (X ω) 0 hi; μ] ≤ Var[X; μ] :=
  var_lip (φ := fun x => clip x 0 hi) hX (measurable_clip 0 hi) fun x y => clip_lip x y 0 hi

theorem clip_memLp {X : Ω → ℝ} (hX : MemLp X 2 μ) (hi : ℝ) : MemLp (fun ω => clip (X ω) 0 hi) 2 μ :=
  memLp_lip (φ := fun x => clip x 0 hi) hX (measurable_clip 0 hi) fun x y => clip_lip x y 0 hi

theorem cauchy_schwarz {A B : Ω → ℝ} (hA : MemLp A 2 μ) (hB : MemLp B 2 μ) :
    ∫ ω, A ω * B ω ∂μ ≤ √(∫ ω, A ω ^ 2 ∂μ) * √(∫ ω, B ω ^ 2 ∂μ) := by
  have i1 := hA.integrable_sq
  have i2 := hB.integrable_sq
  have i3 : Integrable (fun ω => A ω * B ω) μ := hA.integrable_mul hB
  have hd : discrim (∫ ω, B ω ^ 2 ∂μ) (-2 * ∫ ω, A ω * B ω ∂μ) (∫ ω, A ω ^ 2 ∂μ) ≤ 0 := by
    refine discrim_le_zero fun t => ?_
    have : ∫ ω, (A ω - t * B ω) ^ 2 ∂μ =
        (∫ ω, B ω ^ 2 ∂μ) * (t * t) + (-2 * ∫ ω, A ω * B ω ∂μ) * t + ∫ ω, A ω ^ 2 ∂μ := by
      have e : (fun ω => (A ω - t * B ω) ^ 2) = fun ω => (t * t) * B ω ^ 2 + ((-2 * t) * (A ω * B ω) + A ω ^ 2) := by
        funext ω; ring
      have j : Integrable (fun ω => (-2 * t) * (A ω * B ω) + A ω ^ 2) μ := (i3.const_mul _).add i1
      rw [e, integral_add (i2.const_mul _) j, integral_add (i3.const_mul _) i1, integral_const_mul, integral_const_mul]
      ring
    rw [← this]
    exact integral_nonneg fun ω => sq_nonneg _
  have n1 : 0 ≤ ∫ ω, A ω ^ 2 ∂μ := integral_nonneg fun ω => sq_nonneg _
  rw [← Real.sqrt_mul n1]
  refine Real.le_sqrt_of_sq_le ?_
  unfold discrim at hd
  linarith

theorem triangle {A B : Ω → ℝ} (hA : MemLp A 2 μ) (hB : MemLp B 2 μ) :
    √(∫ ω, (A ω + B ω) ^ 2 ∂μ) ≤ √(∫ ω, A ω ^ 2 ∂μ) + √(∫ ω, B ω ^ 2 ∂μ) := by
  have i1 := hA.integrable_sq
  have i2 := hB.integrable_sq
  have i3 : Integrable (fun ω => A ω * B ω) μ := hA.integrable_mul hB
  have n1 : 0 ≤ ∫ ω, A ω ^ 2 ∂μ := integral_nonneg fun ω => sq_nonneg _
  have n2 : 0 ≤ ∫ ω, B ω ^ 2 ∂μ := integral_nonneg fun ω => sq_nonneg _
  rw [Real.sqrt_le_left (by positivity)]
  have e : (fun ω => (A ω + B ω) ^ 2) = fun ω => A ω ^ 2 + (2 * (A ω * B ω) + B ω ^ 2) := by funext ω; ring
  have j : Integrable (fun ω => 2 * (A ω * B ω) + B ω ^ 2) μ := (i3.const_mul _).add i2
  rw [e, integral_add i1 j, integral_add (i3.const_mul _) i2, integral_const_mul, add_sq, Real.sq_sqrt n1, Real.sq_sqrt n2]
  linarith [cauchy_schwarz hA hB]

/-- standard deviations of two random numbers differ at most by the root of their mean square distance -/
theorem sd_triangle {X Y : Ω → ℝ} (hX : MemLp X 2 μ) (hY : MemLp Y 2 μ) :
    √(Var[X; μ]) ≤ √(Var[Y; μ]) + √(∫ ω, (Y ω - X ω) ^ 2 ∂μ) := by
  have h1 := var_le X hX (∫ ω, Y ω ∂μ)
  have h2 := triangle (A := fun ω => Y ω - ∫ ω, Y ω ∂μ) (B := fun ω => X ω - Y ω) (hY.sub (memLp_const _)) (hX.sub hY)
  rw [variance_eq_integral hY.1.aemeasurable]
  have e2 : ∀ ω, (Y ω - X ω) ^ 2 = (X ω - Y ω) ^ 2 := fun ω => by ring
  simp only [e2]
  refine (Real.sqrt_le_sqrt h1).trans ?_
  refine le_of_eq_of_le ?_ h2
  congr 2
  funext ω
  ring

theorem mean_close {A B W : Ω → ℝ} {δ w : ℝ} (iA : Integrable A μ) (iB : Integrable B μ) (iW : Integrable W μ)
    (hl : ∀ ω, |A ω - B ω| ≤ W ω / (4 * δ)) (hw : ∫ ω, W ω ∂μ ≤ w) (hδ : 0 < δ) :
    |∫ ω, A ω ∂μ - ∫ ω, B ω ∂μ| ≤ w / (4 * δ) := by
  rw [← integral_sub iA iB]
  refine (abs_integral_le_integral_abs).trans ?_
  refine (integral_mono (iA.sub iB).abs (iW.div_const _) hl).trans ?_
  rw [integral_div]
  gcongr

theorem root_close {A B W : Ω → ℝ} {δ w : ℝ} (iA : MemLp A 2 μ) (iB : MemLp B 2 μ) (iW : Integrable (fun ω => W ω ^ 2) μ)
    (hl : ∀ ω, |A ω - B ω| ≤ W ω / (4 * δ)) (hw : ∫ ω, W ω ^ 2 ∂μ ≤ w) (hδ : 0 < δ) :
    √(∫ ω, (A ω - B ω) ^ 2 ∂μ) ≤ √w / (4 * δ) := by
  have h1 : ∫ ω, (A ω - B ω) ^ 2 ∂μ ≤ w / (4 * δ) ^ 2 := by
    refine (integral_mono (iA.sub iB).integrable_sq (iW.div_const ((4 * δ) ^ 2)) fun ω => ?_).trans ?_
    · have := pow_le_pow_left₀ (abs_nonneg _) (hl ω) 2
      rw [sq_abs, div_pow] at this
      exact this
    · rw [integral_div]
      gcongr
  refine (Real.sqrt_le_sqrt h1).trans ?_
  rw [Real.sqrt_div' _ (by positivity), Real.sqrt_sq (by positivity)]

theorem mean_sq {X : Ω → ℝ} (hX : MemLp X 2 μ) (a : ℝ) :
    ∫ ω, (X ω - a) ^ 2 ∂μ = Var[X; μ] + (∫ ω, X ω ∂μ - a) ^ 2 := by
  have h1 := variance_eq_sub (hX.sub (memLp_const a))
  have h2 : Var[X - fun _ => a; μ] = Var[X; μ] := variance_sub_const hX.1 a
  have h3 : ∫ ω, (X - fun _ => a : Ω → ℝ) ω ∂μ = ∫ ω, X ω ∂μ - a := by
    simp only [Pi.sub_apply]
    rw [integral_sub (hX.integrable one_le_two) (integrable_const _)]; simp
  rw [h2, h3] at h1
  rw [h1]
  simp

/-- fourth moment of a sum of independent numbers with mean zero -/
theorem fourth_add {A B : Ω → ℝ} (mA : AEMeasurable A μ) (mB : AEMeasurable B μ) (hi : IndepFun A B μ)
    (iA : Integrable (fun ω => A ω ^ 4) μ) (iB : Integrable (fun ω => B ω ^ 4) μ)
    (zA : ∫ ω, A ω ∂μ = 0) (zB : ∫ ω, B ω ∂μ = 0) :
    Integrable (fun ω => (A ω + B ω) ^ 4) μ ∧ ∫ ω, (A ω + B ω) ^ 4 ∂μ =
      ∫ ω, A ω ^ 4 ∂μ + 6 * ((∫ ω, A ω ^ 2 ∂μ) * ∫ ω, B ω ^ 2 ∂μ) + ∫ ω, B ω ^ 4 ∂μ := by
  have low : ∀ {C : Ω → ℝ}, AEMeasurable C μ → Integrable (fun ω => C ω ^ 4) μ →
      Integrable C μ ∧ Integrable (fun ω => C ω ^ 2) μ ∧ Integrable (fun ω => C ω ^ 3) μ := by
    intro C mC iC
    have j : Integrable (fun ω => 1 + C ω ^ 4) μ := (integrable_const _).add iC
    refine ⟨j.mono' mC.aestronglyMeasurable (ae_of_all _ fun ω => ?_),
      j.mono' (mC.pow_const 2).aestronglyMeasurable (ae_of_all _ fun ω => ?_),
      j.mono' (mC.pow_const 3).aestronglyMeasurable (ae_of_all _ fun ω => ?_)⟩
    · rw [Real.norm_eq_abs, abs_le]
      constructor <;> nlinarith [sq_nonneg (C ω ^ 2 - 1), sq_nonneg (C ω - 1), sq_nonneg (C ω + 1)]
    · rw [Real.norm_eq_abs, abs_le]
      constructor <;> nlinarith [sq_nonneg (C ω ^ 2 - 1), sq_nonneg (C ω ^ 2)]
    · rw [Real.norm_eq_abs, abs_le]
      constructor <;> nlinarith [sq_nonneg (C ω ^ 2 - C ω), sq_nonneg (C ω ^ 2 + C ω), sq_nonneg (C ω ^ 2 - 1), sq_nonneg (C ω - 1)]
  obtain ⟨a1, a2, a3⟩ := low mA iA
  obtain ⟨b1, b2, b3⟩ := low mB iB
  have hp : ∀ k l : ℕ, IndepFun (fun ω => A ω ^ k) (fun ω => B ω ^ l) μ := fun k l =>
    hi.comp (measurable_id.pow_const k) (measurable_id.pow_const l)
  have h31 : IndepFun (fun ω => A ω ^ 3) B μ := by simpa using hp 3 1
  have h13 : IndepFun A (fun ω => B ω ^ 3) μ := by simpa using hp 1 3
  have i31 : Integrable (fun ω => A ω ^ 3 * B ω) μ := h31.integrable_mul a3 b1
  have i22 : Integrable (fun ω => A ω ^ 2 * B ω ^ 2) μ := (hp 2 2).integrable_mul a2 b2
  have i13 : Integrable (fun ω => A ω * B ω ^ 3) μ := h13.integrable_mul a1 b3
  have v31 : ∫ ω, A ω ^ 3 * B ω ∂μ = 0 := by
    rw [h31.integral_fun_mul_eq_mul_integral a3.1 b1.1, zB, mul_zero]
  have v13 : ∫ ω, A ω * B ω ^ 3 ∂μ = 0 := by
    rw [h13.integral_fun_mul_eq_mul_integral a1.1 b3.1, zA, zero_mul]
  have v22 : ∫ ω, A ω ^ 2 * B ω ^ 2 ∂μ = (∫ ω, A ω ^ 2 ∂μ) * ∫ ω, B ω ^ 2 ∂μ :=
    (hp 2 2).integral_fun_mul_eq_mul_integral a2.1 b2.1
  have e : (fun ω => (A ω + B ω) ^ 4) = fun ω => A ω ^ 4 + (4 * (A ω ^ 3 * B ω) + (6 * (A ω ^ 2 * B ω ^ 2) +
      (4 * (A ω * B ω ^ 3) + B ω ^ 4))) := by funext ω; ring
  have j1 : Integrable (fun ω => 4 * (A ω * B ω ^ 3) + B ω ^ 4) μ := (i13.const_mul _).add iB
  have j2 : Integrable (fun ω => 6 * (A ω ^ 2 * B ω ^ 2) + (4 * (A ω * B ω ^ 3) + B ω ^ 4)) μ := (i22.const_mul _).add j1
  have j3 : Integrable (fun ω => 4 * (A ω ^ 3 * B ω) + (6 * (A ω ^ 2 * B ω ^ 2) + (4 * (A ω * B ω ^ 3) + B ω ^ 4))) μ :=
    (i31.const_mul _).add j2
  rw [e]
  refine ⟨iA.add j3, ?_⟩
  rw [integral_add iA j3, integral_add (i31.const_mul _) j2, integral_add (i22.const_mul _) j1,
    integral_add (i13.const_mul _) iB, integral_const_mul, integral_const_mul, integral_const_mul, v31, v13, v22]
  ring

section
variable {X Q : Ω → ℝ} {e0 ve κ : ℝ} (hX : MemLp X 2 μ) (hQ : HasLaw Q uniformLaw μ) (hi : IndepFun X Q μ)
  (K b sat top : ℝ)

/-- a random number that is clipped, scaled, quantised with dither -/
noncomputable def digital (X Q : Ω → ℝ) (K b sat : ℝ) (ω : Ω) : ℝ := (rint ((K * clip (X ω) 0 sat + b) + Q ω) : ℝ)

include hX hQ hi in
theorem digital_moments : MemLp (digital X Q K b sat) 2 μ ∧
    ∫ ω, digital X Q K b sat ω ∂μ = K * ∫ ω, clip (X ω) 0 sat ∂μ + b ∧
    K ^ 2 * Var[fun ω => clip (X ω) 0 sat; μ] ≤ Var[digital X Q K b sat; μ] ∧
    Var[digital X Q K b sat; μ] ≤ K ^ 2 * Var[fun ω => clip (X ω) 0 sat; μ] + 1 / 4 := by
  have hcm := measurable_clip 0 sat
  have hE : MemLp (fun ω => clip (X ω) 0 sat) 2 μ := clip_memLp hX sat
  let S : Ω → ℝ := fun ω => K * clip (X ω) 0 sat + b
  have hS : MemLp S 2 μ := (hE.const_mul K).add (memLp_const _)
  have vS : Var[S; μ] = K ^ 2 * Var[fun ω => clip (X ω) 0 sat; μ] := by
    rw [variance_add_const (hE.const_mul K).1, variance_const_mul]
  have mS : ∫ ω, S ω ∂μ = K * ∫ ω, clip (X ω) 0 sat ∂μ + b := by
    rw [integral_add ((hE.const_mul K).integrable one_le_two) (integrable_const _), integral_const_mul]
    simp
  have indS : IndepFun S Q μ :=
    hi.comp (φ := fun x => K * clip x 0 sat + b) ((hcm.const_mul _).add_const _) measurable_id
  obtain ⟨hZ, mZ, vZ⟩ := dither hS hQ indS
  have q0 : 0 ≤ ∫ ω, Int.fract (S ω) * (1 - Int.fract (S ω)) ∂μ := integral_nonneg fun ω => (fract_var_bound _).1
  have q1 : ∫ ω, Int.fract (S ω) * (1 - Int.fract (S ω)) ∂μ ≤ 1 / 4 := by
    have hm : AEStronglyMeasurable (fun ω => Int.fract (S ω) * (1 - Int.fract (S ω))) μ := by
      have := measurable_fract.comp_aemeasurable hS.1.aemeasurable
      exact (this.mul (this.const_sub 1)).aestronglyMeasurable
    have hi : Integrable (fun ω => Int.fract (S ω) * (1 - Int.fract (S ω))) μ :=
      (MemLp.of_bound (p := 1) hm (1 / 4) (ae_of_all _ fun ω => by
        rw [Real.norm_of_nonneg (fract_var_bound _).1]; exact (fract_var_bound _).2)).integrable le_rfl
    have := integral_mono hi (integrable_const (1 / 4 : ℝ)) fun ω => (fract_var_bound (S ω)).2
    simpa using this
  rw [mS] at mZ
  rw [vS] at vZ
  refine ⟨hZ, mZ, ?_, ?_⟩
  · exact le_of_le_of_eq (by linarith) vZ.symm
  · exact vZ.le.trans (by linarith)

include hX hQ hi in
/-- the noise after the second clipping -/
theorem clipped_var (vX : Var[X; μ] = ve) :
    Var[fun ω => clip (digital X Q K b sat ω) 0 top; μ] ≤ K ^ 2 * ve + 1 / 4 := by
  obtain ⟨hZ, -, -, vZ⟩ := digital_moments hX hQ hi K b sat
  generalize digital X Q K b sat = Z at hZ vZ ⊢
  have vE : Var[fun ω => clip (X ω) 0 sat; μ] ≤ ve := by
    rw [← vX]
    exact clip_var hX sat
  have h1 := mul_le_mul_of_nonneg_left vE (sq_nonneg K)
  have h2 : Var[fun ω => clip (Z ω) 0 top; μ] ≤ Var[Z; μ] :=
    clip_var hZ top
  linarith

variable {δe δy : ℝ} (hδe : 0 < δe) (hδy : 0 < δy) (e1 : δe ≤ e0) (e2 : e0 + δe ≤ sat)
  (a1 : δy ≤ K * e0 + b) (a2 : K * e0 + b + δy ≤ top)

include hX hQ hi hδe hδy e1 e2 a1 a2 in
theorem clipped_mean (mX : ∫ ω, X ω ∂μ = e0) (vX : Var[X; μ] = ve) :
    |∫ ω, clip (digital X Q K b sat ω) 0 top ∂μ - (K * e0 + b)| ≤ |K| * ve / (4 * δe) + (K ^ 2 * ve + 1 / 4) / (4 * δy) := by
  obtain ⟨hZ, mZ, -, vZ⟩ := digital_moments hX hQ hi K b sat
  generalize digital X Q K b sat = Z at hZ mZ vZ ⊢
  let E : Ω → ℝ := fun ω => clip (X ω) 0 sat
  have hE : MemLp E 2 μ := clip_memLp hX sat
  have hy : MemLp (fun ω => clip (Z ω) 0 top) 2 μ := clip_memLp hZ top
  have iX2 : Integrable (fun ω => (X ω - e0) ^ 2) μ := (hX.sub (memLp_const e0)).integrable_sq
  have X2 : ∫ ω, (X ω - e0) ^ 2 ∂μ = ve := by rw [← vX, variance_eq_integral hX.1.aemeasurable, mX]
  have cE : ∀ ω, |E ω - e0| ≤ |X ω - e0| := fun ω => clip_near (by linarith) (by linarith) (X ω)
  have bE := mean_close (hE.integrable one_le_two) (hX.integrable one_le_two) iX2
    (fun ω => clip_diff hδe (by linarith) (by linarith) (X ω)) X2.le hδe
  rw [mX] at bE
  have mE2 : ∫ ω, (E ω - e0) ^ 2 ∂μ ≤ ve := by
    rw [← X2]
    exact integral_mono (hE.sub (memLp_const e0)).integrable_sq iX2 fun ω => sq_le_sq.2 (cE ω)
  rw [mean_sq hE e0] at mE2
  have eZ : ∫ ω, Z ω ∂μ - (K * e0 + b) = K * (∫ ω, E ω ∂μ - e0) := by rw [mZ]; ring
  have mZ2 : ∫ ω, (Z ω - (K * e0 + b)) ^ 2 ∂μ ≤ K ^ 2 * ve + 1 / 4 := by
    rw [mean_sq hZ, eZ, mul_pow]
    have := mul_le_mul_of_nonneg_left mE2 (sq_nonneg K)
    linarith
  have bZ := mean_close (hy.integrable one_le_two) (hZ.integrable one_le_two)
    (hZ.sub (memLp_const (K * e0 + b))).integrable_sq
    (fun ω => clip_diff hδy (by linarith) (by linarith) (Z ω)) mZ2 hδy
  have b1 : |∫ ω, Z ω ∂μ - (K * e0 + b)| ≤ |K| * ve / (4 * δe) := by
    rw [eZ, abs_mul, mul_div_assoc]
    exact mul_le_mul_of_nonneg_left bE (abs_nonneg _)
  calc |∫ ω, clip (Z ω) 0 top ∂μ - (K * e0 + b)|
      = |(∫ ω, Z ω ∂μ - (K * e0 + b)) + (∫ ω, clip (Z ω) 0 top ∂μ - ∫ ω, Z ω ∂μ)| := by congr 1; ring
    _ ≤ _ := (abs_add_le _ _).trans (add_le_add b1 bZ)

include hX hQ hi hδy e1 e2 hδe in
theorem digital_fourth (iX4 : Integrable (fun ω => (X ω - e0) ^ 4) μ) (vX4 : ∫ ω, (X ω - e0) ^ 4 ∂μ = κ) :
    Integrable (fun ω => ((digital X Q K b sat ω - (K * e0 + b)) ^ 2) ^ 2) μ ∧
    ∫ ω, ((digital X Q K b sat ω - (K * e0 + b)) ^ 2) ^ 2 ∂μ ≤ 8 * (K ^ 4 * κ + 1) := by
  obtain ⟨hZ, -, -, -⟩ := digital_moments hX hQ hi K b sat
  set Z := digital X Q K b sat with hZd
  have cE : ∀ ω, |clip (X ω) 0 sat - e0| ≤ |X ω - e0| := fun ω => clip_near (by linarith) (by linarith) (X ω)
  have pb : ∀ᵐ ω ∂μ, ((Z ω - (K * e0 + b)) ^ 2) ^ 2 ≤ 8 * (K ^ 4 * (X ω - e0) ^ 4 + 1) := by
    filter_upwards [quant_bound (X := fun ω => K * clip (X ω) 0 sat + b) hQ] with ω hω
    have hz : |Z ω - (K * e0 + b)| ≤ |K * (X ω - e0)| + 1 := by
      have e : Z ω - (K * e0 + b) = K * (clip (X ω) 0 sat - e0) + (Z ω - (K * clip (X ω) 0 sat + b)) := by ring
      rw [e]
      refine (abs_add_le _ _).trans (add_le_add ?_ hω)
      rw [abs_mul, abs_mul]
      exact mul_le_mul_of_nonneg_left (cE ω) (abs_nonneg _)
    have h4 := pow_le_pow_left₀ (abs_nonneg _) hz 4
    have e1 : ((Z ω - (K * e0 + b)) ^ 2) ^ 2 = |Z ω - (K * e0 + b)| ^ 4 := by
      rw [show |Z ω - (K * e0 + b)| ^ 4 = (|Z ω - (K * e0 + b)| ^ 2) ^ 2 by ring, sq_abs]
    have e2 : K ^ 4 * (X ω - e0) ^ 4 = |K * (X ω - e0)| ^ 4 := by
      rw [← mul_pow]; exact (Even.pow_abs (by decide) _).symm
    rw [e1, e2]
    refine h4.trans ?_
    set p := |K * (X ω - e0)|
    nlinarith [sq_nonneg (p ^ 2 - 1), sq_nonneg (p - 1), sq_nonneg (p + 1), sq_nonneg (p ^ 2 - p),
      sq_nonneg (p ^ 2 - 2 * p + 1)]
  have iB : Integrable (fun ω => 8 * (K ^ 4 * (X ω - e0) ^ 4 + 1)) μ :=
    ((iX4.const_mul _).add (integrable_const _)).const_mul _
  have iZ4 : Integrable (fun ω => ((Z ω - (K * e0 + b)) ^ 2) ^ 2) μ :=
    iB.mono' (((hZ.1.aemeasurable.sub_const _).pow_const 2).pow_const 2).aestronglyMeasurable (by
      filter_upwards [pb] with ω hω
      rw [Real.norm_of_nonneg (by positivity)]
      exact hω)
  refine ⟨iZ4, (integral_mono_ae iZ4 iB pb).trans_eq ?_⟩
  rw [integral_const_mul, integral_add (iX4.const_mul _) (integrable_const _), integral_const_mul, vX4]
  simp

include hX hQ hi hδe hδy e1 e2 a1 a2 in
theorem clipped_noise (vX : Var[X; μ] = ve) (iX4 : Integrable (fun ω => (X ω - e0) ^ 4) μ)
    (vX4 : ∫ ω, (X ω - e0) ^ 4 ∂μ = κ) :
    |K| * √ve ≤ √(Var[fun ω => clip (digital X Q K b sat ω) 0 top; μ]) + |K| * √κ / (4 * δe) +
      √(8 * (K ^ 4 * κ + 1)) / (4 * δy) := by
  obtain ⟨hZ, -, vZ, -⟩ := digital_moments hX hQ hi K b sat
  obtain ⟨iZ4, vZ4⟩ := digital_fourth hX hQ hi K b sat hδe hδy e1 e2 iX4 vX4
  have hE : MemLp (fun ω => clip (X ω) 0 sat) 2 μ := clip_memLp hX sat
  have hy : MemLp (fun ω => clip (digital X Q K b sat ω) 0 top) 2 μ :=
    clip_memLp hZ top
  have iX4' : Integrable (fun ω => ((X ω - e0) ^ 2) ^ 2) μ := by
    refine iX4.congr (ae_of_all _ fun ω => ?_); simp only; ring
  have vX4' : ∫ ω, ((X ω - e0) ^ 2) ^ 2 ∂μ ≤ κ := by
    rw [← vX4]; refine le_of_eq (integral_congr_ae (ae_of_all _ fun ω => ?_)); simp only; ring
  have r1 := root_close hE hX iX4' (fun ω => clip_diff hδe (by linarith) (by linarith) (X ω)) vX4' hδe
  have r2 := root_close hy hZ iZ4 (fun ω => clip_diff hδy (by linarith) (by linarith) (digital X Q K b sat ω)) vZ4 hδy
  have t1 := sd_triangle hX hE
  rw [vX] at t1
  have t2 := sd_triangle hZ hy
  have t3 : |K| * √(Var[fun ω => clip (X ω) 0 sat; μ]) ≤ √(Var[digital X Q K b sat; μ]) := by
    rw [← Real.sqrt_sq_eq_abs, ← Real.sqrt_mul (sq_nonneg _)]
    exact Real.sqrt_le_sqrt vZ
  calc |K| * √ve ≤ |K| * (√(Var[fun ω => clip (X ω) 0 sat; μ]) + √κ / (4 * δe)) :=
        mul_le_mul_of_nonneg_left (t1.trans (by linarith)) (abs_nonneg _)
    _ = |K| * √(Var[fun ω => clip (X ω) 0 sat; μ]) + |K| * √κ / (4 * δe) := by ring
    _ ≤ _ := by linarith

end

/-- The number of electrons of a pixel before the clipping at the full well. -/
def rawElectrons (T L : Ω → ℕ) (D : Ω → ℝ) (dsnu : ℝ) (ω : Ω) : ℝ := (T ω : ℝ) + (L ω : ℝ) + (dsnu + D ω)

omit [IsProbabilityMeasure μ] in
theorem raw_moments {T L : Ω → ℕ} {D Q : Ω → ℝ} {lt ll : ℝ≥0} {d0 : ℝ} {s2 : ℝ≥0} (h : Draws μ T L D Q lt ll d0 s2)
    (dsnu : ℝ) :
    MemLp (rawElectrons T L D dsnu) 2 μ ∧ ∫ ω, rawElectrons T L D dsnu ω ∂μ = lt + ll + (dsnu + d0) ∧
    Var[rawElectrons T L D dsnu; μ] = lt + ll + s2 ∧
    Integrable (fun ω => (rawElectrons T L D dsnu ω - (lt + ll + (dsnu + d0))) ^ 4) μ ∧
    ∫ ω, (rawElectrons T L D dsnu ω - (lt + ll + (dsnu + d0))) ^ 4 ∂μ = 3 * (lt + ll + s2) ^ 2 + (lt + ll) ∧
    IndepFun (rawElectrons T L D dsnu) Q μ := by
  have : IsProbabilityMeasure μ := h.quant.isProbabilityMeasure
  have hS := h.indep_light.hasLaw_add_poissonMeasure h.therm h.light
  have hSD : IndepFun (T + L) D μ := h.indep_dark.comp (φ := fun z : ℕ × ℕ => z.1 + z.2) (measurable_fst.add measurable_snd) measurable_id
  let A : Ω → ℝ := fun ω => ((T + L) ω : ℝ) - (lt + ll)
  let B : Ω → ℝ := fun ω => D ω - d0
  have mn : ∀ f : ℕ → ℝ, AEStronglyMeasurable f (poissonMeasure (lt + ll)) := fun f =>
    (measurable_from_top (f := f)).aestronglyMeasurable
  have pA : ∀ k : ℕ, ∫ ω, A ω ^ k ∂μ = ∫ n : ℕ, ((n : ℝ) - (lt + ll : ℝ≥0)) ^ k ∂poissonMeasure (lt + ll) := fun k => by
    rw [← hS.integral_comp (mn _)]
    simp [A]
  have pB : ∀ k : ℕ, ∫ ω, B ω ^ k ∂μ = ∫ x, (x - d0) ^ k ∂gaussianReal d0 s2 := fun k => by
    rw [← h.dark.integral_comp (by fun_prop)]
    simp [B]
  have mA : AEMeasurable A μ := (measurable_from_top (f := fun n : ℕ => (n : ℝ) - (lt + ll))).comp_aemeasurable hS.aemeasurable
  have mB : AEMeasurable B μ := h.dark.aemeasurable.sub_const _
  have hAB : IndepFun A B μ := hSD.comp (φ := fun n : ℕ => (n : ℝ) - (lt + ll)) (ψ := fun x => x - d0) measurable_from_top
    (measurable_id.sub_const _)
  have iA : Integrable (fun ω => A ω ^ 4) μ := by
    have := (Laws.poisson_fourth (lt + ll)).1
    rw [← hS.map_eq] at this
    have := (integrable_map_measure (by rw [hS.map_eq]; exact mn _) hS.aemeasurable).1 this
    simpa [A, Function.comp_def] using this
  have mG : MemLp (fun x => x - d0) 4 (gaussianReal d0 s2) :=
    (memLp_id_gaussianReal' (μ := d0) (v := s2) 4 (by simp)).sub (memLp_const _)
  have iB : Integrable (fun ω => B ω ^ 4) μ := by
    have h4 : Integrable (fun x => (x - d0) ^ 4) (gaussianReal d0 s2) := by
      have := mG.integrable_norm_pow (p := 4) (by norm_num)
      refine this.congr (ae_of_all _ fun x => ?_)
      simp only [Real.norm_eq_abs]
      exact Even.pow_abs (by decide) _
    rw [← h.dark.map_eq] at h4
    exact (integrable_map_measure (by fun_prop) h.dark.aemeasurable).1 h4
  have zA : ∫ ω, A ω ∂μ = 0 := by
    have h1 := pA 1
    simp only [pow_one] at h1
    rw [h1, integral_sub (Laws.poisson_one _).1 (integrable_const _), (Laws.poisson_one _).2]
    simp
  have zB : ∫ ω, B ω ∂μ = 0 := by
    have h1 := pB 1
    simp only [pow_one] at h1
    have i1 : Integrable (fun x : ℝ => x) (gaussianReal d0 s2) :=
      (memLp_id_gaussianReal' (μ := d0) (v := s2) 1 (by simp)).integrable le_rfl
    rw [h1, integral_sub i1 (integrable_const _), integral_id_gaussianReal]
    simp
  have vA : ∫ ω, A ω ^ 2 ∂μ = lt + ll := by rw [pA, Laws.poisson_sq]; simp
  have vB : ∫ ω, B ω ^ 2 ∂μ = s2 := by
    rw [pB, ← variance_fun_id_gaussianReal (μ := d0) (v := s2), variance_eq_integral (by fun_prop), integral_id_gaussianReal]
  have fA : ∫ ω, A ω ^ 4 ∂μ = 3 * (lt + ll) ^ 2 + (lt + ll) := by rw [pA, (Laws.poisson_fourth _).2]; simp
  have fB : ∫ ω, B ω ^ 4 ∂μ = 3 * s2 ^ 2 := by rw [pB, Laws.gaussian_fourth]
  obtain ⟨i4, v4⟩ := fourth_add mA mB hAB iA iB zA zB
  have lA : MemLp A 2 μ := (memLp_two_iff_integrable_sq mA.aestronglyMeasurable).2 (by
    have j : Integrable (fun ω => 1 + A ω ^ 4) μ := (integrable_const _).add iA
    refine j.mono' (mA.pow_const 2).aestronglyMeasurable (ae_of_all _ fun ω => ?_)
    rw [Real.norm_eq_abs, abs_le]
    constructor <;> nlinarith [sq_nonneg (A ω ^ 2 - 1), sq_nonneg (A ω ^ 2)])
  have lB : MemLp B 2 μ := (memLp_two_iff_integrable_sq mB.aestronglyMeasurable).2 (by
    have j : Integrable (fun ω => 1 + B ω ^ 4) μ := (integrable_const _).add iB
    refine j.mono' (mB.pow_const 2).aestronglyMeasurable (ae_of_all _ fun ω => ?_)
    rw [Real.norm_eq_abs, abs_le]
    constructor <;> nlinarith [sq_nonneg (B ω ^ 2 - 1), sq_nonneg (B ω ^ 2)])
  have eR : rawElectrons T L D dsnu = fun ω => (A ω + B ω) + (lt + ll + (dsnu + d0)) := by
    funext ω
    simp [rawElectrons, A, B]
    ring
  have lAB : MemLp (fun ω => A ω + B ω) 2 μ := lA.add lB
  have zAB : ∫ ω, (A ω + B ω) ∂μ = 0 := by
    rw [integral_add (lA.integrable one_le_two) (lB.integrable one_le_two), zA, zB, add_zero]
  refine ⟨?_, ?_, ?_, ?_, ?_, ?_⟩
  · rw [eR]; exact lAB.add (memLp_const _)
  · rw [eR, integral_add (lAB.integrable one_le_two) (integrable_const _), zAB]
    simp
  · rw [eR, variance_add_const lAB.1, hAB.variance_fun_add lA lB, variance_of_integral_eq_zero mA zA,
      variance_of_integral_eq_zero mB zB, vA, vB]
  · rw [eR]
    simpa using i4
  · rw [eR]
    simp only [add_sub_cancel_right]
    rw [v4, vA, vB, fA, fB]
    ring
  · exact h.indep_quant.comp (φ := fun z : ℕ × ℕ × ℝ => (z.1 : ℝ) + (z.2.1 : ℝ) + (dsnu + z.2.2))
      (by
        have m : Measurable (fun n : ℕ => (n : ℝ)) := measurable_from_top
        exact ((m.comp measurable_fst).add (m.comp (measurable_fst.comp measurable_snd))).add
          ((measurable_snd.comp measurable_snd).const_add dsnu)) measurable_id

end Emva.Cam
