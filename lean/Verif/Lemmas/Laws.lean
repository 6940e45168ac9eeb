import Mathlib.Probability.Distributions.Poisson.Basic
import Mathlib.Probability.Distributions.Gaussian.Real
import Mathlib.Tactic.FieldSimp
import Mathlib.Tactic.Linarith

/-!
Moments of the distributions the camera draws from: Poisson (`rng.poisson`) and normal (`rng.normal`).
-/
set_option autoImplicit false
namespace Emva.Laws
open MeasureTheory ProbabilityTheory Finset
open scoped NNReal Nat

section
variable (r : ℝ≥0)

theorem poisson_moment (k : ℕ) (q : ℕ → ℝ) (h0 : ∀ n < k, q n = 0) (hk : ∀ n, 0 ≤ q n)
    (hq : ∀ n, q (n + k) * (n)! = (n + k)!) :
    Integrable q (poissonMeasure r) ∧ ∫ n, q n ∂poissonMeasure r = r ^ k := by
  have hs : HasSum (fun n => Real.exp (-r) * r ^ n / (n)! * q n) (r ^ k : ℝ) := by
    rw [← hasSum_nat_add_iff' k]
    have z : ∑ i ∈ range k, Real.exp (-r) * (r : ℝ) ^ i / (i)! * q i = 0 :=
      sum_eq_zero fun i hi => by rw [h0 i (mem_range.1 hi), mul_zero]
    rw [z, sub_zero]
    have := (hasSum_one_poissonMeasure r).mul_left ((r : ℝ) ^ k)
    rw [mul_one] at this
    refine this.congr_fun ?_ |> fun h => h
    intro n
    have h1 : ((n)! : ℝ) ≠ 0 := by exact_mod_cast n.factorial_ne_zero
    have h2 : ((n + k)! : ℝ) ≠ 0 := by exact_mod_cast (n + k).factorial_ne_zero
    have h3 := hq n
    rw [pow_add]
    field_simp
    rw [← h3]
    ring
  have hi : Integrable q (poissonMeasure r) := by
    rw [integrable_poissonMeasure_iff]
    convert hs.summable using 2 with n
    rw [Real.norm_of_nonneg (hk n)]
  exact ⟨hi, (hasSum_integral_poissonMeasure hi).unique (by simpa using hs)⟩

theorem poisson_one : Integrable (fun n : ℕ => (n : ℝ)) (poissonMeasure r) ∧
    ∫ n : ℕ, (n : ℝ) ∂poissonMeasure r = r := by
  have := poisson_moment r 1 (fun n => (n : ℝ)) (by simp) (by simp) (by intro n; rw [Nat.factorial_succ]; push_cast; ring)
  simpa using this

theorem poisson_two : Integrable (fun n : ℕ => (n : ℝ) * (n - 1)) (poissonMeasure r) ∧
    ∫ n : ℕ, (n : ℝ) * (n - 1) ∂poissonMeasure r = r ^ 2 := by
  refine poisson_moment r 2 (fun n => (n : ℝ) * (n - 1)) ?_ ?_ ?_
  · intro n hn; interval_cases n <;> norm_num
  · intro n
    match n with
    | 0 => norm_num
    | n + 1 => push_cast; ring_nf; positivity
  · intro n; rw [Nat.factorial_succ, Nat.factorial_succ]; push_cast; ring

theorem poisson_three : Integrable (fun n : ℕ => (n : ℝ) * (n - 1) * (n - 2)) (poissonMeasure r) ∧
    ∫ n : ℕ, (n : ℝ) * (n - 1) * (n - 2) ∂poissonMeasure r = r ^ 3 := by
  refine poisson_moment r 3 (fun n => (n : ℝ) * (n - 1) * (n - 2)) ?_ ?_ ?_
  · intro n hn; interval_cases n <;> norm_num
  · intro n
    match n with
    | 0 => norm_num
    | 1 => norm_num
    | n + 2 => push_cast; ring_nf; positivity
  · intro n; rw [Nat.factorial_succ, Nat.factorial_succ, Nat.factorial_succ]; push_cast; ring

theorem poisson_four : Integrable (fun n : ℕ => (n : ℝ) * (n - 1) * (n - 2) * (n - 3)) (poissonMeasure r) ∧
    ∫ n : ℕ, (n : ℝ) * (n - 1) * (n - 2) * (n - 3) ∂poissonMeasure r = r ^ 4 := by
  refine poisson_moment r 4 (fun n => (n : ℝ) * (n - 1) * (n - 2) * (n - 3)) ?_ ?_ ?_
  · intro n hn; interval_cases n <;> norm_num
  · intro n
    match n with
    | 0 => norm_num
    | 1 => norm_num
    | 2 => norm_num
    | n + 3 => push_cast; ring_nf; positivity
  · intro n
    rw [Nat.factorial_succ, Nat.factorial_succ, Nat.factorial_succ, Nat.factorial_succ]; push_cast; ring

/-- the second central moment -/
theorem poisson_sq : ∫ n : ℕ, ((n : ℝ) - r) ^ 2 ∂poissonMeasure r = r := by
  obtain ⟨i1, e1⟩ := poisson_one r
  obtain ⟨i2, e2⟩ := poisson_two r
  have : (fun n : ℕ => ((n : ℝ) - r) ^ 2) = fun n : ℕ => (n : ℝ) * (n - 1) + ((1 - 2 * r) * (n : ℝ) + r ^ 2) := by
    funext n; ring
  have j1 : Integrable (fun n : ℕ => (1 - 2 * r) * (n : ℝ) + (r : ℝ) ^ 2) (poissonMeasure r) :=
    (i1.const_mul _).add (integrable_const _)
  rw [this, integral_add i2 j1, integral_add (i1.const_mul _) (integrable_const _), integral_const_mul, e1, e2]
  simp
  ring

/-- the fourth central moment -/
theorem poisson_fourth : Integrable (fun n : ℕ => ((n : ℝ) - r) ^ 4) (poissonMeasure r) ∧
    ∫ n : ℕ, ((n : ℝ) - r) ^ 4 ∂poissonMeasure r = 3 * r ^ 2 + r := by
  obtain ⟨i1, e1⟩ := poisson_one r
  obtain ⟨i2, e2⟩ := poisson_two r
  obtain ⟨i3, e3⟩ := poisson_three r
  obtain ⟨i4, e4⟩ := poisson_four r
  have : (fun n : ℕ => ((n : ℝ) - r) ^ 4) = fun n : ℕ => (n : ℝ) * (n - 1) * (n - 2) * (n - 3) +
      ((6 - 4 * r) * ((n : ℝ) * (n - 1) * (n - 2)) + ((7 - 12 * r + 6 * r ^ 2) * ((n : ℝ) * (n - 1)) +
        ((1 - 4 * r + 6 * r ^ 2 - 4 * r ^ 3) * (n : ℝ) + r ^ 4))) := by
    funext n; ring
  rw [this]
  have j1 : Integrable (fun n : ℕ => (1 - 4 * r + 6 * r ^ 2 - 4 * r ^ 3) * (n : ℝ) + (r : ℝ) ^ 4) (poissonMeasure r) :=
    (i1.const_mul _).add (integrable_const _)
  have j2 : Integrable (fun n : ℕ => (7 - 12 * r + 6 * r ^ 2) * ((n : ℝ) * (n - 1)) +
      ((1 - 4 * r + 6 * r ^ 2 - 4 * r ^ 3) * (n : ℝ) + (r : ℝ) ^ 4)) (poissonMeasure r) := (i2.const_mul _).add j1
  have j3 : Integrable (fun n : ℕ => (6 - 4 * r) * ((n : ℝ) * (n - 1) * (n - 2)) +
      ((7 - 12 * r + 6 * r ^ 2) * ((n : ℝ) * (n - 1)) +
      ((1 - 4 * r + 6 * r ^ 2 - 4 * r ^ 3) * (n : ℝ) + (r : ℝ) ^ 4))) (poissonMeasure r) := (i3.const_mul _).add j2
  refine ⟨i4.add j3, ?_⟩
  rw [integral_add i4 j3, integral_add (i3.const_mul _) j2, integral_add (i2.const_mul _) j1,
    integral_add (i1.const_mul _) (integrable_const _), integral_const_mul, integral_const_mul, integral_const_mul, e1, e2,
    e3, e4]
  simp
  ring

end

/-- the fourth central moment of a normal distribution -/
theorem gaussian_fourth (m : ℝ) (v : ℝ≥0) : ∫ x, (x - m) ^ 4 ∂gaussianReal m v = 3 * v ^ 2 := by
  have hd : ∀ (P P' : ℝ → ℝ), (∀ t, HasDerivAt P (P' t) t) →
      deriv (fun t => P t * Real.exp (v * t ^ 2 / 2)) = fun t => (P' t + P t * (v * t)) * Real.exp (v * t ^ 2 / 2) := by
    intro P P' h
    funext t
    have h1 : HasDerivAt (fun t : ℝ => (v : ℝ) * t ^ 2 / 2) (v * t) t := by
      have := ((hasDerivAt_pow 2 t).const_mul (v : ℝ)).div_const 2
      refine this.congr_deriv ?_
      push_cast
      ring
    rw [((h t).fun_mul h1.exp).deriv]
    ring
  calc ∫ x, (x - m) ^ 4 ∂gaussianReal m v
  _ = ∫ x, x ^ 4 ∂(gaussianReal m v).map (fun x ↦ x - m) := by
    rw [integral_map (by fun_prop) (by fun_prop)]
  _ = ∫ x, x ^ 4 ∂(gaussianReal 0 v) := by simp [gaussianReal_map_sub_const]
  _ = iteratedDeriv 4 (mgf (fun x ↦ x) (gaussianReal 0 v)) 0 := by
    rw [iteratedDeriv_mgf_zero] <;> simp
  _ = 3 * v ^ 2 := by
    have h0 : mgf (fun x ↦ x) (gaussianReal 0 v) = fun t => 1 * Real.exp (v * t ^ 2 / 2) := by
      rw [mgf_fun_id_gaussianReal]; funext t; simp
    have h1 := hd (fun _ => 1) (fun _ => 0) (fun t => hasDerivAt_const _ _)
    have h2 := hd (fun t => 0 + 1 * (v * t)) (fun _ => v) (fun t => by
      simpa using (hasDerivAt_id t).const_mul (v : ℝ))
    have h3 := hd (fun t => v + (0 + 1 * (v * t)) * (v * t)) (fun t => 2 * v ^ 2 * t) (fun t => by
      have := ((hasDerivAt_pow 2 t).const_mul ((v : ℝ) ^ 2)).const_add (v : ℝ)
      have e : (fun t : ℝ => v + (0 + 1 * (v * t)) * (v * t)) = fun t : ℝ => (v : ℝ) + v ^ 2 * t ^ 2 := by funext t; ring
      rw [e]
      refine this.congr_deriv ?_
      push_cast; ring)
    have h4 := hd (fun t => 2 * v ^ 2 * t + (v + (0 + 1 * (v * t)) * (v * t)) * (v * t)) (fun t => 3 * v ^ 2 + 3 * v ^ 3 * t ^ 2)
      (fun t => by
        have := ((hasDerivAt_id' t).const_mul (3 * (v : ℝ) ^ 2)).fun_add ((hasDerivAt_pow 3 t).const_mul ((v : ℝ) ^ 3))
        have e : (fun t : ℝ => 2 * v ^ 2 * t + (v + (0 + 1 * (v * t)) * (v * t)) * (v * t)) =
            fun t : ℝ => 3 * (v : ℝ) ^ 2 * t + v ^ 3 * t ^ 3 := by funext t; ring
        rw [e]
        refine this.congr_deriv ?_
        push_cast; ring)
    rw [h0, iteratedDeriv_succ, iteratedDeriv_succ, iteratedDeriv_succ, iteratedDeriv_one, h1, h2, h3, h4]
    simp

end Emva.Laws
