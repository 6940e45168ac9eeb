import Verif.Model.FFT
import Mathlib.RingTheory.RootsOfUnity.Complex
import Mathlib.Algebra.Field.GeomSum
import Mathlib.Tactic.FieldSimp
import Mathlib.Tactic.Ring

set_option autoImplicit false
namespace Emva
namespace Routines
open Finset

/-- `exp(-2 pi i / n)` -/
noncomputable def root (n : ℕ) : ℂ := Complex.exp (-(2 * Real.pi * Complex.I / n))

theorem root_eq (n : ℕ) : root n = (Complex.exp (2 * Real.pi * Complex.I / n))⁻¹ := by
  rw [root, Complex.exp_neg]

theorem root_primitive (n : ℕ) (hn : n ≠ 0) : IsPrimitiveRoot (root n) n := by
  rw [root_eq]; exact (Complex.isPrimitiveRoot_exp n hn).inv

theorem conj_root (n : ℕ) : (starRingEnd ℂ) (root n) = (root n)⁻¹ := by
  rw [root, ← Complex.exp_conj, ← Complex.exp_neg]
  congr 1
  simp [Complex.conj_ofReal, map_ofNat]
  ring

theorem dft_root (n : ℕ) (x : ℕ → ℝ) (k : ℕ) :
    dft n x k = ∑ j ∈ range n, (x j : ℂ) * root n ^ (j * k) := by
  unfold dft root
  refine sum_congr rfl fun j _ => ?_
  rw [← Complex.exp_nat_mul]
  congr 2
  push_cast
  ring

/-- the sum of the powers of a root of unity -/
theorem root_sum (n : ℕ) (z : ℂ) (hz : z ^ n = 1) (h1 : z ≠ 1) :
    ∑ k ∈ range n, z ^ k = 0 := by
  rw [geom_sum_eq h1, hz, sub_self, zero_div]

theorem conj_dft (n : ℕ) (x : ℕ → ℝ) (k : ℕ) :
    (starRingEnd ℂ) (dft n x k) = ∑ j ∈ range n, (x j : ℂ) * (root n)⁻¹ ^ (j * k) := by
  rw [dft_root, map_sum]
  refine sum_congr rfl fun j _ => ?_
  rw [map_mul, map_pow, conj_root, Complex.conj_ofReal]

/-- real signals have conjugate symmetric transforms -/
theorem dft_mirror (n : ℕ) (x : ℕ → ℝ) (k : ℕ) (hk : k ≤ n) (hn : n ≠ 0) :
    dft n x (n - k) = (starRingEnd ℂ) (dft n x k) := by
  rw [conj_dft, dft_root]
  refine sum_congr rfl fun j _ => ?_
  congr 1
  have hp : root n ^ n = 1 := (root_primitive n hn).pow_eq_one
  have h0 : root n ≠ 0 := (root_primitive n hn).ne_zero hn
  have : root n ^ (j * (n - k)) * root n ^ (j * k) = 1 := by
    rw [← pow_add, ← mul_add, Nat.sub_add_cancel hk, mul_comm, pow_mul, hp, one_pow]
  rw [inv_pow, eq_inv_of_mul_eq_one_left this]

/-- orthogonality of the exponentials -/
theorem root_orth (n : ℕ) (hn : n ≠ 0) (i j : ℕ) (hi : i < n) (hj : j < n) :
    ∑ k ∈ range n, root n ^ (i * k) * (root n)⁻¹ ^ (j * k) = if i = j then (n : ℂ) else 0 := by
  have hp := root_primitive n hn
  have h0 : root n ≠ 0 := hp.ne_zero hn
  have e : ∀ k, root n ^ (i * k) * (root n)⁻¹ ^ (j * k) = (root n ^ i * (root n)⁻¹ ^ j) ^ k := by
    intro k; rw [mul_pow, pow_mul, pow_mul]
  simp only [e]
  by_cases h : i = j
  · subst h
    rw [if_pos rfl, inv_pow, mul_inv_cancel₀ (pow_ne_zero _ h0)]
    simp
  · rw [if_neg h]
    apply root_sum n
    · rw [mul_pow, ← pow_mul, ← pow_mul, mul_comm i, mul_comm j, pow_mul, pow_mul, inv_pow, hp.pow_eq_one]
      simp
    · intro hz
      rw [inv_pow, mul_inv_eq_one₀ (pow_ne_zero _ h0)] at hz
      exact h (hp.pow_inj hi hj hz)

/-- Parseval -/
theorem parseval (n : ℕ) (hn : n ≠ 0) (x : ℕ → ℝ) :
    ∑ k ∈ range n, dft n x k * (starRingEnd ℂ) (dft n x k) = (n : ℂ) * ∑ j ∈ range n, (x j : ℂ) ^ 2 := by
  simp only [conj_dft]
  simp only [dft_root, sum_mul_sum]
  rw [sum_comm]
  rw [mul_sum]
  refine sum_congr rfl fun i hi => ?_
  rw [sum_comm]
  have : ∀ j ∈ range n, (∑ k ∈ range n, (x i : ℂ) * root n ^ (i * k) * ((x j : ℂ) * (root n)⁻¹ ^ (j * k)))
      = if j = i then (n : ℂ) * (x i) ^ 2 else 0 := by
    intro j hj
    have e : ∀ k, (x i : ℂ) * root n ^ (i * k) * ((x j : ℂ) * (root n)⁻¹ ^ (j * k))
        = (x i : ℂ) * x j * (root n ^ (i * k) * (root n)⁻¹ ^ (j * k)) := by intro k; ring
    simp only [e]
    rw [← mul_sum, root_orth n hn i j (mem_range.1 hi) (mem_range.1 hj)]
    by_cases h : j = i
    · subst h; rw [if_pos rfl, if_pos rfl]; ring
    · rw [if_neg h, if_neg (Ne.symm h)]; ring
  rw [sum_congr rfl this, sum_ite_eq' (range n) i, if_pos hi]

end Routines
end Emva
