import Verif.Spec.Close
import Verif.Py.Rounding

/-!
Numbers that agree up to a factor, under the operations.
-/
set_option autoImplicit false
namespace Emva.Close
open Spec
variable {t s a b c d : ℝ}

theorem rnd {u : ℝ} (R : Rounding u) (hu : u ≤ 1) {x : ℝ} (hx : 0 ≤ x) : Close (1 - u) (R.rnd x) x := by
  have h := R.err x
  have h0 := R.u_nonneg
  rw [abs_of_nonneg hx] at h
  obtain ⟨h1, h2⟩ := abs_le.1 h
  have h3 : 0 ≤ (1 - u) * x := mul_nonneg (by linarith) hx
  refine ⟨by linarith, hx, by linarith, ?_⟩
  have h4 : (1 - u) * R.rnd x ≤ (1 - u) * ((1 + u) * x) := mul_le_mul_of_nonneg_left (by linarith) (by linarith)
  have h5 : (1 - u) * ((1 + u) * x) = x - u * u * x := by ring
  have : 0 ≤ u * u * x := by positivity
  linarith

theorem mono (h : Close t a b) (hs : s ≤ t) : Close s a b :=
  ⟨h.1, h.2.1, (mul_le_mul_of_nonneg_right hs h.2.1).trans h.2.2.1, (mul_le_mul_of_nonneg_right hs h.1).trans h.2.2.2⟩

theorem refl (h : 0 ≤ a) (ht : t ≤ 1) : Close t a a := by
  have := mul_le_mul_of_nonneg_right ht h
  rw [one_mul] at this
  exact ⟨h, h, this, this⟩

theorem trans (h : Close t a b) (h' : Close s b c) (ht : 0 ≤ t) (hs : 0 ≤ s) : Close (t * s) a c := by
  refine ⟨h.1, h'.2.1, ?_, ?_⟩
  · have := mul_le_mul_of_nonneg_left h'.2.2.1 ht
    rw [mul_assoc]; exact this.trans h.2.2.1
  · have := mul_le_mul_of_nonneg_left h.2.2.2 hs
    rw [mul_comm t s, mul_assoc]; exact this.trans h'.2.2.2

theorem mul (h : Close t a b) (h' : Close s c d) (ht : 0 ≤ t) (hs : 0 ≤ s) : Close (t * s) (a * c) (b * d) := by
  obtain ⟨a0, b0, h1, h2⟩ := h
  obtain ⟨c0, d0, h3, h4⟩ := h'
  refine ⟨mul_nonneg a0 c0, mul_nonneg b0 d0, ?_, ?_⟩
  · have := mul_le_mul h1 h3 (mul_nonneg hs d0) a0
    linarith [show t * s * (b * d) = t * b * (s * d) by ring]
  · have := mul_le_mul h2 h4 (mul_nonneg hs c0) b0
    linarith [show t * s * (a * c) = t * a * (s * c) by ring]

theorem pos (h : Close t a b) (ht : 0 < t) (hb : 0 < b) : 0 < a := lt_of_lt_of_le (mul_pos ht hb) h.2.2.1

theorem div (h : Close t a b) (h' : Close s c d) (ht : 0 ≤ t) (hs : 0 < s) (hd : 0 < d) : Close (t * s) (a / c) (b / d) := by
  have hc := pos h' hs hd
  obtain ⟨a0, b0, h1, h2⟩ := h
  obtain ⟨-, -, h3, h4⟩ := h'
  refine ⟨div_nonneg a0 hc.le, div_nonneg b0 hd.le, ?_, ?_⟩
  · rw [le_div_iff₀ hc]
    have e : t * s * (b / d) * c = t * b * (s * c) / d := by ring
    rw [e, div_le_iff₀ hd]
    exact mul_le_mul h1 h4 (mul_nonneg hs.le hc.le) a0
  · rw [le_div_iff₀ hd]
    have e : t * s * (a / c) * d = t * a * (s * d) / c := by ring
    rw [e, div_le_iff₀ hc]
    exact mul_le_mul h2 h3 (mul_nonneg hs.le hd.le) b0

theorem sqrt (h : Close t a b) (ht : 0 ≤ t) (ht1 : t ≤ 1) : Close t (Real.sqrt a) (Real.sqrt b) := by
  have key : ∀ {a b : ℝ}, 0 ≤ b → t * b ≤ a → t * Real.sqrt b ≤ Real.sqrt a := fun {a b} hb hab => by
    refine Real.le_sqrt_of_sq_le ?_
    rw [mul_pow, Real.sq_sqrt hb]
    have : t ^ 2 ≤ t := by nlinarith
    exact (mul_le_mul_of_nonneg_right this hb).trans hab
  exact ⟨Real.sqrt_nonneg _, Real.sqrt_nonneg _, key h.2.1 h.2.2.1, key h.1 h.2.2.2⟩

theorem add (h : Close t a b) (h' : Close t c d) : Close t (a + c) (b + d) :=
  ⟨add_nonneg h.1 h'.1, add_nonneg h.2.1 h'.2.1, by linarith [h.2.2.1, h'.2.2.1], by linarith [h.2.2.2, h'.2.2.2]⟩

theorem max (h : Close t a b) (h' : Close t c d) (ht : 0 ≤ t) : Close t (Max.max a c) (Max.max b d) := by
  refine ⟨h.1.trans (le_max_left _ _), h.2.1.trans (le_max_left _ _), ?_, ?_⟩
  · rw [mul_max_of_nonneg _ _ ht]; exact max_le_max h.2.2.1 h'.2.2.1
  · rw [mul_max_of_nonneg _ _ ht]; exact max_le_max h.2.2.2 h'.2.2.2

/-- a difference, where the second number is small against the first -/
theorem sub (h : Close t a b) (h' : Close t c d) (ht : 3 / 4 ≤ t) (ht1 : t ≤ 1) (hd : 72 * d ≤ 25 * b) :
    Close (t ^ 3) (a - c) (b - d) := by
  obtain ⟨a0, b0, h1, h2⟩ := h
  obtain ⟨c0, d0, h3, h4⟩ := h'
  have t0 : 0 < t := by linarith
  have hc : c ≤ d / t := by rw [le_div_iff₀ t0]; linarith
  have ha : a ≤ b / t := by rw [le_div_iff₀ t0]; linarith
  have t2 : 9 / 16 ≤ t ^ 2 := by nlinarith
  have t2' : t ^ 2 ≤ 1 := by nlinarith
  have k1 : t ^ 3 * (b - d) ≤ a - c := by
    have e1 : t ^ 3 * (b - d) ≤ t * b - d / t := by
      have e : t * b - d / t - t ^ 3 * (b - d) = (1 - t ^ 2) * (t ^ 2 * b - (1 + t ^ 2) * d) / t := by
        field_simp; ring
      have : 0 ≤ t ^ 2 * b - (1 + t ^ 2) * d := by nlinarith
      have : 0 ≤ (1 - t ^ 2) * (t ^ 2 * b - (1 + t ^ 2) * d) / t :=
        div_nonneg (mul_nonneg (by linarith) this) t0.le
      linarith
    linarith
  have k2 : t ^ 3 * (a - c) ≤ b - d := by
    have e1 : t ^ 3 * (a - c) ≤ t ^ 3 * (b / t - t * d) := mul_le_mul_of_nonneg_left (by linarith) (by positivity)
    have e2 : t ^ 3 * (b / t - t * d) = b - d - (1 - t ^ 2) * (b - (1 + t ^ 2) * d) := by
      field_simp; ring
    have : 0 ≤ (1 - t ^ 2) * (b - (1 + t ^ 2) * d) := mul_nonneg (by linarith) (by nlinarith)
    linarith
  have hbd : 0 ≤ b - d := by linarith
  exact ⟨(mul_nonneg (by positivity) hbd).trans k1, hbd, k1, k2⟩

/-- the relative error -/
theorem rel (h : Close t a b) (ht : 0 < t) : |a - b| ≤ (1 / t - 1) * b := by
  obtain ⟨a0, b0, h1, h2⟩ := h
  have : a ≤ b / t := by rw [le_div_iff₀ ht]; linarith
  rw [abs_le]
  constructor
  · have : 0 ≤ (1 - t) ^ 2 / t * b := by positivity
    have e : (1 - t) ^ 2 / t * b = (1 / t - 1) * b - (1 - t) * b := by field_simp
    linarith
  · have : b / t = 1 / t * b := by ring
    linarith

theorem of_abs {ρ : ℝ} (hb : 0 < b) (h : |a - b| ≤ ρ * b) (hρ : ρ ≤ 1) : Close (1 - ρ) a b := by
  obtain ⟨h1, h2⟩ := abs_le.1 h
  have hr : 0 ≤ ρ := by
    have := (abs_nonneg _).trans h
    by_contra hc
    exact absurd this (not_le.2 (mul_neg_of_neg_of_pos (not_le.1 hc) hb))
  have h3 : 0 ≤ (1 - ρ) * b := mul_nonneg (by linarith) hb.le
  refine ⟨by linarith, hb.le, by linarith, ?_⟩
  have h4 : (1 - ρ) * a ≤ (1 - ρ) * ((1 + ρ) * b) := mul_le_mul_of_nonneg_left (by linarith) (by linarith)
  have h5 : (1 - ρ) * ((1 + ρ) * b) = b - ρ * ρ * b := by ring
  have : 0 ≤ ρ * ρ * b := by positivity
  linarith

end Emva.Close
