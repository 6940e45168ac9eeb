import Verif.Spec.OffBy
import Verif.Lemmas.Close

/-!
Arithmetic with errors that are a fraction of a scale.
-/
set_option autoImplicit false
namespace Emva.Spec.OffBy
variable {g h V W x y z w : ℝ}

theorem scale (H : OffBy g V x y) : 0 ≤ V := (abs_nonneg _).trans H.2

theorem abs_left (H : OffBy g V x y) : |x| ≤ g * V := by
  have := abs_add_le (x - y) y
  rw [sub_add_cancel] at this
  linarith [H.1, H.2]

theorem mono (H : OffBy g V x y) (hg : g ≤ h) (hV : V ≤ W) (h1 : 1 ≤ g) : OffBy h W x y := by
  refine ⟨H.1.trans ?_, H.2.trans hV⟩
  exact mul_le_mul (by linarith) hV H.scale (by linarith)

theorem exact (hy : |y| ≤ V) : OffBy 1 V y y := ⟨by simp, hy⟩

theorem rnd {u : ℝ} (R : Rounding u) (H : OffBy g V x y) : OffBy (g * (1 + u)) V (R.rnd x) y := by
  refine ⟨?_, H.2⟩
  have h1 := R.err x
  have h2 := mul_le_mul_of_nonneg_left H.abs_left R.u_nonneg
  have h3 := abs_add_le (R.rnd x - x) (x - y)
  rw [sub_add_sub_cancel] at h3
  have := H.1
  nlinarith

theorem sub (H : OffBy g V x y) (H' : OffBy g W z w) : OffBy g (V + W) (x - z) (y - w) := by
  constructor
  · have := abs_sub (x - y) (z - w)
    rw [show x - y - (z - w) = x - z - (y - w) by ring] at this
    linarith [H.1, H'.1]
  · linarith [abs_sub y w, H.2, H'.2]

theorem mul (H : OffBy g V x y) (H' : OffBy h W z w) (hg : 1 ≤ g) : OffBy (g * h) (V * W) (x * z) (y * w) := by
  have h1 := H'.abs_left
  have hV := H.scale
  have hW := H'.scale
  constructor
  · have h2 := abs_add_le ((x - y) * z) (y * (z - w))
    rw [show (x - y) * z + y * (z - w) = x * z - y * w by ring, abs_mul, abs_mul] at h2
    have h3 := mul_le_mul H.1 h1 (abs_nonneg _) (by nlinarith)
    have h4 := mul_le_mul H.2 H'.1 (abs_nonneg _) hV
    nlinarith
  · rw [abs_mul]
    exact mul_le_mul H.2 H'.2 (abs_nonneg _) hV

theorem div_nat (H : OffBy g V x y) (n : ℕ) : OffBy g (V / n) (x / n) (y / n) := by
  constructor
  · rw [← sub_div, abs_div, Nat.abs_cast, mul_div_assoc']
    exact div_le_div_of_nonneg_right H.1 (Nat.cast_nonneg n)
  · rw [abs_div, Nat.abs_cast]
    exact div_le_div_of_nonneg_right H.2 (Nat.cast_nonneg n)

theorem close {ρ : ℝ} (H : OffBy g V x y) (hy : 0 < y) (hρ : (g - 1) * V ≤ ρ * y) (h1 : ρ ≤ 1) : Close (1 - ρ) x y :=
  Close.of_abs hy (H.1.trans hρ) h1

theorem of_close {t : ℝ} (h : Close t x y) (ht : 0 < t) : OffBy (1 / t) y x y :=
  ⟨Close.rel h ht, (abs_of_nonneg h.2.1).le⟩

theorem add (H : OffBy g V x y) (H' : OffBy g W z w) : OffBy g (V + W) (x + z) (y + w) := by
  constructor
  · have := abs_add_le (x - y) (z - w)
    rw [show x - y + (z - w) = x + z - (y + w) by ring] at this
    linarith [H.1, H'.1]
  · linarith [abs_add_le y w, H.2, H'.2]

/-- a quotient by a positive number that agrees up to a factor -/
theorem div_close {t : ℝ} (H : OffBy g V x y) (hg : 1 ≤ g) (h : Close t z w) (ht : 0 < t) (hw : 0 < w) :
    OffBy (g * (1 / t)) (V / w) (x / z) (y / w) := by
  have h2 : Close t (1 / z) (1 / w) := by
    have hz := Close.pos h ht hw
    refine ⟨by positivity, by positivity, ?_, ?_⟩
    · rw [mul_one_div, div_le_div_iff₀ hw hz]; linarith [h.2.2.2]
    · rw [mul_one_div, div_le_div_iff₀ hz hw]; linarith [h.2.2.1]
  have := mul H (of_close h2 ht) hg
  rwa [mul_one_div V, mul_one_div x, mul_one_div y] at this

/-- a quotient by a number whose error is at most half of it -/
theorem div (H : OffBy g V x y) (H' : OffBy g W z w) (hg : 1 ≤ g) (hw : w ≠ 0) (hc : (g - 1) * W ≤ |w| / 2) :
    z ≠ 0 ∧ OffBy g (4 * V * W / w ^ 2) (x / z) (y / w) := by
  have hV := H.scale
  have hw0 : 0 < |w| := abs_pos.2 hw
  have hz2 : |w| / 2 ≤ |z| := by
    have := abs_sub_abs_le_abs_sub w z
    rw [abs_sub_comm] at this
    linarith [H'.1]
  have hz : z ≠ 0 := fun h => by rw [h, abs_zero] at hz2; linarith
  have hz0 : 0 < |z| := abs_pos.2 hz
  have e2 : w ^ 2 = |w| * |w| := by rw [← sq_abs, sq]
  refine ⟨hz, ?_, ?_⟩
  · have e : x / z - y / w = ((x - y) * w - y * (z - w)) / (z * w) := by field_simp; ring
    rw [e, abs_div, abs_mul, div_le_iff₀ (by positivity)]
    have h1 := abs_sub ((x - y) * w) (y * (z - w))
    rw [abs_mul, abs_mul] at h1
    have h2 : |x - y| * |w| ≤ (g - 1) * V * W := mul_le_mul H.1 H'.2 (abs_nonneg _) ((abs_nonneg _).trans H.1)
    have h3 : |y| * |z - w| ≤ V * ((g - 1) * W) := mul_le_mul H.2 H'.1 (abs_nonneg _) hV
    have h4 : (g - 1) * (4 * V * W / w ^ 2) * (|z| * |w|) = 4 * ((g - 1) * V * W) * (|z| / |w|) := by
      rw [e2]; field_simp
    have h5 : 1 / 2 ≤ |z| / |w| := by rw [le_div_iff₀ hw0]; linarith
    have h6 : 0 ≤ (g - 1) * V * W := mul_nonneg (mul_nonneg (by linarith) hV) H'.scale
    have h7 := mul_le_mul_of_nonneg_left h5 h6
    rw [h4]
    linarith
  · rw [abs_div, div_le_div_iff₀ hw0 (by positivity), e2]
    have h1 : |y| * |w| ≤ V * W := mul_le_mul H.2 H'.2 (abs_nonneg _) hV
    have h2 := mul_le_mul_of_nonneg_right h1 hw0.le
    have h3 : 0 ≤ V * W * |w| := mul_nonneg (mul_nonneg hV H'.scale) hw0.le
    linarith

end Emva.Spec.OffBy
