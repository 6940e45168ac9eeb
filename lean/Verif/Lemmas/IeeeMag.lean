import Verif.Lemmas.Ieee
import Verif.Model.IeeeResults
import Verif.Model.RoundedResults

/-!
Positive numbers that are neither very large nor very small: the operations of float64 on them neither overflow nor underflow.
-/
set_option autoImplicit false
namespace Emva
open Rounding Data Results

/-- between `2^-a` and `2^a` -/
structure Mag (a : ℤ) (x : ℝ) : Prop where
  ge : (2 : ℝ) ^ (-a) ≤ x
  le : x ≤ 2 ^ a

namespace Mag
variable {a b : ℤ} {x y : ℝ}

theorem pos (h : Mag a x) : 0 < x := (two_pos_zpow _).trans_le h.ge

theorem weaken (h : Mag a x) (hab : a ≤ b) : Mag b x :=
  ⟨(two_zpow_mono (by omega)).trans h.ge, h.le.trans (two_zpow_mono hab)⟩

theorem f64_eq (h : Mag a x) (ha : a ≤ 1022) : f64 x = .fin (b64 x) := by
  refine Emva.f64_eq (.inr ?_) ?_ <;> rw [abs_of_pos h.pos]
  · exact (two_zpow_mono (by omega)).trans h.ge
  · exact h.le.trans (two_zpow_mono (by omega))

theorem _root_.Emva.b64_near {x : ℝ} (h : 0 ≤ x) : 99 / 100 * x ≤ b64 x ∧ b64 x ≤ 101 / 100 * x := by
  have h1 := binary64.err x
  have h2 : (2 : ℝ) ^ (-53 : ℤ) ≤ 1 / 100 := by norm_num
  rw [abs_of_nonneg h] at h1
  have h3 := mul_le_mul_of_nonneg_right h2 h
  have h4 := abs_le.1 (h1.trans h3)
  have e : binary64.rnd x = b64 x := rfl
  rw [e] at h4
  constructor <;> linarith [h4.1, h4.2]

theorem rnd (h : Mag a x) : Mag (a + 1) (b64 x) := by
  obtain ⟨h1, h2⟩ := b64_near h.pos.le
  have h0 := h.pos
  constructor
  · rw [neg_add, zpow_add₀ (by norm_num)]
    have := h.ge
    have e : (2 : ℝ) ^ (-1 : ℤ) = 1 / 2 := by norm_num
    rw [e]
    linarith
  · rw [zpow_add_one₀ (by norm_num)]
    have := h.le
    linarith

theorem mul (h : Mag a x) (h' : Mag b y) : Mag (a + b) (x * y) := by
  constructor
  · rw [neg_add, zpow_add₀ (by norm_num)]
    exact mul_le_mul h.ge h'.ge (two_pos_zpow _).le h.pos.le
  · rw [zpow_add₀ (by norm_num)]
    exact mul_le_mul h.le h'.le h'.pos.le (two_pos_zpow _).le

theorem inv (h : Mag a x) : Mag a x⁻¹ := by
  constructor
  · rw [zpow_neg]
    exact inv_anti₀ h.pos h.le
  · have := inv_anti₀ (two_pos_zpow _) h.ge
    rwa [zpow_neg, inv_inv] at this

theorem div (h : Mag a x) (h' : Mag b y) : Mag (a + b) (x / y) := by
  rw [div_eq_mul_inv]; exact h.mul h'.inv

theorem add (h : Mag a x) (h' : Mag a y) : Mag (a + 1) (x + y) := by
  constructor
  · have := h'.pos
    exact (two_zpow_mono (by omega)).trans (h.ge.trans (by linarith))
  · rw [zpow_add_one₀ (by norm_num)]
    linarith [h.le, h'.le]

theorem sqrt (h : Mag a x) (ha : 0 ≤ a) : Mag a (Real.sqrt x) := by
  constructor
  · refine Real.le_sqrt_of_sq_le (le_trans ?_ h.ge)
    have h0 := two_pos_zpow (-a)
    have h1 : (2 : ℝ) ^ (-a) ≤ 1 := by
      have := two_zpow_mono (show -a ≤ 0 by omega)
      simpa using this
    nlinarith
  · refine Real.sqrt_le_iff.2 ⟨(two_pos_zpow _).le, h.le.trans ?_⟩
    have h1 : (1 : ℝ) ≤ 2 ^ a := by
      have := two_zpow_mono ha
      simpa using this
    nlinarith

theorem ofBounds (n : ℕ) (h : 1 / 2 ^ n ≤ x) (h' : x ≤ 2 ^ n) : Mag n x := by
  constructor
  · rw [zpow_neg, zpow_natCast, ← one_div]; exact h
  · rw [zpow_natCast]; exact h'

end Mag

/-- the operation has the same result with and without the limits of float64 -/
structure Same (a : ℤ) (X Y : Fl ℝ) (x : ℝ) : Prop where
  left : X = .fin x
  right : Y = .fin x
  mag : Mag a x

namespace Same
variable {a b : ℤ} {X Y X' Y' : Fl ℝ} {x y : ℝ}

theorem of (h : Mag a x) : Same a (.fin x) (.fin x) x := ⟨rfl, rfl, h⟩

theorem weaken (h : Same a X Y x) (hab : a ≤ b) : Same b X Y x := ⟨h.left, h.right, h.mag.weaken hab⟩

theorem rnd (h : Same a X Y x) (ha : a ≤ 1022) : Same (a + 1) (rounded X) (Rounded.rd binary64 Y) (b64 x) := by
  refine ⟨?_, ?_, h.mag.rnd⟩
  · rw [h.left]; exact h.mag.f64_eq ha
  · rw [h.right]; rfl

theorem mul (h : Same a X Y x) (h' : Same b X' Y' y) : Same (a + b) (X * X') (Y * Y') (x * y) :=
  ⟨by rw [h.left, h'.left, Fl.fin_mul], by rw [h.right, h'.right, Fl.fin_mul], h.mag.mul h'.mag⟩

theorem div (h : Same a X Y x) (h' : Same b X' Y' y) : Same (a + b) (X / X') (Y / Y') (x / y) :=
  ⟨by rw [h.left, h'.left, Fl.fin_div h'.mag.pos.ne'], by rw [h.right, h'.right, Fl.fin_div h'.mag.pos.ne'], h.mag.div h'.mag⟩

theorem add (h : Same a X Y x) (h' : Same a X' Y' y) : Same (a + 1) (X + X') (Y + Y') (x + y) :=
  ⟨by rw [h.left, h'.left, Fl.fin_add], by rw [h.right, h'.right, Fl.fin_add], h.mag.add h'.mag⟩

theorem sqrt (h : Same a X Y x) (ha : 0 ≤ a) : Same a (Fl.sqrt X) (Fl.sqrt Y) (Real.sqrt x) := by
  have : Fl.sqrt (.fin x) = .fin (Real.sqrt x) := if_neg (not_lt.2 h.mag.pos.le)
  exact ⟨by rw [h.left, this], by rw [h.right, this], h.mag.sqrt ha⟩

end Same

end Emva
