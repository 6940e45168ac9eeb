import Verif.Model.HighPass
import Verif.Spec.HighPass
import Verif.Lemmas.Histogram
import Mathlib.Algebra.BigOperators.Ring.Finset
import Mathlib.Algebra.BigOperators.Group.Finset.Piecewise
import Mathlib.Tactic.FieldSimp

set_option autoImplicit false
namespace Emva
namespace Routines
open Finset Spec

theorem reflect_inside (n : ℕ) (k : ℤ) (h0 : 0 ≤ k) (h1 : k < n) : reflect n k = k.toNat := by
  unfold reflect
  have : k % (2 * n : ℤ) = k := Int.emod_eq_of_lt h0 (by omega)
  simp only [this]
  rw [if_pos (by omega)]

theorem sum_flip (d : ℕ) (f : ℕ → ℤ) : ∑ a ∈ range d, f (d - 1 - a) = ∑ a ∈ range d, f a :=
  Finset.sum_range_reflect f d

/-- In the interior the convolution does not reach over the edge. -/
theorem convolve_inside (h w : ℕ) (px : ℕ → ℕ → ℤ) (s : ℕ) (kernel : ℕ → ℕ → ℤ) (i j : ℕ)
    (hi : i + 2 * s < h) (hj : j + 2 * s < w) :
    convolve h w px (2 * s + 1) kernel (i + s) (j + s)
      = ∑ a ∈ range (2 * s + 1), ∑ b ∈ range (2 * s + 1), kernel (2 * s - a) (2 * s - b) * px (i + a) (j + b) := by
  unfold convolve
  have hd : (2 * s + 1) / 2 = s := by omega
  rw [hd]
  rw [← sum_flip]
  refine sum_congr rfl fun a ha => ?_
  rw [← sum_flip]
  refine sum_congr rfl fun b hb => ?_
  have ha' := mem_range.1 ha
  have hb' := mem_range.1 hb
  rw [reflect_inside _ _ (by omega) (by omega), reflect_inside _ _ (by omega) (by omega)]
  have e1 : (((i + s : ℕ) : ℤ) + (s : ℤ) - ((2 * s + 1 - 1 - a : ℕ) : ℤ)).toNat = i + a := by omega
  have e2 : (((j + s : ℕ) : ℤ) + (s : ℤ) - ((2 * s + 1 - 1 - b : ℕ) : ℤ)).toNat = j + b := by omega
  rw [e1, e2, Nat.add_sub_cancel]

theorem kernel_sum (s : ℕ) (c : ℤ) (g : ℕ → ℕ → ℤ) :
    ∑ a ∈ range (2 * s + 1), ∑ b ∈ range (2 * s + 1), hpKernel s c (2 * s - a) (2 * s - b) * g a b
      = (c + 1) * g s s - ∑ a ∈ range (2 * s + 1), ∑ b ∈ range (2 * s + 1), g a b := by
  have h1 : ∀ a ∈ range (2 * s + 1), ∀ b ∈ range (2 * s + 1),
      hpKernel s c (2 * s - a) (2 * s - b) * g a b
        = (if a = s then (if b = s then (c + 1) * g s s else 0) else 0) - g a b := by
    intro a ha b hb
    have ha' := mem_range.1 ha
    have hb' := mem_range.1 hb
    unfold hpKernel
    by_cases e1 : a = s
    · by_cases e2 : b = s
      · rw [if_pos ⟨by omega, by omega⟩, if_pos e1, if_pos e2, e1, e2]; ring
      · rw [if_neg (by omega), if_pos e1, if_neg e2]; ring
    · rw [if_neg (by omega), if_neg e1]; ring
  rw [sum_congr rfl fun a ha => sum_congr rfl fun b hb => h1 a ha b hb]
  simp only [sum_sub_distrib]
  congr 1
  rw [sum_eq_single s]
  · rw [sum_eq_single s]
    · simp
    · intro b _ hb; simp [hb]
    · intro h; exact absurd (mem_range.2 (by omega)) h
  · intro a _ ha; simp [ha]
  · intro h; exact absurd (mem_range.2 (by omega)) h

theorem highPass_inside (h w : ℕ) (px : ℕ → ℕ → ℤ) (s : ℕ) (c : ℤ) (i j : ℕ)
    (hi : i + 2 * s < h) (hj : j + 2 * s < w) :
    convolve h w px (2 * s + 1) (hpKernel s c) (i + s) (j + s)
      = (c + 1) * px (i + s) (j + s) - winSum (2 * s + 1) px i j := by
  rw [convolve_inside _ _ _ _ _ _ _ hi hj, kernel_sum s c fun a b => px (i + a) (j + b)]
  rfl

theorem count_inside (h w : ℕ) (m : ℕ → ℕ → Bool) (s i j : ℕ)
    (hi : i + 2 * s < h) (hj : j + 2 * s < w) :
    convolve h w (fun i j => if m i j then 0 else 1) (2 * s + 1) (fun _ _ => 1) (i + s) (j + s)
      = winCount (2 * s + 1) m i j := by
  rw [convolve_inside _ _ _ _ _ _ _ hi hj]
  simp [winCount, winSum]

theorem winSum_add (d : ℕ) (f g : ℕ → ℕ → ℤ) (i j : ℕ) :
    winSum d (fun i j => f i j + g i j) i j = winSum d f i j + winSum d g i j := by
  simp only [winSum, sum_add_distrib]

theorem winSum_smul (d : ℕ) (c : ℤ) (f : ℕ → ℕ → ℤ) (i j : ℕ) :
    winSum d (fun i j => c * f i j) i j = c * winSum d f i j := by
  simp only [winSum, mul_sum]

theorem winSum_const (d : ℕ) (c : ℤ) (i j : ℕ) : winSum d (fun _ _ => c) i j = (d : ℤ) ^ 2 * c := by
  simp [winSum]; ring

theorem sum_odd (s : ℕ) : (∑ a ∈ range (2 * s + 1), (a : ℤ)) = (2 * s + 1) * s := by
  induction s with
  | zero => simp
  | succ s ih =>
    have : 2 * (s + 1) + 1 = 2 * s + 1 + 1 + 1 := by ring
    rw [this, sum_range_succ, sum_range_succ, ih]
    push_cast; ring

theorem winSum_row (s i j : ℕ) :
    winSum (2 * s + 1) (fun i _ => (i : ℤ)) i j = (2 * s + 1 : ℤ) ^ 2 * (i + s : ℕ) := by
  simp only [winSum, sum_const, card_range, nsmul_eq_mul, ← mul_sum, Nat.cast_add, sum_add_distrib,
    sum_odd]
  push_cast; ring

theorem winSum_col (s i j : ℕ) :
    winSum (2 * s + 1) (fun _ j => (j : ℤ)) i j = (2 * s + 1 : ℤ) ^ 2 * (j + s : ℕ) := by
  simp only [winSum, sum_const, card_range, nsmul_eq_mul, Nat.cast_add, sum_add_distrib,
    sum_odd]
  push_cast; ring

theorem mem_ravel {a : MImg} {p : ℤ × Bool} :
    p ∈ a.ravel ↔ ∃ i < a.h, ∃ j < a.w, p = (a.px i j, a.masked i j) := by
  simp only [MImg.ravel, List.mem_flatMap, List.mem_range, List.mem_map]
  constructor
  · rintro ⟨i, hi, j, hj, rfl⟩; exact ⟨i, hi, j, hj, rfl⟩
  · rintro ⟨i, hi, j, hj, rfl⟩; exact ⟨i, hi, j, hj, rfl⟩

/-- parity count along one side of the window -/
theorem parity_count (s k : ℕ) :
    (∑ b ∈ range (2 * s + 1), if (k + b) % 2 = 0 then (1 : ℤ) else 0)
      = if k % 2 = 0 then (s : ℤ) + 1 else s := by
  induction s with
  | zero => rw [mul_zero, zero_add, sum_range_one, add_zero, Nat.cast_zero, zero_add]
  | succ s ih =>
    have : 2 * (s + 1) + 1 = 2 * s + 1 + 1 + 1 := by ring
    rw [this, sum_range_succ, sum_range_succ, ih]
    by_cases h : k % 2 = 0
    · rw [if_pos h, if_pos h, if_neg (by omega), if_pos (by omega)]; push_cast; ring
    · rw [if_neg h, if_neg h, if_pos (by omega), if_neg (by omega)]; push_cast; ring

end Routines
end Emva
