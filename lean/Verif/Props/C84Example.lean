import Verif.Props.C84

/-!
C84 in float64 with the pairwise summation of numpy.
-/
set_option autoImplicit false
namespace Emva
open Finset Rounded

/-- C84, the size of the errors: `k` operations contribute at most `2 k u`. -/
theorem C84_slip {u : ℝ} (hu : 0 ≤ u) (k B : ℕ) (hk : k * u ≤ 1 / 2) : Spec.slip u B k ≤ 2 * k * u * B := by
  unfold Spec.slip
  refine mul_le_mul_of_nonneg_right ?_ (Nat.cast_nonneg B)
  have := growth hu k hk
  linarith

/-- C84 in float64, for the pairwise summation of numpy and images up to 2^40 pixels: the means are exact to 2^-44, the standard
deviation that belongs to the variance of the averages is exact to `2^-43 B` and to a relative error of 2^-44. -/
theorem C84_float64 (imgs : List Img) (M N : ℕ) (hL : 2 ≤ imgs.length)
    (hsh : ∀ a ∈ imgs, a.h = M ∧ a.w = N) (B : ℕ) (hfit : ∀ i < M, ∀ j < N, Fits imgs B i j)
    (hn : M * N ≤ 2 ^ 40) (hLB : imgs.length * B ≤ 2 ^ 53) (hL3 : imgs.length ^ 3 ≤ 2 ^ 36) (hp : 2 ≤ M * N) :
    let y : ℕ → ℕ → ℝ := fun i j => Spec.mean (imgs.map fun a => (a.px i j : ℝ))
    let s2 : ℕ → ℕ → ℝ := fun i j => Spec.sampleVar (imgs.map fun a => (a.px i j : ℝ))
    let v := Spec.imgSampleVar M N y
    let s := Rounded.spatialData Rounding.binary64 (RSum.pairwise _) M N (getIntImgs ℚ i64 imgs)
    |s.avg_mean - Spec.imgMean M N y| ≤ 2 ^ (-44 : ℤ) * Spec.imgMean M N y ∧
    |s.var_mean - Spec.imgMean M N s2| ≤ 2 ^ (-44 : ℤ) * Spec.imgMean M N s2 ∧
    |s.avg_var - v| ≤ (1 + 2 ^ (-44 : ℤ)) * (√v + 2 ^ (-43 : ℤ) * B) ^ 2 - v := by
  intro y s2 v s
  have hM : 0 < M := Nat.pos_of_ne_zero fun h => by rw [h] at hp; omega
  have hN : 0 < N := Nat.pos_of_ne_zero fun h => by rw [h] at hp; omega
  have hMle : M ≤ 2 ^ 40 := le_trans (Nat.le_mul_of_pos_right M hN) hn
  have hNle : N ≤ 2 ^ 40 := le_trans (Nat.le_mul_of_pos_left N hM) hn
  have hLle : imgs.length ≤ 2 ^ 12 := by
    by_contra hc
    rw [not_le] at hc
    have : (2 ^ 12) ^ 3 < imgs.length ^ 3 := Nat.pow_lt_pow_left hc (by norm_num)
    norm_num at this hL3
    omega
  have hLM : imgs.length * M ≤ 2 ^ 53 := (Nat.mul_le_mul hLle hMle).trans (by norm_num)
  have hLN : imgs.length * N ≤ 2 ^ 53 := (Nat.mul_le_mul hLle hNle).trans (by norm_num)
  obtain ⟨h1, h2, h3, -, -⟩ := C84_spatial Rounding.binary64 (RSum.pairwise _) imgs M N hL hsh B hfit (hn.trans (by norm_num)) hLB
    (hL3.trans (by norm_num)) hLM hLN hp
  -- the number of operations
  set d := (RSum.pairwise Rounding.binary64).depth (M * N) with hd
  have d160 : d ≤ 160 := by
    have : d ≤ 127 + 33 := pairDepth_le 33 (M * N) (hn.trans (by norm_num))
    omega
  have u0 : (0 : ℝ) ≤ 2 ^ (-53 : ℤ) := by norm_num
  have g : ∀ k : ℕ, k ≤ 164 → (1 + (2 : ℝ) ^ (-53 : ℤ)) ^ k ≤ 1 + 2 ^ (-44 : ℤ) := by
    intro k hk
    have hk' : (k : ℝ) ≤ 164 := by exact_mod_cast hk
    refine (growth u0 k ?_).trans ?_
    · norm_num
      linarith
    · norm_num
      linarith
  have μ0 : 0 ≤ Spec.imgMean M N y := by
    refine div_nonneg (sum_nonneg fun i hi => sum_nonneg fun j hj => ?_) (by positivity)
    refine div_nonneg (List.sum_nonneg fun x hx => ?_) (by positivity)
    obtain ⟨a, ha, rfl⟩ := List.mem_map.1 hx
    exact_mod_cast ((hfit i (mem_range.1 hi) j (mem_range.1 hj)).1 a ha).1
  have σ0 : 0 ≤ Spec.imgMean M N s2 := by
    refine div_nonneg (sum_nonneg fun i hi => sum_nonneg fun j hj => ?_) (by positivity)
    refine div_nonneg (List.sum_nonneg fun x hx => ?_) ?_
    · obtain ⟨z, -, rfl⟩ := List.mem_map.1 hx
      exact sq_nonneg _
    · rw [List.length_map]
      have : (1 : ℝ) ≤ imgs.length := by exact_mod_cast (by omega : 1 ≤ imgs.length)
      linarith
  refine ⟨h1.trans (mul_le_mul_of_nonneg_right ?_ μ0), h2.trans (mul_le_mul_of_nonneg_right ?_ σ0), h3.trans ?_⟩
  · have := g (d + 2) (by omega)
    linarith
  · have := g (d + 3) (by omega)
    linarith
  · have g4 := g (d + 4) (by omega)
    have g3 := g (d + 3) (by omega)
    have hB0 : (0 : ℝ) ≤ B := Nat.cast_nonneg B
    have g1 : 1 ≤ (1 + (2 : ℝ) ^ (-53 : ℤ)) ^ (d + 3) := one_le_pow₀ (by norm_num)
    have sl0 : 0 ≤ Spec.slip (2 ^ (-53 : ℤ)) B (d + 3) := mul_nonneg (by linarith) hB0
    have sl : 2 * Spec.slip (2 ^ (-53 : ℤ)) B (d + 3) ≤ 2 ^ (-43 : ℤ) * B := by
      unfold Spec.slip
      have e : (2 : ℝ) ^ (-43 : ℤ) = 2 * 2 ^ (-44 : ℤ) := by norm_num
      rw [e, mul_assoc]
      refine mul_le_mul_of_nonneg_left (mul_le_mul_of_nonneg_right ?_ hB0) (by norm_num)
      linarith
    have : (√v + 2 * Spec.slip (2 ^ (-53 : ℤ)) B (d + 3)) ^ 2 ≤ (√v + 2 ^ (-43 : ℤ) * B) ^ 2 :=
      pow_le_pow_left₀ (by positivity) (by linarith) 2
    have := mul_le_mul g4 this (by positivity) (by positivity)
    linarith

/-- the hypotheses are met by three 1 x 2 images -/
example := C84_float64 [⟨1, 2, fun _ j => j⟩, ⟨1, 2, fun _ j => 3 * j⟩, ⟨1, 2, fun _ _ => 7⟩] 1 2 (by decide)
  (by simp) 255 (by
    intro i _ j hj
    refine ⟨?_, by norm_num⟩
    simp only [List.mem_cons, List.not_mem_nil, or_false]
    rintro a (rfl | rfl | rfl) <;> simp <;> omega) (by norm_num) (by norm_num) (by norm_num) (by norm_num)

end Emva
