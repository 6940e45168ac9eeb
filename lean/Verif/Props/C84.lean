import Verif.Lemmas.Rounding
import Verif.Model.Rounded
import Verif.Props.C83
import Verif.Props.C19_C20

/-!
C84: the error of the spatial data by rounding.
-/
set_option autoImplicit false
namespace Emva
open Finset Rounded

/-- how far the result of `k` operations on a number up to `B` can be off -/
noncomputable def Spec.slip (u B : ℝ) (k : ℕ) : ℝ := ((1 + u) ^ k - 1) * B

variable {u : ℝ} (R : Rounding u) (S : RSum R)

/-- the mean of floats that are near non-negative numbers -/
theorem meanF_rel {ι : Type*} (I : List ι) (hl : I.length ≤ 2 ^ 53) (k : ℕ) (x' x : ι → ℝ) (hx : ∀ i ∈ I, 0 ≤ x i)
    (h : ∀ i ∈ I, Rel ((1 + u) ^ k) (x' i) (x i)) :
    Rel ((1 + u) ^ (k + S.depth I.length + 1)) (meanF R S (I.map x')) ((I.map x).sum / I.length) := by
  have hs := S.spec (I.map x')
  rw [List.length_map] at hs
  have a := Rel.sum I (one_le_pow₀ (by linarith [R.u_nonneg])) x' x hx h hs
  have b := (a.div I.length).rnd (R := R)
  rw [meanF, List.length_map, R.nat _ hl]
  refine b.mono (le_of_eq ?_)
  rw [pow_add, pow_add, pow_one]

theorem abs_sub_le_of_rel {g x' x B : ℝ} (h : Rel g x' x) (hg : 1 ≤ g) (hx : 0 ≤ x) (hB : x ≤ B) : |x' - x| ≤ (g - 1) * B := by
  unfold Rel at h
  rw [abs_of_nonneg hx] at h
  exact h.trans (mul_le_mul_of_nonneg_left hB (by linarith))

theorem sum_range_list (n : ℕ) (g : ℕ → ℝ) : ((List.range n).map g).sum = ∑ i ∈ range n, g i := by
  induction n with
  | zero => simp
  | succ n ih => rw [List.range_succ, List.map_append, List.sum_append, ih, Finset.sum_range_succ]; simp

/-- the mean square deviation of the means of `A` lines of `K` numbers -/
theorem lines_near (A K B : ℕ) (hA : 0 < A) (hK : 0 < K) (hK' : K ≤ 2 ^ 53) (f' f : ℕ → ℕ → ℝ)
    (hf : ∀ a < A, ∀ k < K, Rel ((1 + u) ^ 1) (f' a k) (f a k) ∧ 0 ≤ f a k ∧ f a k ≤ B) (m' m e : ℝ) (hm : |m' - m| ≤ e) :
    NearSq ((1 + u) ^ (S.depth A + 5)) (Spec.slip u B (S.depth K + 2) + e)
      (R.rnd (R.rnd (1 / A)
        * S.sum (((List.range A).map fun a => meanF R S ((List.range K).map fun k => f' a k)).map (sqDev R m'))))
      ((∑ a ∈ range A, ((∑ k ∈ range K, f a k) / K - m) ^ 2) / A) := by
  have hu := R.u_nonneg
  have hKR : (0 : ℝ) < K := by exact_mod_cast hK
  have hAR : (0 : ℝ) < A := by exact_mod_cast hA
  have one : ∀ k : ℕ, 1 ≤ (1 + u) ^ k := fun k => one_le_pow₀ (by linarith)
  have h1 : ∀ a ∈ List.range A, |meanF R S ((List.range K).map fun k => f' a k) - (∑ k ∈ range K, f a k) / K|
      ≤ Spec.slip u B (S.depth K + 2) := by
    intro a ha
    rw [List.mem_range] at ha
    have r := meanF_rel R S (List.range K) (by rwa [List.length_range]) 1 (fun k => f' a k) (fun k => f a k)
      (fun k hk => (hf a ha k (List.mem_range.1 hk)).2.1) (fun k hk => (hf a ha k (List.mem_range.1 hk)).1)
    rw [List.length_range, sum_range_list] at r
    refine abs_sub_le_of_rel (r.mono (le_of_eq ?_)) (one _) ?_ ?_
    · ring
    · exact div_nonneg (sum_nonneg fun k hk => (hf a ha k (mem_range.1 hk)).2.1) hKR.le
    · rw [div_le_iff₀ hKR]
      have := sum_le_sum fun k hk => (hf a ha k (mem_range.1 hk)).2.2
      refine this.trans (le_of_eq ?_)
      rw [sum_const, card_range, nsmul_eq_mul, mul_comm]
  have hs := S.spec ((List.range A).map fun a =>
    R.rnd (R.rnd (meanF R S ((List.range K).map fun k => f' a k) - m') * R.rnd (meanF R S ((List.range K).map fun k => f' a k) - m')))
  rw [List.length_map, List.length_range] at hs
  have q := devsq (List.range A) (by simpa using hA.ne') (fun a => meanF R S ((List.range K).map fun k => f' a k))
    (fun a => (∑ k ∈ range K, f a k) / K) m' m _ e h1 hm hs
  rw [List.length_range, sum_range_list] at q
  rw [List.map_map]
  set T := S.sum ((List.range A).map fun a =>
    R.rnd (R.rnd (meanF R S ((List.range K).map fun k => f' a k) - m') * R.rnd (meanF R S ((List.range K).map fun k => f' a k) - m')))
    with hT
  have hT' : S.sum ((List.range A).map (sqDev R m' ∘ fun a => meanF R S ((List.range K).map fun k => f' a k))) = T := rfl
  rw [hT']
  have r1 := (Rel.refl (1 / A : ℝ)).rnd (R := R)
  have r2 := (r1.mul (Rel.refl T) le_rfl).rnd (R := R)
  rw [show 1 / (A : ℝ) * T = T / A by ring] at r2
  have q0 : 0 ≤ (∑ a ∈ range A, ((∑ k ∈ range K, f a k) / K - m) ^ 2) / A :=
    div_nonneg (sum_nonneg fun _ _ => sq_nonneg _) hAR.le
  have q' := q.rel q0 r2 (by nlinarith)
  have e : 1 * (1 + u) * 1 * (1 + u) * (1 + u) ^ (S.depth A + 3) = (1 + u) ^ (S.depth A + 5) := by ring
  rwa [e] at q'

/-- the difference of a square mean and a correction -/
theorem near_sub {f e t q g w' w : ℝ} (h : NearSq f e t q) (hq : 0 ≤ q) (hw : 0 ≤ w) (h' : Rel g w' w) :
    |R.rnd (t - w') - (q - w)| ≤ f * (1 + u) * (√q + e) ^ 2 - q + (g * (1 + u) - 1) * w := by
  have hu := R.u_nonneg
  have h1 := R.err (t - w')
  have h2 := h'.abs_le
  have h3 : |t| ≤ f * (√q + e) ^ 2 := by
    have := abs_add_le (t - q) q
    rw [sub_add_cancel, abs_of_nonneg hq] at this
    unfold NearSq at h
    linarith
  have h4 := abs_sub t w'
  have h5 : u * |t - w'| ≤ u * (f * (√q + e) ^ 2 + g * w) := by
    refine mul_le_mul_of_nonneg_left ?_ hu
    rw [abs_of_nonneg hw] at h2
    linarith
  unfold NearSq at h
  unfold Rel at h'
  rw [abs_of_nonneg hw] at h'
  have h6 := abs_add_le (R.rnd (t - w') - (t - w')) ((t - q) - (w' - w))
  rw [show R.rnd (t - w') - (t - w') + ((t - q) - (w' - w)) = R.rnd (t - w') - (q - w) by ring] at h6
  have h7 := abs_sub (t - q) (w' - w)
  nlinarith

/-- C84. The spatial data of a stack of at least two images of `M x N` pixels up to `B`. With `k` the number of roundings that
a number takes part in, `slip k = ((1+u)^k - 1) B`, and `d` the depth of the summation of numpy:

* the means are exact up to a factor `(1+u)^k`,
* a variance `v` is exact up to a factor `(1+u)^k` if an error of `slip k` is added to the standard deviation. -/
theorem C84_spatial (imgs : List Img) (M N : ℕ) (hL : 2 ≤ imgs.length)
    (hsh : ∀ a ∈ imgs, a.h = M ∧ a.w = N) (B : ℕ) (hfit : ∀ i < M, ∀ j < N, Fits imgs B i j)
    (hn : M * N ≤ 2 ^ 53) (hLB : imgs.length * B ≤ 2 ^ 53) (hL3 : imgs.length ^ 3 ≤ 2 ^ 53)
    (hLM : imgs.length * M ≤ 2 ^ 53) (hLN : imgs.length * N ≤ 2 ^ 53) (hp : 2 ≤ M * N) :
    let y : ℕ → ℕ → ℝ := fun i j => Spec.mean (imgs.map fun a => (a.px i j : ℝ))
    let s2 : ℕ → ℕ → ℝ := fun i j => Spec.sampleVar (imgs.map fun a => (a.px i j : ℝ))
    let L : ℝ := imgs.length
    let μ : ℝ := Spec.imgMean M N y
    let σ2 : ℝ := Spec.imgMean M N s2
    let v := Spec.imgSampleVar M N y
    let vc := (∑ j ∈ range N, ((∑ i ∈ range M, y i j) / M - μ) ^ 2) / N
    let vr := (∑ i ∈ range M, ((∑ j ∈ range N, y i j) / N - μ) ^ 2) / M
    let d := S.depth (M * N)
    let s := Rounded.spatialData R S M N (getIntImgs ℚ i64 imgs)
    |s.avg_mean - μ| ≤ ((1 + u) ^ (d + 2) - 1) * μ ∧
    |s.var_mean - σ2| ≤ ((1 + u) ^ (d + 3) - 1) * σ2 ∧
    |s.avg_var - v| ≤ (1 + u) ^ (d + 4) * (√v + 2 * Spec.slip u B (d + 3)) ^ 2 - v ∧
    |s.avg_var_cav - (vc - σ2 / (L * M))|
      ≤ (1 + u) ^ (S.depth N + 6) * (√vc + (Spec.slip u B (S.depth M + 2) + Spec.slip u B (d + 2))) ^ 2 - vc
        + ((1 + u) ^ (d + 5) - 1) * (σ2 / (L * M)) ∧
    |s.avg_var_rav - (vr - σ2 / (L * N))|
      ≤ (1 + u) ^ (S.depth M + 6) * (√vr + (Spec.slip u B (S.depth N + 2) + Spec.slip u B (d + 2))) ^ 2 - vr
        + ((1 + u) ^ (d + 5) - 1) * (σ2 / (L * N)) := by
  intro y s2 L μ σ2 v vc vr d s
  have hu := R.u_nonneg
  have one : ∀ k : ℕ, 1 ≤ (1 + u) ^ k := fun k => one_le_pow₀ (by linarith)
  have hM : 0 < M := Nat.pos_of_ne_zero fun h => by rw [h] at hp; omega
  have hN : 0 < N := Nat.pos_of_ne_zero fun h => by rw [h] at hp; omega
  have hMR : (0 : ℝ) < M := by exact_mod_cast hM
  have hNR : (0 : ℝ) < N := by exact_mod_cast hN
  have hLR : (2 : ℝ) ≤ L := by
    show (2 : ℝ) ≤ (imgs.length : ℝ)
    exact_mod_cast hL
  have hne : imgs ≠ [] := by rintro rfl; simp at hL
  have hd : (getIntImgs ℚ i64 imgs).h = M ∧ (getIntImgs ℚ i64 imgs).w = N := by
    obtain ⟨a0, t0, rfl⟩ := List.exists_cons_of_ne_nil hne
    have := hsh a0 (by simp)
    simp [getIntImgs, this]
  have hLd : (getIntImgs ℚ i64 imgs).L = imgs.length := rfl
  have hMle : M ≤ 2 ^ 53 := le_trans (Nat.le_mul_of_pos_right M hN) hn
  have hNle : N ≤ 2 ^ 53 := le_trans (Nat.le_mul_of_pos_left N hM) hn
  -- exact numbers
  have hLle : imgs.length ≤ 2 ^ 53 := le_trans (Nat.le_self_pow (by norm_num) _) hL3
  have rL : R.rnd (imgs.length : ℝ) = imgs.length := R.nat _ hLle
  have rL' : R.rnd (1 * R.rnd (imgs.length : ℝ)) = imgs.length := by rw [rL, one_mul, rL]
  have hLL : imgs.length * imgs.length ≤ 2 ^ 53 := by
    refine le_trans ?_ hL3
    nlinarith
  have rLL : R.rnd ((imgs.length * imgs.length : ℕ) : ℝ) = ((imgs.length * imgs.length : ℕ) : ℝ) := R.nat _ hLL
  have rL1 : R.rnd ((imgs.length - 1 : ℕ) : ℝ) = ((imgs.length - 1 : ℕ) : ℝ) := R.nat _ (by omega)
  have rc : R.rnd (R.rnd (1 * R.rnd ((imgs.length * imgs.length : ℕ) : ℝ)) * R.rnd ((imgs.length - 1 : ℕ) : ℝ))
      = L * L * (L - 1) := by
    rw [rLL, one_mul, rLL, rL1, ← Nat.cast_mul, R.nat]
    · push_cast [Nat.cast_sub (by omega : 1 ≤ imgs.length)]
      ring
    · refine le_trans ?_ hL3
      calc imgs.length * imgs.length * (imgs.length - 1) ≤ imgs.length * imgs.length * imgs.length :=
            Nat.mul_le_mul_left _ (Nat.sub_le _ _)
        _ = imgs.length ^ 3 := by ring
  -- the averages of the pixels
  have hy : ∀ i < M, ∀ j < N, R.rnd (R.rnd ((getIntImgs ℚ i64 imgs).sum i j : ℝ) / R.rnd (1 * R.rnd (imgs.length : ℝ))) = R.rnd (y i j)
      ∧ 0 ≤ y i j ∧ y i j ≤ B := by
    intro i hi j hj
    have hf := hfit i hi j hj
    have hs := (C04_int64_exact ℚ imgs B i j hf).1
    have hb : 0 ≤ (imgs.map fun a => a.px i j).sum ∧ (imgs.map fun a => a.px i j).sum ≤ imgs.length * B := by
      have := sum_bounds (imgs.map fun a => a.px i j) (B : ℤ) (by
        intro x hx
        obtain ⟨a, ha, rfl⟩ := List.mem_map.1 hx
        exact hf.1 a ha)
      rw [List.length_map] at this
      exact this
    have hyeq : y i j = ((imgs.map fun a => a.px i j).sum : ℤ) / L := by
      simp only [y, Spec.mean, List.length_map, L]
      congr 1
      rw [Int.cast_list_sum, List.map_map]
      rfl
    refine ⟨?_, ?_, ?_⟩
    · rw [rL', hs, R.int _ (by
        rw [abs_of_nonneg hb.1]
        refine hb.2.trans ?_
        exact_mod_cast hLB), hyeq]
    · rw [hyeq]
      have : (0 : ℝ) ≤ ((imgs.map fun a => a.px i j).sum : ℤ) := by exact_mod_cast hb.1
      positivity
    · rw [hyeq, div_le_iff₀ (by linarith)]
      have : (((imgs.map fun a => a.px i j).sum : ℤ) : ℝ) ≤ ((imgs.length * B : ℤ) : ℝ) := by exact_mod_cast hb.2
      rw [Int.cast_mul, Int.cast_natCast, Int.cast_natCast] at this
      show _ ≤ (B : ℝ) * (imgs.length : ℝ)
      rw [mul_comm]
      exact this
  have hyrel : ∀ i < M, ∀ j < N,
      Rel ((1 + u) ^ 1) (R.rnd (R.rnd ((getIntImgs ℚ i64 imgs).sum i j : ℝ) / R.rnd (1 * R.rnd (imgs.length : ℝ)))) (y i j) := by
    intro i hi j hj
    rw [(hy i hi j hj).1, pow_one]
    have := (Rel.refl (y i j)).rnd (R := R)
    rwa [one_mul] at this
  -- the variances of the pixels
  have hs2 : ∀ i < M, ∀ j < N, 0 ≤ s2 i j ∧
      Rel ((1 + u) ^ 2) (R.rnd (R.rnd ((getIntImgs ℚ i64 imgs).pvar i j : ℝ)
        / R.rnd (R.rnd (1 * R.rnd ((imgs.length * imgs.length : ℕ) : ℝ)) * R.rnd ((imgs.length - 1 : ℕ) : ℝ)))) (s2 i j) := by
    intro i hi j hj
    have hpv : ((getIntImgs ℚ i64 imgs).pvar i j : ℝ) / (L * L * (L - 1)) = s2 i j := by
      have h1 := C01_pvar_sample_variance ℝ imgs hL B i j (hfit i hi j hj)
      have h2 : (getIntImgs ℚ i64 imgs).pvar i j = (getIntImgs ℝ i64 imgs).pvar i j := by
        rw [(C04_int64_exact ℚ imgs B i j (hfit i hi j hj)).2, (C04_int64_exact ℝ imgs B i j (hfit i hi j hj)).2]
      rw [h2, h1]
      have : L - 1 ≠ 0 := by linarith
      have : L ≠ 0 := by linarith
      show _ = s2 i j
      simp only [s2, L] at *
      field_simp
    constructor
    · show 0 ≤ Spec.sampleVar _
      unfold Spec.sampleVar
      refine div_nonneg (List.sum_nonneg fun x hx => ?_) ?_
      · obtain ⟨z, -, rfl⟩ := List.mem_map.1 hx
        exact sq_nonneg _
      · rw [List.length_map]
        show 0 ≤ L - 1
        linarith
    · rw [rc]
      have a := (Rel.refl ((getIntImgs ℚ i64 imgs).pvar i j : ℝ)).rnd (R := R)
      have b := (a.div (L * L * (L - 1))).rnd (R := R)
      rw [hpv] at b
      refine b.mono (le_of_eq ?_)
      ring
  -- the means of the images
  have pix : ∀ (f : ℕ → ℕ → ℝ), pixelsOf M N f = (pixelsOf M N fun i j => (i, j)).map fun p => f p.1 p.2 := by
    intro f
    rw [pixelsOf_map]
  have memP : ∀ p ∈ pixelsOf M N (fun i j => (i, j)), p.1 < M ∧ p.2 < N := by
    intro p hp
    simp only [pixelsOf, List.mem_flatMap, List.mem_range, List.mem_map] at hp
    obtain ⟨i, hi, j, hj, rfl⟩ := hp
    exact ⟨hi, hj⟩
  have lenP : (pixelsOf M N fun i j => (i, j)).length = M * N := by
    simp [pixelsOf, List.length_flatMap]
  have MN : ((M * N : ℕ) : ℝ) = (M : ℝ) * N := by push_cast; rfl
  have MNpos : (0 : ℝ) < (M : ℝ) * N := by positivity
  set avg' : ℕ → ℕ → ℝ := fun i j => R.rnd (R.rnd ((getIntImgs ℚ i64 imgs).sum i j : ℝ) / R.rnd (1 * R.rnd (imgs.length : ℝ)))
    with havg'
  set var' : ℕ → ℕ → ℝ := fun i j => R.rnd (R.rnd ((getIntImgs ℚ i64 imgs).pvar i j : ℝ)
        / R.rnd (R.rnd (1 * R.rnd ((imgs.length * imgs.length : ℕ) : ℝ)) * R.rnd ((imgs.length - 1 : ℕ) : ℝ))) with hvar'
  have sumP : ∀ f : ℕ → ℕ → ℝ, ((pixelsOf M N fun i j => (i, j)).map fun p => f p.1 p.2).sum / ((M * N : ℕ) : ℝ)
      = Spec.imgMean M N f := by
    intro f
    rw [← pix, pixelsOf_sum, MN, Spec.imgMean]
  have rμ : Rel ((1 + u) ^ (d + 2)) s.avg_mean μ := by
    have r := meanF_rel R S (pixelsOf M N fun i j => (i, j)) (by rw [lenP]; exact hn) 1 (fun p => avg' p.1 p.2)
      (fun p => y p.1 p.2) (fun p hp => (hy _ (memP p hp).1 _ (memP p hp).2).2.1)
      (fun p hp => hyrel _ (memP p hp).1 _ (memP p hp).2)
    rw [lenP, sumP, ← pix] at r
    have e : s.avg_mean = meanF R S (pixelsOf M N avg') := by
      show meanF R S (pixelsOf (getIntImgs ℚ i64 imgs).h (getIntImgs ℚ i64 imgs).w avg') = _
      rw [hd.1, hd.2]
    rw [e]
    refine r.mono (le_of_eq ?_)
    ring
  have rσ : Rel ((1 + u) ^ (d + 3)) s.var_mean σ2 := by
    have r := meanF_rel R S (pixelsOf M N fun i j => (i, j)) (by rw [lenP]; exact hn) 2 (fun p => var' p.1 p.2)
      (fun p => s2 p.1 p.2) (fun p hp => (hs2 _ (memP p hp).1 _ (memP p hp).2).1)
      (fun p hp => (hs2 _ (memP p hp).1 _ (memP p hp).2).2)
    rw [lenP, sumP, ← pix] at r
    have e : s.var_mean = meanF R S (pixelsOf M N var') := by
      show meanF R S (pixelsOf (getIntImgs ℚ i64 imgs).h (getIntImgs ℚ i64 imgs).w var') = _
      rw [hd.1, hd.2]
    rw [e]
    refine r.mono (le_of_eq ?_)
    ring
  have mean_bounds : 0 ≤ μ ∧ μ ≤ B := by
    constructor
    · exact div_nonneg (sum_nonneg fun i hi => sum_nonneg fun j hj =>
        (hy i (mem_range.1 hi) j (mem_range.1 hj)).2.1) MNpos.le
    · show _ / _ ≤ _
      rw [div_le_iff₀ MNpos]
      have := sum_le_sum fun i hi => sum_le_sum fun j hj => (hy i (mem_range.1 hi) j (mem_range.1 hj)).2.2
      refine this.trans (le_of_eq ?_)
      simp only [sum_const, card_range, nsmul_eq_mul]
      ring
  have σ0 : 0 ≤ σ2 := div_nonneg (sum_nonneg fun i hi => sum_nonneg fun j hj =>
        (hs2 i (mem_range.1 hi) j (mem_range.1 hj)).1) MNpos.le
  have eμ : |s.avg_mean - μ| ≤ Spec.slip u B (d + 2) := abs_sub_le_of_rel rμ (one _) mean_bounds.1 mean_bounds.2
  refine ⟨?_, ?_, ?_, ?_, ?_⟩
  · have := rμ
    unfold Rel at this
    rwa [abs_of_nonneg mean_bounds.1] at this
  · have := rσ
    unfold Rel at this
    rwa [abs_of_nonneg σ0] at this
  · -- the variance of the averages
    have hPne : (pixelsOf M N fun i j => (i, j)) ≠ [] := by
      intro h
      rw [h] at lenP
      simp at lenP
      omega
    have eavg : s.avg_mean = meanF R S (pixelsOf M N avg') := by
      show meanF R S (pixelsOf (getIntImgs ℚ i64 imgs).h (getIntImgs ℚ i64 imgs).w avg') = _
      rw [hd.1, hd.2]
    have hs := S.spec ((pixelsOf M N fun i j => (i, j)).map fun p =>
      R.rnd (R.rnd (avg' p.1 p.2 - s.avg_mean) * R.rnd (avg' p.1 p.2 - s.avg_mean)))
    rw [List.length_map, lenP] at hs
    have h1 : ∀ p ∈ pixelsOf M N (fun i j => (i, j)), |avg' p.1 p.2 - y p.1 p.2| ≤ Spec.slip u B 1 := fun p hp =>
      abs_sub_le_of_rel (hyrel _ (memP p hp).1 _ (memP p hp).2) (one 1) (hy _ (memP p hp).1 _ (memP p hp).2).2.1
        (hy _ (memP p hp).1 _ (memP p hp).2).2.2
    have q := devsq (pixelsOf M N fun i j => (i, j)) hPne (fun p => avg' p.1 p.2) (fun p => y p.1 p.2) s.avg_mean μ _ _ h1 eμ hs
    rw [lenP] at q
    set T := S.sum ((pixelsOf M N fun i j => (i, j)).map fun p =>
      R.rnd (R.rnd (avg' p.1 p.2 - s.avg_mean) * R.rnd (avg' p.1 p.2 - s.avg_mean))) with hT
    have ev : s.avg_var = R.rnd (T / ((M * N - 1 : ℕ) : ℝ)) := by
      have e1 : (pixelsOf M N avg').length = M * N := by rw [pix, List.length_map, lenP]
      have e2 : s.avg_var = var1 R S (pixelsOf M N avg') := by
        show var1 R S (pixelsOf (getIntImgs ℚ i64 imgs).h (getIntImgs ℚ i64 imgs).w avg') = _
        rw [hd.1, hd.2]
      rw [e2, var1, ← eavg, e1, R.nat _ (by omega), pix avg', List.map_map]
      rfl
    have hn1 : ((M * N - 1 : ℕ) : ℝ) = (M : ℝ) * N - 1 := by
      push_cast [Nat.cast_sub (by omega : 1 ≤ M * N)]
      ring
    have hMN2 : (2 : ℝ) ≤ (M : ℝ) * N := by exact_mod_cast hp
    have hn1p : (0 : ℝ) < (M : ℝ) * N - 1 := by linarith
    set Q := ((pixelsOf M N fun i j => (i, j)).map fun p => (y p.1 p.2 - μ) ^ 2).sum with hQ
    have hv : v = Q / ((M : ℝ) * N - 1) := by
      show _ / _ = _
      rw [hQ, ← pix fun i j => (y i j - μ) ^ 2, pixelsOf_sum]
    have hQ0 : 0 ≤ Q := by
      rw [hQ, ← pix fun i j => (y i j - μ) ^ 2, pixelsOf_sum]
      exact sum_nonneg fun _ _ => sum_nonneg fun _ _ => sq_nonneg _
    have hv0 : 0 ≤ v := by rw [hv]; positivity
    have hslip : Spec.slip u B 1 + Spec.slip u B (d + 2) ≤ Spec.slip u B (d + 3) := by
      unfold Spec.slip
      rw [← add_mul]
      refine mul_le_mul_of_nonneg_right ?_ (Nat.cast_nonneg B)
      have := one (d + 2)
      rw [pow_succ (1 + u) (d + 2), pow_one]
      nlinarith
    have hslip0 : 0 ≤ Spec.slip u B 1 + Spec.slip u B (d + 2) := by
      unfold Spec.slip
      have := one 1
      have := one (d + 2)
      have hB0 : (0 : ℝ) ≤ B := Nat.cast_nonneg B
      refine add_nonneg (mul_nonneg ?_ hB0) (mul_nonneg ?_ hB0) <;> linarith
    -- from the mean to the variance with n - 1
    have q2 : NearSq ((1 + u) ^ (d + 3)) (2 * Spec.slip u B (d + 3)) (T / ((M : ℝ) * N - 1)) v := by
      set e := Spec.slip u B 1 + Spec.slip u B (d + 2) with he
      set n : ℝ := (M : ℝ) * N with hnn
      unfold NearSq at q ⊢
      rw [MN] at q
      have k0 : 0 < n / (n - 1) := by positivity
      have k2 : n / (n - 1) ≤ 4 := by rw [div_le_iff₀ hn1p]; linarith
      have sk : √(n / (n - 1)) ≤ 2 := by
        rw [show (2 : ℝ) = √4 by rw [show (4 : ℝ) = 2 ^ 2 by norm_num, Real.sqrt_sq (by norm_num)]]
        exact Real.sqrt_le_sqrt k2
      have ev1 : v = n / (n - 1) * (Q / n) := by rw [hv]; field_simp
      have eT : T / (n - 1) - v = n / (n - 1) * (T / n - Q / n) := by rw [hv]; field_simp
      rw [eT, abs_mul, abs_of_pos k0]
      refine (mul_le_mul_of_nonneg_left q k0.le).trans ?_
      have es : √v = √(n / (n - 1)) * √(Q / n) := by rw [ev1, Real.sqrt_mul k0.le]
      have e1 : n / (n - 1) * ((1 + u) ^ (d + 3) * (√(Q / n) + e) ^ 2 - Q / n)
          = (1 + u) ^ (d + 3) * (√v + √(n / (n - 1)) * e) ^ 2 - v := by
        rw [es, ev1]
        have := Real.sq_sqrt k0.le
        rw [← mul_add, mul_pow, this]
        ring
      rw [e1]
      have h2 : √(n / (n - 1)) * e ≤ 2 * Spec.slip u B (d + 3) := mul_le_mul sk hslip hslip0 (by norm_num)
      have h3 : (√v + √(n / (n - 1)) * e) ^ 2 ≤ (√v + 2 * Spec.slip u B (d + 3)) ^ 2 :=
        pow_le_pow_left₀ (by positivity) (by linarith) 2
      have := mul_le_mul_of_nonneg_left h3 (zero_le_one.trans (one (d + 3)))
      linarith
    rw [ev, hn1]
    have r := (Rel.refl (T / ((M : ℝ) * N - 1))).rnd (R := R)
    have q3 := q2.rel hv0 r (by linarith)
    unfold NearSq at q3
    refine q3.trans (le_of_eq ?_)
    ring
  · -- columns
    have q := lines_near R S N M B hN hM hMle (fun j i => avg' i j) (fun j i => y i j)
      (fun j hj i hi => ⟨hyrel i hi j hj, (hy i hi j hj).2⟩) s.avg_mean μ _ eμ
    have w := (rσ.div (L * M)).rnd (R := R)
    have hc0 : 0 ≤ vc := div_nonneg (sum_nonneg fun _ _ => sq_nonneg _) hNR.le
    have z := near_sub R q hc0 (by positivity) w
    have e : s.avg_var_cav = R.rnd (R.rnd (R.rnd (1 / N) * S.sum (((List.range N).map fun j =>
        meanF R S ((List.range M).map fun i => avg' i j)).map (sqDev R s.avg_mean))) - R.rnd (s.var_mean / (L * M))) := by
      have hr : R.rnd ((imgs.length * M : ℕ) : ℝ) = L * M := by rw [R.nat _ hLM]; push_cast; rfl
      rw [← hr]
      show R.rnd (R.rnd (R.rnd (1 / N) * S.sum (((List.range (getIntImgs ℚ i64 imgs).w).map fun j =>
        meanF R S ((List.range (getIntImgs ℚ i64 imgs).h).map fun i => avg' i j)).map (sqDev R s.avg_mean))) - R.rnd (s.var_mean / R.rnd ((imgs.length * M : ℕ) : ℝ))) = _
      rw [hd.1, hd.2]
    rw [e]
    refine z.trans (le_of_eq ?_)
    ring
  · have q := lines_near R S M N B hM hN hNle (fun i j => avg' i j) (fun i j => y i j)
      (fun i hi j hj => ⟨hyrel i hi j hj, (hy i hi j hj).2⟩) s.avg_mean μ _ eμ
    have w := (rσ.div (L * N)).rnd (R := R)
    have hc0 : 0 ≤ vr := div_nonneg (sum_nonneg fun _ _ => sq_nonneg _) hMR.le
    have z := near_sub R q hc0 (by positivity) w
    have e : s.avg_var_rav = R.rnd (R.rnd (R.rnd (1 / M) * S.sum (((List.range M).map fun i =>
        meanF R S ((List.range N).map fun j => avg' i j)).map (sqDev R s.avg_mean))) - R.rnd (s.var_mean / (L * N))) := by
      have hr : R.rnd ((imgs.length * N : ℕ) : ℝ) = L * N := by rw [R.nat _ hLN]; push_cast; rfl
      rw [← hr]
      show R.rnd (R.rnd (R.rnd (1 / M) * S.sum (((List.range (getIntImgs ℚ i64 imgs).h).map fun i =>
        meanF R S ((List.range (getIntImgs ℚ i64 imgs).w).map fun j => avg' i j)).map (sqDev R s.avg_mean))) - R.rnd (s.var_mean / R.rnd ((imgs.length * N : ℕ) : ℝ))) = _
      rw [hd.1, hd.2]
    rw [e]
    refine z.trans (le_of_eq ?_)
    ring

end Emva
