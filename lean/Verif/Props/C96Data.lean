import Verif.Props.C96
import Verif.Props.C84

/-!
C96: the spatial results in floating point arithmetic, from the images.
-/
set_option autoImplicit false
namespace Emva
open Spec Data Results Finset

/-! ### variances of bounded numbers -/

/-- squared deviations from the mean of `n` numbers up to `B` are at most `n B² / 4` in total -/
theorem dev_le {ι : Type*} (I : Finset ι) (x : ι → ℝ) (B n : ℝ) (hn : (I.card : ℝ) = n) (hn0 : 0 < n)
    (hx : ∀ i ∈ I, 0 ≤ x i ∧ x i ≤ B) : ∑ i ∈ I, (x i - (∑ i ∈ I, x i) / n) ^ 2 ≤ n * (B ^ 2 / 4) := by
  obtain ⟨m, hm⟩ : ∃ m, m = (∑ i ∈ I, x i) / n := ⟨_, rfl⟩
  have hs : ∑ i ∈ I, x i = n * m := by rw [hm]; field_simp
  rw [← hm]
  have h1 : ∑ i ∈ I, (x i - m) ^ 2 ≤ ∑ i ∈ I, ((B - 2 * m) * x i + m ^ 2) := sum_le_sum fun i hi => by
    obtain ⟨h0, h1⟩ := hx i hi
    nlinarith
  rw [sum_add_distrib, ← mul_sum, hs, sum_const, nsmul_eq_mul, hn] at h1
  refine h1.trans ?_
  have : 0 ≤ n * (B / 2 - m) ^ 2 := by positivity
  nlinarith

theorem imgSampleVar_le (M N : ℕ) (y : ℕ → ℕ → ℝ) (B : ℝ) (hp : 2 ≤ M * N) (hy : ∀ i < M, ∀ j < N, 0 ≤ y i j ∧ y i j ≤ B) :
    imgSampleVar M N y ≤ B ^ 2 / 2 := by
  unfold imgSampleVar imgMean
  have hn : (2 : ℝ) ≤ (M : ℝ) * N := by exact_mod_cast hp
  have := dev_le (range M ×ˢ range N) (fun p => y p.1 p.2) B (M * N) (by simp) (by linarith) fun p hp => by
    rw [mem_product, mem_range, mem_range] at hp
    exact hy _ hp.1 _ hp.2
  rw [sum_product, sum_product] at this
  rw [div_le_iff₀ (by linarith)]
  refine this.trans ?_
  nlinarith [sq_nonneg B]

theorem sampleVar_le (l : List ℝ) (B : ℝ) (hl : 2 ≤ l.length) (hy : ∀ x ∈ l, 0 ≤ x ∧ x ≤ B) : sampleVar l ≤ B ^ 2 / 2 := by
  unfold sampleVar mean
  have hn : (2 : ℝ) ≤ l.length := by exact_mod_cast hl
  have := dev_le univ (fun i : Fin l.length => l[i]) B l.length (by simp) (by linarith) fun i _ => hy _ (List.getElem_mem _)
  have e : ∀ f : ℝ → ℝ, ∑ i : Fin l.length, f l[i] = (l.map f).sum := fun f => by
    rw [← List.sum_ofFn]
    congr 1
    conv_rhs => rw [← List.ofFn_getElem (xs := l)]
    rw [List.map_ofFn]; rfl
  rw [e fun x => (x - (∑ i : Fin l.length, l[i]) / l.length) ^ 2, show ∑ i : Fin l.length, l[i] = l.sum by simpa using e id] at this
  rw [div_le_iff₀ (by linarith)]
  refine this.trans ?_
  nlinarith [sq_nonneg B]

theorem mean_mem (l : List ℝ) (B : ℝ) (hl : l ≠ []) (hy : ∀ x ∈ l, 0 ≤ x ∧ x ≤ B) : 0 ≤ mean l ∧ mean l ≤ B := by
  unfold mean
  have hn : (0 : ℝ) < l.length := by exact_mod_cast List.length_pos_of_ne_nil hl
  constructor
  · exact div_nonneg (List.sum_nonneg fun x hx => (hy x hx).1) hn.le
  · rw [div_le_iff₀ hn]
    have := List.sum_le_card_nsmul l B fun x hx => (hy x hx).2
    rw [nsmul_eq_mul] at this
    linarith

theorem avg_mem (n : ℕ) (hn : 0 < n) (x : ℕ → ℝ) (B : ℝ) (hx : ∀ i < n, 0 ≤ x i ∧ x i ≤ B) :
    0 ≤ (∑ i ∈ range n, x i) / n ∧ (∑ i ∈ range n, x i) / n ≤ B := by
  have hn' : (0 : ℝ) < n := by exact_mod_cast hn
  constructor
  · exact div_nonneg (sum_nonneg fun i hi => (hx i (mem_range.1 hi)).1) hn'.le
  · rw [div_le_iff₀ hn']
    have := sum_le_card_nsmul (range n) x B fun i hi => (hx i (mem_range.1 hi)).2
    rw [card_range, nsmul_eq_mul] at this
    linarith

theorem imgMean_rows (M N : ℕ) (y : ℕ → ℕ → ℝ) : imgMean M N y = (∑ i ∈ range M, (∑ j ∈ range N, y i j) / N) / M := by
  unfold imgMean
  rw [← sum_div, div_div, mul_comm (N : ℝ)]

theorem imgMean_cols (M N : ℕ) (y : ℕ → ℕ → ℝ) : imgMean M N y = (∑ j ∈ range N, (∑ i ∈ range M, y i j) / M) / N := by
  unfold imgMean
  rw [sum_comm, ← sum_div, div_div]

/-! ### the spatial data -/

/-- a variance whose standard deviation has an error of `2 (h - 1) B` and which has a factor `g` is off by `g h⁴` on the scale `B²` -/
theorem off_of_sqrt {g h B v x c e : ℝ} (hg : 1 ≤ g) (hh : 1 ≤ h) (hB : 0 ≤ B) (hv : 0 ≤ v) (hv1 : v ≤ B ^ 2)
    (hc : 0 ≤ c) (hc1 : c ≤ 2 * ((h - 1) * B)) (H : |x| ≤ g * (√v + c) ^ 2 - v + e) : |x| ≤ (g * h ^ 4 - 1) * B ^ 2 + e := by
  have s0 := Real.sqrt_nonneg v
  have s1 : √v ≤ B := Real.sqrt_le_iff.2 ⟨hB, hv1⟩
  have s2 : √v ^ 2 = v := Real.sq_sqrt hv
  obtain ⟨k, hk⟩ : ∃ k, k = h - 1 := ⟨_, rfl⟩
  have hk0 : 0 ≤ k := by linarith
  rw [← hk] at hc1
  have h1 : (√v + c) ^ 2 ≤ (√v + 2 * (k * B)) ^ 2 := pow_le_pow_left₀ (by linarith) (by linarith) 2
  have h2 : g * (√v + c) ^ 2 ≤ g * (√v + 2 * (k * B)) ^ 2 := mul_le_mul_of_nonneg_left h1 (by linarith)
  have h3 : g * (√v + 2 * (k * B)) ^ 2 - v ≤ (g * (1 + 2 * k) ^ 2 - 1) * B ^ 2 := by
    have e1 : g * (√v + 2 * (k * B)) ^ 2 - v = (g - 1) * v + g * (4 * k * (√v * B) + 4 * k ^ 2 * B ^ 2) := by
      linear_combination g * s2
    have e2 : (g * (1 + 2 * k) ^ 2 - 1) * B ^ 2 = (g - 1) * B ^ 2 + g * (4 * k * (B * B) + 4 * k ^ 2 * B ^ 2) := by ring
    rw [e1, e2]
    have a1 := mul_le_mul_of_nonneg_left hv1 (by linarith : 0 ≤ g - 1)
    have a2 : 4 * k * (√v * B) ≤ 4 * k * (B * B) := mul_le_mul_of_nonneg_left (mul_le_mul_of_nonneg_right s1 hB) (by linarith)
    have a3 : g * (4 * k * (√v * B) + 4 * k ^ 2 * B ^ 2) ≤ g * (4 * k * (B * B) + 4 * k ^ 2 * B ^ 2) :=
      mul_le_mul_of_nonneg_left (by linarith) (by linarith)
    linarith
  have h4 : (1 + 2 * k) ^ 2 ≤ h ^ 4 := by
    have : 1 + 2 * k ≤ h ^ 2 := by rw [show h = 1 + k by linarith]; nlinarith
    calc (1 + 2 * k) ^ 2 ≤ (h ^ 2) ^ 2 := pow_le_pow_left₀ (by linarith) this 2
      _ = h ^ 4 := by ring
  have h5 : (g * (1 + 2 * k) ^ 2 - 1) * B ^ 2 ≤ (g * h ^ 4 - 1) * B ^ 2 :=
    mul_le_mul_of_nonneg_right (by linarith [mul_le_mul_of_nonneg_left h4 (by linarith : 0 ≤ g)]) (by positivity)
  linarith

section
variable {u : ℝ} (R : Rounding u) (S : RSum R)

theorem spatialDict_fields (M N : ℕ) (d : IntImgs ℚ) : let s := Rounded.spatialDict R S M N d
    let t := Rounded.spatialData R S M N d
    s.L = d.L ∧ s.M = M ∧ s.N = N ∧ s.avg_var = .fin t.avg_var ∧ s.var_mean = .fin t.var_mean ∧
      s.avg_var_cav = .fin t.avg_var_cav ∧ s.avg_var_rav = .fin t.avg_var_rav ∧ s.avg_mean = .fin t.avg_mean :=
  ⟨rfl, rfl, rfl, rfl, rfl, rfl, rfl, rfl⟩

set_option maxHeartbeats 1000000 in
/-- C96: the spatial data of a stack of at least two images with numbers up to `B`. With summations of depth at most `e`, all the
variances are off by at most `5 e + 16` roundings on the scales `B²` and `2 B²`, the mean by `e + 2` roundings. -/
theorem C96_stack (imgs : List Img) (M N : ℕ) (hL : 2 ≤ imgs.length)
    (hsh : ∀ a ∈ imgs, a.h = M ∧ a.w = N) (B : ℕ) (hfit : ∀ i < M, ∀ j < N, Fits imgs B i j)
    (hn : M * N ≤ 2 ^ 53) (hLB : imgs.length * B ≤ 2 ^ 53) (hL3 : imgs.length ^ 3 ≤ 2 ^ 53)
    (hLM : imgs.length * M ≤ 2 ^ 53) (hLN : imgs.length * N ≤ 2 ^ 53) (hp : 2 ≤ M * N)
    (e : ℕ) (he : S.depth (M * N) ≤ e) (heM : S.depth M ≤ e) (heN : S.depth N ≤ e) :
    ∃ s, getSpatialData M N (getIntImgs ℝ i64 imgs) = .ok s ∧
      let s' := Rounded.spatialDict R S M N (getIntImgs ℚ i64 imgs)
      let G := (1 + u) ^ (5 * e + 16)
      s'.L = s.L ∧ s'.M = s.M ∧ s'.N = s.N ∧ s.L = imgs.length ∧ s.M = M ∧ s.N = N ∧
      (∃ v' v, s'.avg_var = .fin v' ∧ s.avg_var = .fin v ∧ OffBy G (B ^ 2) v' v) ∧
      (∃ v' v, s'.var_mean = .fin v' ∧ s.var_mean = .fin v ∧ OffBy G (B ^ 2) v' v) ∧
      (∃ v' v, s'.avg_var_cav = .fin v' ∧ s.avg_var_cav = .fin v ∧ OffBy G (2 * B ^ 2) v' v) ∧
      (∃ v' v, s'.avg_var_rav = .fin v' ∧ s.avg_var_rav = .fin v ∧ OffBy G (2 * B ^ 2) v' v) ∧
      (∃ v' v, s'.avg_mean = .fin v' ∧ s.avg_mean = .fin v ∧ OffBy ((1 + u) ^ (e + 2)) B v' v) := by
  have hu := R.u_nonneg
  have one : ∀ k : ℕ, 1 ≤ (1 + u) ^ k := fun k => one_le_pow₀ (by linarith)
  have le : ∀ {a b : ℕ}, a ≤ b → (1 + u) ^ a ≤ (1 + u) ^ b := fun h => pow_le_pow_right₀ (by linarith) h
  have hM : 0 < M := Nat.pos_of_ne_zero fun h => by rw [h] at hp; omega
  have hN : 0 < N := Nat.pos_of_ne_zero fun h => by rw [h] at hp; omega
  have hM1 : (1 : ℝ) ≤ M := by exact_mod_cast hM
  have hN1 : (1 : ℝ) ≤ N := by exact_mod_cast hN
  have hL2 : (2 : ℝ) ≤ (imgs.length : ℝ) := by exact_mod_cast hL
  have hne : imgs ≠ [] := by rintro rfl; simp at hL
  have hB0 : (0 : ℝ) ≤ B := Nat.cast_nonneg B
  obtain ⟨s, hs, s1, s2, s3, -, -, -, s4, s5, s6, -, s7, s8⟩ :=
    C20_statistics (F := ℝ) imgs M N (by omega) hL hsh B hfit
  obtain ⟨h1, h2, h3, h4, h5⟩ := C84_spatial R S imgs M N hL hsh B hfit hn hLB hL3 hLM hLN hp
  have px : ∀ i < M, ∀ j < N, ∀ x ∈ imgs.map (fun a => (a.px i j : ℝ)), 0 ≤ x ∧ x ≤ (B : ℝ) := fun i hi j hj x hx => by
    obtain ⟨a, ha, rfl⟩ := List.mem_map.1 hx
    have := (hfit i hi j hj).1 a ha
    exact ⟨by exact_mod_cast this.1, by exact_mod_cast this.2⟩
  generalize hy : (fun i j => Spec.mean (imgs.map fun a => (a.px i j : ℝ))) = y at *
  generalize hs2 : (fun i j => Spec.sampleVar (imgs.map fun a => (a.px i j : ℝ))) = t2 at *
  have ym : ∀ i < M, ∀ j < N, 0 ≤ y i j ∧ y i j ≤ B := fun i hi j hj => by
    rw [← hy]
    exact mean_mem _ _ (by simpa using hne) (px i hi j hj)
  have tm : ∀ i < M, ∀ j < N, 0 ≤ t2 i j ∧ t2 i j ≤ (B : ℝ) ^ 2 := fun i hi j hj => by
    rw [← hs2]
    refine ⟨?_, (sampleVar_le _ B (by simpa using hL) (px i hi j hj)).trans (by nlinarith)⟩
    unfold sampleVar
    refine div_nonneg (List.sum_nonneg fun x hx => ?_) ?_
    · obtain ⟨z, -, rfl⟩ := List.mem_map.1 hx
      exact sq_nonneg _
    · rw [List.length_map]; linarith
  have μm : 0 ≤ imgMean M N y ∧ imgMean M N y ≤ B := by
    rw [imgMean_rows]
    exact avg_mem M hM _ _ fun i hi => avg_mem N hN _ _ fun j hj => ym i hi j hj
  have σm : 0 ≤ imgMean M N t2 ∧ imgMean M N t2 ≤ (B : ℝ) ^ 2 := by
    rw [imgMean_rows]
    exact avg_mem M hM _ _ fun i hi => avg_mem N hN _ _ fun j hj => tm i hi j hj
  have v0 : 0 ≤ imgSampleVar M N y := by
    unfold imgSampleVar
    refine div_nonneg (sum_nonneg fun _ _ => sum_nonneg fun _ _ => sq_nonneg _) ?_
    have : (2 : ℝ) ≤ (M : ℝ) * N := by exact_mod_cast hp
    linarith
  have v1 : imgSampleVar M N y ≤ (B : ℝ) ^ 2 := (imgSampleVar_le M N y B hp ym).trans (by nlinarith)
  have vc0 : 0 ≤ (∑ j ∈ range N, ((∑ i ∈ range M, y i j) / M - imgMean M N y) ^ 2) / N :=
    div_nonneg (sum_nonneg fun _ _ => sq_nonneg _) (by linarith)
  have vr0 : 0 ≤ (∑ i ∈ range M, ((∑ j ∈ range N, y i j) / N - imgMean M N y) ^ 2) / M :=
    div_nonneg (sum_nonneg fun _ _ => sq_nonneg _) (by linarith)
  have vc1 : (∑ j ∈ range N, ((∑ i ∈ range M, y i j) / M - imgMean M N y) ^ 2) / N ≤ (B : ℝ) ^ 2 := by
    rw [imgMean_cols, div_le_iff₀ (by linarith)]
    refine (dev_le (range N) (fun j => (∑ i ∈ range M, y i j) / M) B N (by simp) (by linarith) fun j hj =>
      avg_mem M hM _ _ fun i hi => ym i hi j (mem_range.1 hj)).trans ?_
    nlinarith [sq_nonneg (B : ℝ)]
  have vr1 : (∑ i ∈ range M, ((∑ j ∈ range N, y i j) / N - imgMean M N y) ^ 2) / M ≤ (B : ℝ) ^ 2 := by
    rw [imgMean_rows, div_le_iff₀ (by linarith)]
    refine (dev_le (range M) (fun i => (∑ j ∈ range N, y i j) / N) B M (by simp) (by linarith) fun i hi =>
      avg_mem N hN _ _ fun j hj => ym i (mem_range.1 hi) j hj).trans ?_
    nlinarith [sq_nonneg (B : ℝ)]
  generalize imgMean M N y = μ at *
  generalize imgMean M N t2 = σ2 at *
  generalize imgSampleVar M N y = v at *
  generalize (∑ j ∈ range N, ((∑ i ∈ range M, y i j) / M - μ) ^ 2) / (N : ℝ) = vc at *
  generalize (∑ i ∈ range M, ((∑ j ∈ range N, y i j) / N - μ) ^ 2) / (M : ℝ) = vr at *
  have sl : ∀ k : ℕ, 0 ≤ slip u B k := fun k => mul_nonneg (by linarith [one k]) hB0
  have slm : ∀ {k l : ℕ}, k ≤ l → slip u B k ≤ slip u B l := fun h => mul_le_mul_of_nonneg_right (by linarith [le h]) hB0
  have small : ∀ n : ℕ, (1 : ℝ) ≤ n → 0 ≤ σ2 / (imgs.length * n) ∧ σ2 / (imgs.length * n) ≤ (B : ℝ) ^ 2 := fun n hn => by
    have : (1 : ℝ) ≤ imgs.length * n := one_le_mul_of_one_le_of_one_le (one_le_two.trans hL2) hn
    exact ⟨div_nonneg σm.1 (zero_le_one.trans this), (div_le_self σm.1 this).trans σm.2⟩
  refine ⟨s, hs, ?_⟩
  obtain ⟨f1, f2, f3, f4, f5, f6, f7, f8⟩ := spatialDict_fields R S M N (getIntImgs ℚ i64 imgs)
  rw [show (getIntImgs ℚ i64 imgs).L = imgs.length from rfl] at f1
  generalize Rounded.spatialDict R S M N (getIntImgs ℚ i64 imgs) = s' at *
  generalize Rounded.spatialData R S M N (getIntImgs ℚ i64 imgs) = sd at *
  intro s'' G
  refine ⟨f1.trans s1.symm, f2.trans s2.symm, f3.trans s3.symm, s1, s2, s3, ⟨_, v, f4, s6 hp, ?_⟩, ⟨_, σ2, f5, s5, ?_⟩,
    ⟨_, _, f6, s7, ?_⟩, ⟨_, _, f7, s8, ?_⟩, ⟨_, μ, f8, s4, ?_⟩⟩
  · refine ⟨?_, by rw [abs_of_nonneg v0]; exact v1⟩
    have := off_of_sqrt (c := 2 * slip u B (S.depth (M * N) + 3)) (e := 0) (one (S.depth (M * N) + 4)) (one (S.depth (M * N) + 3)) hB0 v0 v1 (by linarith [sl (S.depth (M * N) + 3)]) le_rfl
      (h3.trans (by linarith))
    rw [add_zero, ← pow_mul, ← pow_add] at this
    refine this.trans (mul_le_mul_of_nonneg_right ?_ (by positivity))
    linarith [le (show S.depth (M * N) + 4 + (S.depth (M * N) + 3) * 4 ≤ 5 * e + 16 by omega)]
  · refine ⟨h2.trans ?_, by rw [abs_of_nonneg σm.1]; exact σm.2⟩
    exact mul_le_mul (by linarith [le (show S.depth (M * N) + 3 ≤ 5 * e + 16 by omega)]) σm.2 σm.1 (by linarith [one (5 * e + 16)])
  · obtain ⟨w0, w1⟩ := small M hM1
    refine ⟨?_, by rw [abs_le]; constructor <;> linarith⟩
    have := off_of_sqrt (c := slip u B (S.depth M + 2) + slip u B (S.depth (M * N) + 2)) (one (S.depth N + 6)) (one (e + 2)) hB0 vc0 vc1 (by linarith [sl (S.depth M + 2), sl (S.depth (M * N) + 2)])
      (by have := slm (show S.depth M + 2 ≤ e + 2 by omega); have := slm (show S.depth (M * N) + 2 ≤ e + 2 by omega)
          show _ ≤ 2 * slip u B (e + 2); linarith) h4
    rw [← pow_mul, ← pow_add] at this
    have a1 : ((1 + u) ^ (S.depth N + 6 + (e + 2) * 4) - 1) * (B : ℝ) ^ 2 ≤ (G - 1) * B ^ 2 :=
      mul_le_mul_of_nonneg_right (by linarith [le (show S.depth N + 6 + (e + 2) * 4 ≤ 5 * e + 16 by omega)]) (by positivity)
    have a2 : ((1 + u) ^ (S.depth (M * N) + 5) - 1) * (σ2 / (imgs.length * M)) ≤ (G - 1) * B ^ 2 :=
      mul_le_mul (by linarith [le (show S.depth (M * N) + 5 ≤ 5 * e + 16 by omega)]) w1 w0 (by linarith [one (5 * e + 16)])
    linarith
  · obtain ⟨w0, w1⟩ := small N hN1
    refine ⟨?_, by rw [abs_le]; constructor <;> linarith⟩
    have := off_of_sqrt (c := slip u B (S.depth N + 2) + slip u B (S.depth (M * N) + 2)) (one (S.depth M + 6)) (one (e + 2)) hB0 vr0 vr1 (by linarith [sl (S.depth N + 2), sl (S.depth (M * N) + 2)])
      (by have := slm (show S.depth N + 2 ≤ e + 2 by omega); have := slm (show S.depth (M * N) + 2 ≤ e + 2 by omega)
          show _ ≤ 2 * slip u B (e + 2); linarith) h5
    rw [← pow_mul, ← pow_add] at this
    have a1 : ((1 + u) ^ (S.depth M + 6 + (e + 2) * 4) - 1) * (B : ℝ) ^ 2 ≤ (G - 1) * B ^ 2 :=
      mul_le_mul_of_nonneg_right (by linarith [le (show S.depth M + 6 + (e + 2) * 4 ≤ 5 * e + 16 by omega)]) (by positivity)
    have a2 : ((1 + u) ^ (S.depth (M * N) + 5) - 1) * (σ2 / (imgs.length * N)) ≤ (G - 1) * B ^ 2 :=
      mul_le_mul (by linarith [le (show S.depth (M * N) + 5 ≤ 5 * e + 16 by omega)]) w1 w0 (by linarith [one (5 * e + 16)])
    linarith
  · refine ⟨h1.trans ?_, by rw [abs_of_nonneg μm.1]; exact μm.2⟩
    exact mul_le_mul (by linarith [le (show S.depth (M * N) + 2 ≤ e + 2 by omega)]) μm.2 μm.1 (by linarith [one (e + 2)])

end
end Emva
