import Verif.Lemmas.Noise
import Verif.Props.C19_C20
import Verif.Props.C21_C25_C26

/-!
C81: what the measured means and variances are expected to be when the images contain random noise.
-/
set_option autoImplicit false
namespace Emva
open Spec Data Finset MeasureTheory ProbabilityTheory
variable {Ω : Type*} [MeasurableSpace Ω] {μ : Measure Ω} [IsProbabilityMeasure μ]
variable {L M N : ℕ} {B : ℤ} {I : ℕ → Ω → Img} {m : ℕ → ℕ → ℝ} {v : ℕ → ℕ → ℝ}

/-- the `L` images -/
def stack (I : ℕ → Ω → Img) (L : ℕ) (ω : Ω) : List Img := (List.range L).map fun l => I l ω

/-- C81, temporal part. A pair of images of a scene `m`, the second one taken with other light (`d 0`, `d 1`), with noise
of variance `v` per pixel: the recorded mean is expected to be the mean of the scene and of the light, the recorded
temporal variance the mean noise variance times `1 - 1 / (number of pixels)`. -/
theorem C81_temporal (hp : 0 < M * N) (henv : (M : ℤ) * N * B ^ 2 < 2 ^ 62) (d : ℕ → ℝ)
    (h : Noisy μ 2 M N B I (fun l i j => m i j + d l) v) :
    ∃ y s : Ω → ℝ,
      (∀ ω, seriesPoint (M * N) (temporalEntry ℝ i64 (stack I 2 ω)) = (.fin (y ω), .fin (s ω))) ∧
      Integrable y μ ∧ Integrable s μ ∧
      ∫ ω, y ω ∂μ = imgMean M N m + (d 0 + d 1) / 2 ∧
      ∫ ω, s ω ∂μ = (1 - 1 / (M * N)) * imgMean M N v := by
  have hne : ((M : ℝ) * N) ≠ 0 := by exact_mod_cast hp.ne'
  obtain ⟨hM, hN⟩ := mul_ne_zero_iff.1 hne
  have ok : ∀ ω, PairOK M N B (I 0 ω) (I 1 ω) := fun ω =>
    ⟨hp, (h.shape 0 (by norm_num) ω).1, (h.shape 0 (by norm_num) ω).2, (h.shape 1 (by norm_num) ω).1,
      (h.shape 1 (by norm_num) ω).2, h.bound 0 (by norm_num) ω, h.bound 1 (by norm_num) ω, henv⟩
  have hs : ∀ ω, stack I 2 ω = [I 0 ω, I 1 ω] := fun ω => rfl
  -- the quantities as linear forms
  let cy : ℕ → ℝ := fun _ => 1 / (2 * (M * N))
  let cd : ℕ → ℝ := fun l => if l = 0 then -1 else 1
  let cm : ℕ → ℝ := fun l => cd l / (M * N)
  have ey : ∀ ω, (imgMean M N (fun i j => ((I 0 ω).px i j : ℝ)) + imgMean M N (fun i j => ((I 1 ω).px i j : ℝ))) / 2
      = form I cy (range 2) (range M) (range N) ω := by
    intro ω
    simp only [form, cy, imgMean, sum_range_succ, sum_range_zero, ← mul_sum, pixel]
    field_simp
    ring
  have ed : ∀ ω i j, ((I 1 ω).px i j : ℝ) - (I 0 ω).px i j = form I cd (range 2) {i} {j} ω := by
    intro ω i j
    simp [form, cd, sum_range_succ, pixel]
    ring
  have em : ∀ ω, imgMean M N (fun i j => ((I 1 ω).px i j : ℝ) - (I 0 ω).px i j) =
      form I cm (range 2) (range M) (range N) ω := by
    intro ω
    simp only [form, cm, cd, imgMean, sum_range_succ, sum_range_zero, ← mul_sum, pixel, sum_sub_distrib]
    simp
    field_simp
    ring
  have sub : ∀ {i K : ℕ}, i ∈ range K → ({i} : Finset ℕ) ⊆ range K := fun h => by simpa using h
  refine ⟨form I cy (range 2) (range M) (range N),
    fun ω => ((∑ i ∈ range M, ∑ j ∈ range N, form I cd (range 2) {i} {j} ω ^ 2) / (M * N)
      - form I cm (range 2) (range M) (range N) ω ^ 2) / 2, fun ω => ?_, ?_, ?_, ?_, ?_⟩
  · rw [hs, C05_temporal_point ℝ M N B _ _ (ok ω), ey, imgPopVar_eq M N hp, em]
    simp only [ed]
  · exact h.form_int _ subset_rfl subset_rfl subset_rfl
  · refine Integrable.div_const (Integrable.sub (Integrable.div_const (integrable_finsetSum _ fun i hi =>
      integrable_finsetSum _ fun j hj => h.form_sq_int _ subset_rfl (sub hi) (sub hj)) _)
      (h.form_sq_int _ subset_rfl subset_rfl subset_rfl)) _
  · rw [h.form_mean _ subset_rfl subset_rfl subset_rfl]
    simp only [cy, ← mul_sum, sum_add_distrib, sum_range_succ, sum_range_zero, sum_const, card_range, nsmul_eq_mul,
      imgMean]
    field_simp
    ring
  · rw [integral_div, integral_sub, integral_div, integral_finsetSum]
    · have e1 : ∀ i ∈ range M, ∫ ω, ∑ j ∈ range N, form I cd (range 2) {i} {j} ω ^ 2 ∂μ =
          ∑ j ∈ range N, ((d 1 - d 0) ^ 2 + 2 * v i j) := by
        intro i hi
        rw [integral_finsetSum _ fun j hj => h.form_sq_int _ subset_rfl (sub hi) (sub hj)]
        refine sum_congr rfl fun j hj => ?_
        rw [h.form_sq _ subset_rfl (sub hi) (sub hj)]
        simp [cd, sum_range_succ]
        ring
      rw [sum_congr rfl e1, h.form_sq _ subset_rfl subset_rfl subset_rfl]
      simp only [cm, cd, ← mul_sum, sum_add_distrib, sum_range_succ, sum_range_zero, sum_const, card_range, nsmul_eq_mul,
        imgMean]
      simp
      field_simp
      ring
    · exact fun i hi => integrable_finsetSum _ fun j hj => h.form_sq_int _ subset_rfl (sub hi) (sub hj)
    · exact Integrable.div_const (integrable_finsetSum _ fun i hi =>
        integrable_finsetSum _ fun j hj => h.form_sq_int _ subset_rfl (sub hi) (sub hj)) _
    · exact h.form_sq_int _ subset_rfl subset_rfl subset_rfl

/-- C81, spatial part. `L` images of a scene `m` with noise of variance `v` per pixel: the mean and the temporal variance of
the stack are expected to be those of the scene and of the noise; the spatial variance, which the results reduce by the
noise left in the averaged image, is expected to be the sample variance of the scene, exactly. The variances of the
column and row averages are too small by the mean noise variance over `L M N`. -/
theorem C81_spatial (hp : 2 ≤ M * N) (hL : 2 ≤ L) (henv : (L : ℤ) ^ 3 * B ^ 2 < 2 ^ 65)
    (h : Noisy μ L M N B I (fun _ => m) v) :
    ∃ (s : Ω → SpatialData ℝ) (a w V c ρ : Ω → ℝ),
      (∀ ω, getSpatialData M N (getIntImgs ℝ i64 (stack I L ω)) = .ok (s ω) ∧
        (s ω).avg_mean = .fin (a ω) ∧ (s ω).var_mean = .fin (w ω) ∧ (s ω).avg_var = .fin (V ω) ∧
        (s ω).avg_var_cav = .fin (c ω) ∧ (s ω).avg_var_rav = .fin (ρ ω) ∧
        (s ω).L = L ∧ (s ω).M = M ∧ (s ω).N = N) ∧
      Integrable a μ ∧ Integrable w μ ∧ Integrable V μ ∧ Integrable c μ ∧ Integrable ρ μ ∧
      ∫ ω, a ω ∂μ = imgMean M N m ∧ ∫ ω, w ω ∂μ = imgMean M N v ∧
      ∫ ω, V ω ∂μ = imgSampleVar M N m + imgMean M N v / L ∧
      ∫ ω, c ω ∂μ = columnVar M N m - imgMean M N v / (L * M * N) ∧
      ∫ ω, ρ ω ∂μ = rowVar M N m - imgMean M N v / (L * M * N) := by
  have hne : ((M : ℝ) * N) ≠ 0 := by exact_mod_cast (by omega : M * N ≠ 0)
  obtain ⟨hM, hN⟩ := mul_ne_zero_iff.1 hne
  have hM' : 0 < M := Nat.pos_of_ne_zero (by exact_mod_cast hM)
  have hN' : 0 < N := Nat.pos_of_ne_zero (by exact_mod_cast hN)
  have hL0 : (L : ℝ) ≠ 0 := by exact_mod_cast (by omega : L ≠ 0)
  have hL1 : (L : ℝ) - 1 ≠ 0 := by
    have : (1 : ℝ) < L := by exact_mod_cast (by omega : 1 < L)
    exact (sub_pos.2 this).ne'
  have hMN1 : (M : ℝ) * N - 1 ≠ 0 := by
    have : (1 : ℝ) < M * N := by exact_mod_cast (by omega : 1 < M * N)
    exact (sub_pos.2 this).ne'
  have hlen : ∀ ω, (stack I L ω).length = L := fun ω => by simp [stack]
  have hst := fun ω => C20_statistics (F := ℝ) (stack I L ω) M N (by omega) (by rw [hlen]; exact hL)
    (by
      intro a ha
      simp only [stack, List.mem_map, List.mem_range] at ha
      obtain ⟨l, hl, rfl⟩ := ha
      exact h.shape l hl ω) B
    (by
      intro i hi j hj
      refine ⟨?_, by rw [hlen]; exact henv⟩
      intro a ha
      simp only [stack, List.mem_map, List.mem_range] at ha
      obtain ⟨l, hl, rfl⟩ := ha
      exact h.bound l hl ω i hi j hj)
  simp only [hlen] at hst
  -- the quantities as linear forms
  have ey : ∀ ω i j, Spec.mean ((stack I L ω).map fun a => (a.px i j : ℝ)) = form I (fun _ => 1 / L) (range L) {i} {j} ω := by
    intro ω i j
    rw [Spec.mean, stack, List.map_map, sum_map_range]
    simp [form, pixel, Function.comp_def, ← mul_sum]
    ring
  have es : ∀ ω i j, Spec.sampleVar ((stack I L ω).map fun a => (a.px i j : ℝ)) =
      (∑ l ∈ range L, form I (fun _ => 1) {l} {i} {j} ω ^ 2 - form I (fun _ => 1) (range L) {i} {j} ω ^ 2 / L) / (L - 1) := by
    intro ω i j
    rw [stack, List.map_map, Spec.sampleVar_eq L (by omega)]
    simp [form, pixel, Function.comp_def]
  have ea : ∀ ω, imgMean M N (fun i j => form I (fun _ => 1 / L) (range L) {i} {j} ω) =
      form I (fun _ => 1 / (L * M * N)) (range L) (range M) (range N) ω := by
    intro ω
    simp only [imgMean, form, sum_singleton]
    rw [sum_congr rfl fun i _ => sum_comm, sum_comm]
    simp only [← mul_sum]
    field_simp
  have ec : ∀ ω j, (∑ i ∈ range M, form I (fun _ => 1 / L) (range L) {i} {j} ω) / M =
      form I (fun _ => 1 / (L * M)) (range L) (range M) {j} ω := by
    intro ω j
    simp only [form, sum_singleton]
    rw [sum_comm]
    simp only [← mul_sum]
    field_simp
  have er : ∀ ω i, (∑ j ∈ range N, form I (fun _ => 1 / L) (range L) {i} {j} ω) / N =
      form I (fun _ => 1 / (L * N)) (range L) {i} (range N) ω := by
    intro ω i
    simp only [form, sum_singleton]
    rw [sum_comm]
    simp only [← mul_sum]
    field_simp
  have sub : ∀ {i K : ℕ}, i ∈ range K → ({i} : Finset ℕ) ⊆ range K := fun h => by simpa using h
  -- integrability
  let y : ℕ → ℕ → Ω → ℝ := fun i j => form I (fun _ => 1 / L) (range L) {i} {j}
  let a : Ω → ℝ := form I (fun _ => 1 / (L * M * N)) (range L) (range M) (range N)
  let cl : ℕ → Ω → ℝ := fun j => form I (fun _ => 1 / (L * M)) (range L) (range M) {j}
  let rw' : ℕ → Ω → ℝ := fun i => form I (fun _ => 1 / (L * N)) (range L) {i} (range N)
  let s2 : ℕ → ℕ → Ω → ℝ := fun i j ω =>
    (∑ l ∈ range L, form I (fun _ => 1) {l} {i} {j} ω ^ 2 - form I (fun _ => 1) (range L) {i} {j} ω ^ 2 / L) / (L - 1)
  let w : Ω → ℝ := fun ω => (∑ i ∈ range M, ∑ j ∈ range N, s2 i j ω) / (M * N)
  let V : Ω → ℝ := fun ω => (∑ i ∈ range M, ∑ j ∈ range N, y i j ω ^ 2 - M * N * a ω ^ 2) / (M * N - 1)
  let c : Ω → ℝ := fun ω => (∑ j ∈ range N, cl j ω ^ 2) / N - a ω ^ 2 - w ω / (L * M)
  let ρ : Ω → ℝ := fun ω => (∑ i ∈ range M, rw' i ω ^ 2) / M - a ω ^ 2 - w ω / (L * N)
  have ia : Integrable a μ := h.form_int _ subset_rfl subset_rfl subset_rfl
  have ia2 : Integrable (fun ω => a ω ^ 2) μ := h.form_sq_int _ subset_rfl subset_rfl subset_rfl
  have iy2 : ∀ i ∈ range M, ∀ j ∈ range N, Integrable (fun ω => y i j ω ^ 2) μ := fun i hi j hj =>
    h.form_sq_int _ subset_rfl (sub hi) (sub hj)
  have ic2 : ∀ j ∈ range N, Integrable (fun ω => cl j ω ^ 2) μ := fun j hj => h.form_sq_int _ subset_rfl subset_rfl (sub hj)
  have ir2 : ∀ i ∈ range M, Integrable (fun ω => rw' i ω ^ 2) μ := fun i hi => h.form_sq_int _ subset_rfl (sub hi) subset_rfl
  have il2 : ∀ i ∈ range M, ∀ j ∈ range N, Integrable (fun ω => ∑ l ∈ range L, form I (fun _ => 1) {l} {i} {j} ω ^ 2) μ :=
    fun i hi j hj => integrable_finsetSum _ fun l hl => h.form_sq_int _ (sub hl) (sub hi) (sub hj)
  have it2 : ∀ i ∈ range M, ∀ j ∈ range N, Integrable (fun ω => form I (fun _ => 1) (range L) {i} {j} ω ^ 2 / L) μ :=
    fun i hi j hj => (h.form_sq_int _ subset_rfl (sub hi) (sub hj)).div_const _
  have is2 : ∀ i ∈ range M, ∀ j ∈ range N, Integrable (s2 i j) μ := fun i hi j hj =>
    ((il2 i hi j hj).sub (it2 i hi j hj)).div_const _
  have iw0 : ∀ i ∈ range M, Integrable (fun ω => ∑ j ∈ range N, s2 i j ω) μ := fun i hi =>
    integrable_finsetSum _ fun j hj => is2 i hi j hj
  have iw : Integrable w μ := (integrable_finsetSum _ iw0).div_const _
  have iy0 : ∀ i ∈ range M, Integrable (fun ω => ∑ j ∈ range N, y i j ω ^ 2) μ := fun i hi =>
    integrable_finsetSum _ fun j hj => iy2 i hi j hj
  have iy1 : Integrable (fun ω => ∑ i ∈ range M, ∑ j ∈ range N, y i j ω ^ 2) μ := integrable_finsetSum _ iy0
  have ic1 : Integrable (fun ω => (∑ j ∈ range N, cl j ω ^ 2) / N) μ := (integrable_finsetSum _ ic2).div_const _
  have ir1 : Integrable (fun ω => (∑ i ∈ range M, rw' i ω ^ 2) / M) μ := (integrable_finsetSum _ ir2).div_const _
  have ic3 : Integrable (fun ω => (∑ j ∈ range N, cl j ω ^ 2) / N - a ω ^ 2) μ := ic1.sub ia2
  have ir3 : Integrable (fun ω => (∑ i ∈ range M, rw' i ω ^ 2) / M - a ω ^ 2) μ := ir1.sub ia2
  -- expected values
  have xa : ∫ ω, a ω ∂μ = imgMean M N m := by
    rw [h.form_mean _ subset_rfl subset_rfl subset_rfl]
    simp only [← mul_sum, sum_const, card_range, nsmul_eq_mul, imgMean]
    field_simp
  have xa2 : ∫ ω, a ω ^ 2 ∂μ = imgMean M N m ^ 2 + imgMean M N v / (L * M * N) := by
    rw [h.form_sq _ subset_rfl subset_rfl subset_rfl]
    simp only [← mul_sum, sum_const, card_range, nsmul_eq_mul, imgMean]
    field_simp
  have xy2 : ∀ i ∈ range M, ∀ j ∈ range N, ∫ ω, y i j ω ^ 2 ∂μ = m i j ^ 2 + v i j / L := by
    intro i hi j hj
    rw [h.form_sq _ subset_rfl (sub hi) (sub hj)]
    simp only [sum_singleton, sum_const, card_range, nsmul_eq_mul]
    field_simp
  have xc2 : ∀ j ∈ range N, ∫ ω, cl j ω ^ 2 ∂μ = ((∑ i ∈ range M, m i j) / M) ^ 2 + (∑ i ∈ range M, v i j) / (L * M ^ 2) := by
    intro j hj
    rw [h.form_sq _ subset_rfl subset_rfl (sub hj)]
    simp only [sum_singleton, ← mul_sum, sum_const, card_range, nsmul_eq_mul]
    field_simp
  have xr2 : ∀ i ∈ range M, ∫ ω, rw' i ω ^ 2 ∂μ = ((∑ j ∈ range N, m i j) / N) ^ 2 + (∑ j ∈ range N, v i j) / (L * N ^ 2) := by
    intro i hi
    rw [h.form_sq _ subset_rfl (sub hi) subset_rfl]
    simp only [sum_singleton, ← mul_sum, sum_const, card_range, nsmul_eq_mul]
    field_simp
  have xs2 : ∀ i ∈ range M, ∀ j ∈ range N, ∫ ω, s2 i j ω ∂μ = v i j := by
    intro i hi j hj
    show ∫ ω, _ / _ ∂μ = _
    rw [integral_div, integral_sub (il2 i hi j hj) (it2 i hi j hj), integral_div,
      integral_finsetSum _ fun l hl => h.form_sq_int _ (sub hl) (sub hi) (sub hj),
      sum_congr rfl fun l hl => h.form_sq _ (sub hl) (sub hi) (sub hj), h.form_sq _ subset_rfl (sub hi) (sub hj)]
    simp only [sum_singleton, sum_const, card_range, card_singleton, nsmul_eq_mul]
    rw [div_eq_iff hL1]
    field_simp
    ring
  have xw : ∫ ω, w ω ∂μ = imgMean M N v := by
    show ∫ ω, _ / _ ∂μ = _
    rw [integral_div, integral_finsetSum _ iw0, imgMean]
    congr 1
    refine sum_congr rfl fun i hi => ?_
    rw [integral_finsetSum _ (is2 i hi)]
    exact sum_congr rfl fun j hj => xs2 i hi j hj
  have xV : ∫ ω, V ω ∂μ = imgSampleVar M N m + imgMean M N v / L := by
    show ∫ ω, _ / _ ∂μ = _
    rw [integral_div, integral_sub iy1 (ia2.const_mul _), integral_const_mul, xa2, integral_finsetSum _ iy0,
      sum_congr rfl fun i hi => integral_finsetSum _ (iy2 i hi),
      sum_congr rfl fun i hi => sum_congr rfl fun j hj => xy2 i hi j hj, imgSampleVar_eq M N hp]
    simp only [sum_add_distrib, ← sum_div, imgMean]
    field_simp
    ring
  have xc : ∫ ω, c ω ∂μ = columnVar M N m - imgMean M N v / (L * M * N) := by
    show ∫ ω, _ - _ ∂μ = _
    rw [integral_sub ic3 (iw.div_const _), integral_sub ic1 ia2, integral_div, integral_div, xa2, xw,
      integral_finsetSum _ ic2, sum_congr rfl xc2, columnVar_eq M N hM' hN']
    have e : ∑ j ∈ range N, ∑ i ∈ range M, v i j = ∑ i ∈ range M, ∑ j ∈ range N, v i j := sum_comm
    simp only [sum_add_distrib, ← sum_div, e, imgMean]
    field_simp
    ring
  have xρ : ∫ ω, ρ ω ∂μ = rowVar M N m - imgMean M N v / (L * M * N) := by
    show ∫ ω, _ - _ ∂μ = _
    rw [integral_sub ir3 (iw.div_const _), integral_sub ir1 ia2, integral_div, integral_div, xa2, xw,
      integral_finsetSum _ ir2, sum_congr rfl xr2, rowVar_eq M N hM' hN']
    simp only [sum_add_distrib, ← sum_div, imgMean]
    field_simp
    ring
  choose s hs using hst
  refine ⟨s, a, w, V, c, ρ, fun ω => ?_, ia, iw, (iy1.sub (ia2.const_mul _)).div_const _, (ic1.sub ia2).sub (iw.div_const _),
    (ir1.sub ia2).sub (iw.div_const _), xa, xw, xV, xc, xρ⟩
  obtain ⟨h1, h2, h3, h4, -, -, -, h5, h6, h7, -, h8, h9⟩ := hs ω
  refine ⟨h1, ?_, ?_, ?_, ?_, ?_, h2, h3, h4⟩
  · rw [h5]
    simp only [ey, ea]
    rfl
  · rw [h6]
    simp only [es]
    rfl
  · rw [h7 hp, imgSampleVar_eq M N hp]
    simp only [ey, ea]
    rfl
  · rw [h8]
    have := columnVar_eq M N hM' hN' fun i j => form I (fun _ => 1 / L) (range L) {i} {j} ω
    rw [columnVar] at this
    simp only [ey, es]
    rw [this]
    simp only [ec, ea]
    rfl
  · rw [h9]
    have := rowVar_eq M N hM' hN' fun i j => form I (fun _ => 1 / L) (range L) {i} {j} ω
    rw [rowVar] at this
    simp only [ey, es]
    rw [this]
    simp only [er, ea]
    rfl

/-- C81, the results: the spatial variance reported for such images is expected to be the sample variance of the scene,
exactly. Its pixel, column and row parts (`px0`, `col0`, `row0`: the parts of the scene, by the equations of C21) are not
exact: the pixel part is expected too large by `2 / (L (M N - M - N))` of the mean noise variance, the column and row
parts too small by as much together. -/
theorem C81_results (hp : 2 ≤ M * N) (hMN : M * N ≠ M + N) (hL : 2 ≤ L) (henv : (L : ℤ) ^ 3 * B ^ 2 < 2 ^ 65)
    (h : Noisy μ L M N B I (fun _ => m) v) (r : Ω → Results.Res ℝ) (d : Bool)
    (hr : ∀ ω, getSpatialData M N (getIntImgs ℝ i64 (stack I L ω)) = .ok (side d (r ω).spatial))
    (row0 col0 px0 : ℝ) (e1 : row0 + col0 + px0 = imgSampleVar M N m) (e2 : columnVar M N m = col0 + px0 / M)
    (e3 : rowVar M N m = row0 + px0 / N) :
    ∃ tot row col px : Ω → ℝ, (∀ ω, Results.val (Results.s2Y d) (r ω) = .ok (.fin (tot ω)) ∧
        Results.val (Results.s2YRow d) (r ω) = .ok (.fin (row ω)) ∧
        Results.val (Results.s2YCol d) (r ω) = .ok (.fin (col ω)) ∧
        Results.val (Results.s2YPixel d) (r ω) = .ok (.fin (px ω))) ∧
      Integrable tot μ ∧ Integrable row μ ∧ Integrable col μ ∧ Integrable px μ ∧
      ∫ ω, tot ω ∂μ = imgSampleVar M N m ∧
      ∫ ω, px ω ∂μ = px0 + 2 * imgMean M N v / (L * (M * N - M - N)) ∧
      ∫ ω, col ω ∂μ = col0 - imgMean M N v / (L * M * N) - 2 * imgMean M N v / (L * M * (M * N - M - N)) ∧
      ∫ ω, row ω ∂μ = row0 - imgMean M N v / (L * M * N) - 2 * imgMean M N v / (L * N * (M * N - M - N)) := by
  obtain ⟨s, a, w, V, c, ρ, hs, -, iw, iV, ic, iρ, -, xw, xV, xc, xρ⟩ := C81_spatial hp hL henv h
  have hne : ((M : ℝ) * N) ≠ 0 := by exact_mod_cast (by omega : M * N ≠ 0)
  obtain ⟨hM, hN⟩ := mul_ne_zero_iff.1 hne
  have hM' : 0 < M := Nat.pos_of_ne_zero (by exact_mod_cast hM)
  have hN' : 0 < N := Nat.pos_of_ne_zero (by exact_mod_cast hN)
  have hL0 : (L : ℝ) ≠ 0 := by exact_mod_cast (by omega : L ≠ 0)
  have hD : (M : ℝ) * N - M - N ≠ 0 := by
    intro h0
    exact hMN (by exact_mod_cast (by linarith : (M : ℝ) * N = M + N))
  have hd : ∀ ω, side d (r ω).spatial = s ω := fun ω => by
    have := (hs ω).1
    rw [hr ω] at this
    exact Except.ok.inj this
  choose row col px tot h1 h2 h3 h4 h5 h6 h7 h8 _ using fun ω =>
    C21_decomposition (r ω) d (s ω) (hd ω) (by rw [(hs ω).2.2.2.2.2.2.2.1]; exact hM')
      (by rw [(hs ω).2.2.2.2.2.2.2.2]; exact hN')
      (by rw [(hs ω).2.2.2.2.2.2.2.1, (hs ω).2.2.2.2.2.2.2.2]; exact hMN)
      (by rw [(hs ω).2.2.2.2.2.2.1]; omega) (V ω) (w ω) (c ω) (ρ ω) (hs ω).2.2.2.1 (hs ω).2.2.1 (hs ω).2.2.2.2.1
      (hs ω).2.2.2.2.2.1
  have g5 : ∀ ω, tot ω = V ω - w ω / L := fun ω => by have := h5 ω; rwa [(hs ω).2.2.2.2.2.2.1] at this
  have g7 : ∀ ω, c ω = col ω + px ω / M := fun ω => by have := h7 ω; rwa [(hs ω).2.2.2.2.2.2.2.1] at this
  have g8 : ∀ ω, ρ ω = row ω + px ω / N := fun ω => by have := h8 ω; rwa [(hs ω).2.2.2.2.2.2.2.2] at this
  have gp : ∀ ω, px ω = M * N / (M * N - M - N) * (V ω - w ω / L - c ω - ρ ω) := by
    intro ω
    have := h6 ω
    rw [← g5 ω, ← this, g7 ω, g8 ω, div_mul_eq_mul_div, eq_div_iff hD]
    field_simp
    ring
  have gc : ∀ ω, col ω = c ω - px ω / M := fun ω => by rw [g7 ω]; ring
  have gr : ∀ ω, row ω = ρ ω - px ω / N := fun ω => by rw [g8 ω]; ring
  have itot : Integrable tot μ := by rw [funext g5]; exact iV.sub (iw.div_const _)
  have i0 : Integrable (fun ω => V ω - w ω / L) μ := iV.sub (iw.div_const _)
  have i1 : Integrable (fun ω => V ω - w ω / L - c ω) μ := i0.sub ic
  have ipx : Integrable px μ := by rw [funext gp]; exact (i1.sub iρ).const_mul _
  have icol : Integrable col μ := by rw [funext gc]; exact ic.sub (ipx.div_const _)
  have irow : Integrable row μ := by rw [funext gr]; exact iρ.sub (ipx.div_const _)
  have x0 : ∫ ω, (V ω - w ω / L) ∂μ = imgSampleVar M N m := by
    rw [integral_sub iV (iw.div_const _), integral_div, xV, xw]; ring
  have xp : ∫ ω, px ω ∂μ = px0 + 2 * imgMean M N v / (L * (M * N - M - N)) := by
    rw [funext gp, integral_const_mul, integral_sub i1 iρ, integral_sub i0 ic, x0, xc, xρ, e2, e3, ← e1]
    obtain ⟨D, hDe⟩ : ∃ D, D = (M : ℝ) * N - M - N := ⟨_, rfl⟩
    rw [← hDe] at hD ⊢
    field_simp
    rw [hDe]
    ring
  refine ⟨tot, row, col, px, fun ω => ⟨h4 ω, h1 ω, h2 ω, h3 ω⟩, itot, irow, icol, ipx, ?_, xp, ?_, ?_⟩
  · rw [funext g5]; exact x0
  · rw [funext gc, integral_sub ic (ipx.div_const _), integral_div, xp, xc, e2]
    field_simp
    ring
  · rw [funext gr, integral_sub iρ (ipx.div_const _), integral_div, xp, xρ, e3]
    field_simp
    ring

/-- C81, photon transfer. If the noise of the bright pixels exceeds the dark noise by `K` times the signal (shot noise of
electrons counted with gain `K`), the expected points of the photon transfer curve lie on the line through the origin with
slope `K (1 - 1 / (number of pixels))`. -/
theorem C81_photon_transfer {Ω' : Type*} [MeasurableSpace Ω'] {μ' : Measure Ω'} [IsProbabilityMeasure μ']
    (hp : 0 < M * N) (henv : (M : ℤ) * N * B ^ 2 < 2 ^ 62) (K : ℝ) (I' : ℕ → Ω' → Img) (m' v' : ℕ → ℕ → ℝ)
    (h : Noisy μ 2 M N B I (fun _ => m) v) (h' : Noisy μ' 2 M N B I' (fun _ => m') v')
    (hK : ∀ i < M, ∀ j < N, v i j - v' i j = K * (m i j - m' i j)) :
    ∃ (y s : Ω → ℝ) (y' s' : Ω' → ℝ),
      (∀ ω, seriesPoint (M * N) (temporalEntry ℝ i64 (stack I 2 ω)) = (.fin (y ω), .fin (s ω))) ∧
      (∀ ω, seriesPoint (M * N) (temporalEntry ℝ i64 (stack I' 2 ω)) = (.fin (y' ω), .fin (s' ω))) ∧
      ∫ ω, s ω ∂μ - ∫ ω, s' ω ∂μ' = K * (1 - 1 / (M * N)) * (∫ ω, y ω ∂μ - ∫ ω, y' ω ∂μ') := by
  obtain ⟨y, s, e, -, -, xy, xs⟩ := C81_temporal hp henv (fun _ => 0) (m := m) (by simpa using h)
  obtain ⟨y', s', e', -, -, xy', xs'⟩ := C81_temporal hp henv (fun _ => 0) (m := m') (by simpa using h')
  refine ⟨y, s, y', s', e, e', ?_⟩
  have key : imgMean M N v - imgMean M N v' = K * (imgMean M N m - imgMean M N m') := by
    simp only [imgMean]
    rw [← sub_div, ← sub_div, ← mul_div_assoc]
    congr 1
    simp only [← sum_sub_distrib, mul_sum]
    exact sum_congr rfl fun i hi => sum_congr rfl fun j hj => hK i (mem_range.1 hi) j (mem_range.1 hj)
  rw [xy, xs, xy', xs']
  linear_combination (1 - 1 / ((M : ℝ) * N)) * key

end Emva
