import Verif.Props.C86Example

/-!
C89: the spatial nonuniformity measured on images of the simulated camera is the pattern that was put in (`dsnu`, `prnu`).
-/
set_option autoImplicit false
namespace Emva
open Cam Spec Data MeasureTheory ProbabilityTheory Finset
open scoped NNReal
variable {Ω Ω' : Type*} [MeasurableSpace Ω] {μ : Measure Ω} [MeasurableSpace Ω'] {μ' : Measure Ω'}

/-- The spatial standard deviation of a pattern. -/
noncomputable def Spec.imgSd (M N : ℕ) (f : ℕ → ℕ → ℝ) : ℝ := √(imgSampleVar M N f)

theorem sqrt_sum_sq_add {ι : Type*} (s : Finset ι) (f g : ι → ℝ) :
    √(∑ x ∈ s, (f x + g x) ^ 2) ≤ √(∑ x ∈ s, f x ^ 2) + √(∑ x ∈ s, g x ^ 2) := by
  have hf : 0 ≤ ∑ x ∈ s, f x ^ 2 := sum_nonneg fun _ _ => sq_nonneg _
  have hg : 0 ≤ ∑ x ∈ s, g x ^ 2 := sum_nonneg fun _ _ => sq_nonneg _
  rw [Real.sqrt_le_left (by positivity)]
  have cs := Real.sum_mul_le_sqrt_mul_sqrt s f g
  have e : ∑ x ∈ s, (f x + g x) ^ 2 = ∑ x ∈ s, f x ^ 2 + 2 * ∑ x ∈ s, f x * g x + ∑ x ∈ s, g x ^ 2 := by
    rw [mul_sum, ← sum_add_distrib, ← sum_add_distrib]
    exact sum_congr rfl fun _ _ => by ring
  rw [e, add_sq, Real.sq_sqrt hf, Real.sq_sqrt hg]
  nlinarith

theorem imgSd_eq (M N : ℕ) (hp : 2 ≤ M * N) (f : ℕ → ℕ → ℝ) :
    imgSd M N f = √(∑ x ∈ range M ×ˢ range N, (f x.1 x.2 - imgMean M N f) ^ 2) / √(M * N - 1) := by
  have : (2 : ℝ) ≤ M * N := by exact_mod_cast hp
  rw [imgSd, imgSampleVar, Real.sqrt_div' _ (by linarith), sum_product]

theorem imgMean_dev (M N : ℕ) (hp : 2 ≤ M * N) (f : ℕ → ℕ → ℝ) :
    ∑ x ∈ range M ×ˢ range N, (f x.1 x.2 - imgMean M N f) ^ 2 ≤ ∑ x ∈ range M ×ˢ range N, f x.1 x.2 ^ 2 := by
  have hne : ((M : ℝ) * N) ≠ 0 := by exact_mod_cast (by omega : M * N ≠ 0)
  have hs : ∑ x ∈ range M ×ˢ range N, f x.1 x.2 = (M * N) * imgMean M N f := by
    rw [imgMean, sum_product, mul_div_cancel₀ _ hne]
  have e : ∑ x ∈ range M ×ˢ range N, (f x.1 x.2 - imgMean M N f) ^ 2 =
      ∑ x ∈ range M ×ˢ range N, f x.1 x.2 ^ 2 - 2 * imgMean M N f * ∑ x ∈ range M ×ˢ range N, f x.1 x.2 +
        (M * N) * imgMean M N f ^ 2 := by
    rw [mul_sum, ← sum_sub_distrib]
    have : ((M : ℝ) * N) * imgMean M N f ^ 2 = ∑ x ∈ range M ×ˢ range N, imgMean M N f ^ 2 := by
      simp [card_product]
    rw [this, ← sum_add_distrib]
    exact sum_congr rfl fun _ _ => by ring
  rw [e, hs]
  nlinarith [sq_nonneg (imgMean M N f), mul_nonneg (Nat.cast_nonneg (α := ℝ) M) (Nat.cast_nonneg (α := ℝ) N),
    mul_nonneg (mul_nonneg (Nat.cast_nonneg (α := ℝ) M) (Nat.cast_nonneg (α := ℝ) N)) (sq_nonneg (imgMean M N f))]

/-- Two patterns that differ by at most `β` have standard deviations that differ by at most `β √(n / (n - 1))`. -/
theorem imgSd_le {M N : ℕ} (hp : 2 ≤ M * N) {f g : ℕ → ℕ → ℝ} {β : ℝ} (hβ : 0 ≤ β) (h : ∀ i < M, ∀ j < N, |f i j - g i j| ≤ β) :
    imgSd M N f ≤ imgSd M N g + β * √(M * N / (M * N - 1)) := by
  have h2 : (2 : ℝ) ≤ M * N := by exact_mod_cast hp
  rw [imgSd_eq _ _ hp, imgSd_eq _ _ hp, Real.sqrt_div' _ (by linarith), ← mul_div_assoc, ← add_div]
  gcongr
  let d : ℕ → ℕ → ℝ := fun i j => f i j - g i j
  have hd : imgMean M N d = imgMean M N f - imgMean M N g := by
    have := imgMean_sub M N f g
    simpa [d] using this
  have e : ∑ x ∈ range M ×ˢ range N, (f x.1 x.2 - imgMean M N f) ^ 2 =
      ∑ x ∈ range M ×ˢ range N, ((g x.1 x.2 - imgMean M N g) + (d x.1 x.2 - imgMean M N d)) ^ 2 :=
    sum_congr rfl fun x _ => by rw [hd]; simp only [d]; ring
  rw [e]
  refine (sqrt_sum_sq_add _ _ _).trans ?_
  gcongr
  calc √(∑ x ∈ range M ×ˢ range N, (d x.1 x.2 - imgMean M N d) ^ 2)
      ≤ √(∑ x ∈ range M ×ˢ range N, d x.1 x.2 ^ 2) := Real.sqrt_le_sqrt (imgMean_dev M N hp d)
    _ ≤ √(∑ x ∈ range M ×ˢ range N, β ^ 2) := by
        refine Real.sqrt_le_sqrt (sum_le_sum fun x hx => ?_)
        obtain ⟨hi, hj⟩ := mem_product.1 hx
        exact sq_le_sq.2 ((h _ (mem_range.1 hi) _ (mem_range.1 hj)).trans (le_abs_self β))
    _ = β * √(M * N) := by
        rw [sum_const, card_product, card_range, card_range, nsmul_eq_mul, mul_comm, Real.sqrt_mul (sq_nonneg _),
          Real.sqrt_sq hβ]
        push_cast; rfl

theorem imgSd_close {M N : ℕ} (hp : 2 ≤ M * N) {f g : ℕ → ℕ → ℝ} {β : ℝ} (hβ : 0 ≤ β) (h : ∀ i < M, ∀ j < N, |f i j - g i j| ≤ β) :
    |imgSd M N f - imgSd M N g| ≤ β * √(M * N / (M * N - 1)) := by
  have a := imgSd_le hp hβ h
  have b := imgSd_le hp hβ fun i hi j hj => by rw [abs_sub_comm]; exact h i hi j hj
  rw [abs_le]
  constructor <;> linarith

theorem imgSampleVar_lin {M N : ℕ} (hp : 2 ≤ M * N) (f : ℕ → ℕ → ℝ) (a b : ℝ) :
    imgSampleVar M N (fun i j => a * f i j + b) = a ^ 2 * imgSampleVar M N f := by
  unfold imgSampleVar
  rw [imgMean_lin (by omega), ← mul_div_assoc]
  simp only [mul_sum]
  congr 1
  exact sum_congr rfl fun i _ => sum_congr rfl fun j _ => by ring

theorem imgSd_lin {M N : ℕ} (hp : 2 ≤ M * N) (f : ℕ → ℕ → ℝ) (a b : ℝ) :
    imgSd M N (fun i j => a * f i j + b) = |a| * imgSd M N f := by
  rw [imgSd, imgSampleVar_lin hp, Real.sqrt_mul (sq_nonneg _), Real.sqrt_sq_eq_abs, imgSd]

/-- C89, spatial variance: the recorded total spatial variance (`s_2_y` or `s_2_y_dark`) of `L` grabbed images is expected to be
the square of `K` times the standard deviation of the pattern of electrons (light plus dark signal nonuniformity), and the
recorded spatial mean `K` times the mean number of electrons plus the black offset, up to the effect of the clipping. Neither
the temporal noise nor the number of images contributes. -/
theorem C89_spatial (c : Camera ℝ) (hp : 2 ≤ c.height * c.width) (hb : c.bitDepth ≤ 64)
    {L : ℕ} (hL : 2 ≤ L) (henv : (L : ℤ) ^ 3 * (2 ^ c.bitDepth - 1) ^ 2 < 2 ^ 65) (n : ℕ → Ω → Noise ℝ)
    (lt : ℝ≥0) (ll : ℕ → ℕ → ℝ≥0) (d0 : ℝ) (s2 : ℝ≥0) (h : GrabNoise μ L c.height c.width n lt ll d0 s2)
    (V δe δy : ℝ) (hr : Spec.InRange c lt ll d0 s2 V δe δy) (r : Ω → Results.Res ℝ) (d : Bool)
    (hres : ∀ ω, getSpatialData c.height c.width (getIntImgs ℝ i64 (stack (fun l ω => grabImg c (n l ω)) L ω)) =
      .ok (side d (r ω).spatial)) :
    let M := c.height
    let N := c.width
    ∃ avg tot : Ω → ℝ, (∀ ω, (side d (r ω).spatial).avg_mean = .fin (avg ω) ∧
        Results.val (Results.s2Y d) (r ω) = .ok (.fin (tot ω))) ∧
      Integrable avg μ ∧ Integrable tot μ ∧ 0 ≤ ∫ ω, tot ω ∂μ ∧
      |∫ ω, avg ω ∂μ - (c.K * imgMean M N (fun i j => lt + ll i j + (c.dsnu i j + d0)) + c.blackoffset)| ≤
        Spec.clipMean c.K V δe δy ∧
      |√(∫ ω, tot ω ∂μ) - |c.K| * imgSd M N (fun i j => ll i j + c.dsnu i j)| ≤
        Spec.clipMean c.K V δe δy * √(M * N / (M * N - 1)) := by
  intro M N
  obtain ⟨m, v, hN, hst⟩ := C86_images c hb L (by omega) n lt ll d0 s2 h
  have hpos : 0 < c.height ∧ 0 < c.width :=
    ⟨Nat.pos_of_ne_zero fun e => by simp [e] at hp, Nat.pos_of_ne_zero fun e => by simp [e] at hp⟩
  have : IsProbabilityMeasure μ := (h.draws 0 (by omega) 0 hpos.1 0 hpos.2).quant.isProbabilityMeasure
  obtain ⟨s, a, w, V', _, _, hs, ia, iw, iV, -, -, xa, xw, xV, -, -⟩ := C81_spatial hp hL henv hN
  have hL0 : (L : ℝ) ≠ 0 := by exact_mod_cast (by omega : L ≠ 0)
  have hd : ∀ ω, side d (r ω).spatial = s ω := fun ω => Except.ok.inj ((hres ω).symm.trans (hs ω).1)
  have e : ∀ ω, Results.val (Results.s2Y d) (r ω) = .ok (.fin (V' ω - w ω / L)) := fun ω => by
    rw [val_s2Y, hd ω, (hs ω).2.2.2.1, (hs ω).2.2.1, (hs ω).2.2.2.2.2.2.1, Fl.fin_div hL0, Fl.fin_sub]
  have it : Integrable (fun ω => V' ω - w ω / L) μ := iV.sub (iw.div_const _)
  have et : ∫ ω, (V' ω - w ω / L) ∂μ = imgSampleVar M N m := by
    rw [integral_sub iV (iw.div_const _), integral_div, xV, xw]; ring
  have hv : ∀ i < M, ∀ j < N, 0 ≤ v i j := fun i hi j hj => by
    rw [← hN.var 0 (by omega) i hi j hj]; exact variance_nonneg _ _
  have hpx : ∀ i < M, ∀ j < N, |m i j - (c.K * (ll i j + c.dsnu i j) + (c.K * (lt + d0) + c.blackoffset))| ≤
      Spec.clipMean c.K V δe δy := fun i hi j hj => by
    have := (pixelStats_range (hst i hi j hj) hr.he hr.hy (hr.well i hi j hj).1 (hr.well i hi j hj).2 (hr.grey i hi j hj).1
      (hr.grey i hi j hj).2 (by positivity) (by have := s2.coe_nonneg; linarith) (hr.noise i hi j hj) (hv i hi j hj)).1
    convert this using 3
    ring
  have hp0 : 0 < c.height * c.width := by omega
  refine ⟨a, _, fun ω => ⟨by rw [hd ω]; exact (hs ω).2.1, e ω⟩, ia, it, ?_, ?_, ?_⟩
  · rw [et]
    have : (2 : ℝ) ≤ M * N := by exact_mod_cast hp
    exact div_nonneg (sum_nonneg fun _ _ => sum_nonneg fun _ _ => sq_nonneg _) (by linarith)
  · rw [xa, ← imgMean_lin hp0]
    refine imgMean_close hp0 fun i hi j hj => ?_
    convert hpx i hi j hj using 3
    ring
  · rw [et]
    have := imgSd_close hp ((abs_nonneg _).trans (hpx 0 hpos.1 0 hpos.2)) hpx
    rwa [imgSd_lin hp] at this

/-- C89, dark signal nonuniformity: without light the standard deviation that `s_2_y_dark` stands for is `K` times that of
`dsnu`. -/
theorem C89_dark (c : Camera ℝ) (hp : 2 ≤ c.height * c.width) (hb : c.bitDepth ≤ 64)
    {L : ℕ} (hL : 2 ≤ L) (henv : (L : ℤ) ^ 3 * (2 ^ c.bitDepth - 1) ^ 2 < 2 ^ 65) (n : ℕ → Ω → Noise ℝ)
    (lt : ℝ≥0) (d0 : ℝ) (s2 : ℝ≥0) (h : GrabNoise μ L c.height c.width n lt (fun _ _ => 0) d0 s2)
    (V δe δy : ℝ) (hr : Spec.InRange c lt (fun _ _ => 0) d0 s2 V δe δy) (r : Ω → Results.Res ℝ)
    (hres : ∀ ω, getSpatialData c.height c.width (getIntImgs ℝ i64 (stack (fun l ω => grabImg c (n l ω)) L ω)) =
      .ok (side true (r ω).spatial)) :
    ∃ tot : Ω → ℝ, (∀ ω, Results.val (Results.s2Y true) (r ω) = .ok (.fin (tot ω))) ∧ Integrable tot μ ∧
      |√(∫ ω, tot ω ∂μ) - |c.K| * imgSd c.height c.width c.dsnu| ≤
        Spec.clipMean c.K V δe δy * √(c.height * c.width / (c.height * c.width - 1)) := by
  obtain ⟨_, tot, e, -, it, -, -, b⟩ := C89_spatial c hp hb hL henv n lt _ d0 s2 h V δe δy hr r true hres
  exact ⟨tot, fun ω => (e ω).2, it, by simpa using b⟩

/-- C89, light: the photo response nonuniformity multiplies the electrons of the light. -/
theorem C89_light (c : Camera ℝ) (o : Optics) (radiance : Arr3) (f : Option ℝ) (i j : ℕ) (ph : ℝ)
    (h : uE c { o with prnu := fun _ _ => 1 } radiance f i j = .fin ph) :
    uE c o radiance f i j = .fin (ph * o.prnu i j) := by
  have e : ∀ x : Fl ℝ, x * .fin 1 = x := fun x => by
    rcases x with _ | neg | x
    · rfl
    · cases neg <;> simp [HMul.hMul, Mul.mul, Fl.mul]
    · show Fl.fin (x * 1) = _; rw [mul_one]
  unfold uE at h ⊢
  rw [e] at h
  exact (congrArg (· * Fl.fin (o.prnu i j)) h).trans rfl

/-- C89, photo response nonuniformity: if the light without it gives all pixels `ph` electrons and the dark signal has no
pattern, the standard deviation that `s_2_y` stands for is `K ph` times that of `prnu`, and the difference of the recorded
means of the bright and the dark images is `K ph` times the mean of `prnu`: their quotient is the relative standard deviation of
`prnu`. -/
theorem C89_prnu (c : Camera ℝ) (hp : 2 ≤ c.height * c.width) (hb : c.bitDepth ≤ 64)
    {L : ℕ} (hL : 2 ≤ L) (henv : (L : ℤ) ^ 3 * (2 ^ c.bitDepth - 1) ^ 2 < 2 ^ 65) (n : ℕ → Ω → Noise ℝ) (n' : ℕ → Ω' → Noise ℝ)
    (lt : ℝ≥0) (ll : ℕ → ℕ → ℝ≥0) (d0 : ℝ) (s2 : ℝ≥0) (h : GrabNoise μ L c.height c.width n lt ll d0 s2)
    (h' : GrabNoise μ' L c.height c.width n' lt (fun _ _ => 0) d0 s2)
    (V δe δy V' δe' δy' : ℝ) (hr : Spec.InRange c lt ll d0 s2 V δe δy) (hr' : Spec.InRange c lt (fun _ _ => 0) d0 s2 V' δe' δy')
    (r : Ω → Results.Res ℝ) (r' : Ω' → Results.Res ℝ)
    (hres : ∀ ω, getSpatialData c.height c.width (getIntImgs ℝ i64 (stack (fun l ω => grabImg c (n l ω)) L ω)) =
      .ok (side false (r ω).spatial))
    (hres' : ∀ ω, getSpatialData c.height c.width (getIntImgs ℝ i64 (stack (fun l ω => grabImg c (n' l ω)) L ω)) =
      .ok (side true (r' ω).spatial))
    (ph : ℝ) (hph : 0 ≤ ph) (prnu : ℕ → ℕ → ℝ) (hll : ∀ i j, (ll i j : ℝ) = ph * prnu i j) (u : ℝ) (hd : ∀ i j, c.dsnu i j = u) :
    let M := c.height
    let N := c.width
    ∃ (avg tot : Ω → ℝ) (avg' : Ω' → ℝ),
      (∀ ω, (side false (r ω).spatial).avg_mean = .fin (avg ω) ∧ Results.val (Results.s2Y false) (r ω) = .ok (.fin (tot ω))) ∧
      (∀ ω, (side true (r' ω).spatial).avg_mean = .fin (avg' ω)) ∧
      |√(∫ ω, tot ω ∂μ) - |c.K| * ph * imgSd M N prnu| ≤ Spec.clipMean c.K V δe δy * √(M * N / (M * N - 1)) ∧
      |(∫ ω, avg ω ∂μ - ∫ ω, avg' ω ∂μ') - c.K * ph * imgMean M N prnu| ≤
        Spec.clipMean c.K V δe δy + Spec.clipMean c.K V' δe' δy' := by
  intro M N
  obtain ⟨avg, tot, e, -, -, -, b1, b2⟩ := C89_spatial c hp hb hL henv n lt ll d0 s2 h V δe δy hr r false hres
  obtain ⟨avg', _, e', -, -, -, b1', -⟩ := C89_spatial c hp hb hL henv n' lt _ d0 s2 h' V' δe' δy' hr' r' true hres'
  have hp0 : 0 < c.height * c.width := by omega
  refine ⟨avg, tot, avg', e, fun ω => (e' ω).1, ?_, ?_⟩
  · have : (fun i j => (ll i j : ℝ) + c.dsnu i j) = fun i j => ph * prnu i j + u := by
      funext i j; rw [hll, hd]
    rwa [this, imgSd_lin hp, abs_of_nonneg hph, ← mul_assoc] at b2
  · have e1 : (fun i j => (lt : ℝ) + ll i j + (c.dsnu i j + d0)) = fun i j => ph * prnu i j + (lt + u + d0) := by
      funext i j; rw [hll, hd]; ring
    have e2 : (fun i j => (lt : ℝ) + ((0 : ℝ≥0) : ℝ) + (c.dsnu i j + d0)) = fun i j => 0 * prnu i j + (lt + u + d0) := by
      funext i j; rw [hd]; simp; ring
    rw [e1, imgMean_lin hp0] at b1
    rw [e2, imgMean_lin hp0] at b1'
    rw [abs_le] at b1 b1' ⊢
    constructor <;> linarith

/-- 16 dark images of the camera of C86, whose first row has 5 electrons more: the value found is within 0.014 DN of a tenth of
the standard deviation of this pattern. -/
example : ∃ (Ω : Type) (_ : MeasurableSpace Ω) (μ : Measure Ω) (n : ℕ → Ω → Noise ℝ) (r : Ω → Results.Res ℝ) (tot : Ω → ℝ),
    GrabNoise μ 16 480 640 n 10 (fun _ _ => 0) 100 25 ∧
    (∀ ω, getSpatialData 480 640 (getIntImgs ℝ i64 (stack (fun l ω => grabImg exCam86 (n l ω)) 16 ω)) =
      .ok (side true (r ω).spatial)) ∧
    (∀ ω, Results.val (Results.s2Y true) (r ω) = .ok (.fin (tot ω))) ∧
    |√(∫ ω, tot ω ∂μ) - 1 / 10 * imgSd 480 640 exCam86.dsnu| ≤ 14 / 1000 := by
  obtain ⟨Ω, _, μ, n, h⟩ := C86_draws_exist 16 480 640 10 (fun _ _ => 0) 100 25
  obtain ⟨m, v, hN, -⟩ := C86_images exCam86 (by norm_num [exCam86]) 16 (by norm_num) n 10 (fun _ _ => 0) 100 25 h
  have : IsProbabilityMeasure μ := (h.draws 0 (by norm_num) 0 (by norm_num) 0 (by norm_num)).quant.isProbabilityMeasure
  have henv : ((16 : ℕ) : ℤ) ^ 3 * (2 ^ exCam86.bitDepth - 1) ^ 2 < 2 ^ 65 := by norm_num [exCam86]
  have hp : 2 ≤ exCam86.height * exCam86.width := by norm_num [exCam86]
  obtain ⟨s, _, _, _, _, _, hs, -⟩ := C81_spatial hp (by norm_num) henv hN
  let r : Ω → Results.Res ℝ := fun ω => ⟨⟨[], [], [], [], [], []⟩, ⟨0, 0, s ω, s ω⟩, none, none⟩
  have hres : ∀ ω, getSpatialData exCam86.height exCam86.width
      (getIntImgs ℝ i64 (stack (fun l ω => grabImg exCam86 (n l ω)) 16 ω)) = .ok (side true (r ω).spatial) := fun ω => (hs ω).1
  obtain ⟨tot, e, -, b⟩ := C89_dark exCam86 hp (by norm_num [exCam86]) (by norm_num) henv n 10 100 25 h 35 110 31 ex86_dark r hres
  refine ⟨Ω, _, μ, n, r, tot, h, hres, e, ?_⟩
  have k : |exCam86.K| = 1 / 10 := by rw [exCam86]; exact abs_of_pos (by norm_num)
  rw [k] at b
  refine b.trans ?_
  have s1 : √((exCam86.height : ℝ) * exCam86.width / (exCam86.height * exCam86.width - 1)) ≤ 1.01 := by
    refine Real.sqrt_le_iff.2 ⟨by norm_num, ?_⟩
    simp only [exCam86]; norm_num
  have s2 : Spec.clipMean exCam86.K 35 110 31 ≤ 13 / 1000 := by
    unfold Spec.clipMean; rw [k]; simp only [exCam86]; norm_num
  calc _ ≤ (13 / 1000 * 1.01 : ℝ) := by gcongr
    _ ≤ _ := by norm_num

end Emva
