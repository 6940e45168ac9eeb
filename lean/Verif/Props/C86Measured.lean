import Verif.Props.C86Images
import Verif.Props.C51_C52
import Mathlib.Analysis.SpecialFunctions.Integrals.Basic

/-!
C86, continued: the measured mean and temporal variance of grabbed images, the photon transfer, the quantisation noise.
-/
set_option autoImplicit false
namespace Emva
open Cam Spec Data MeasureTheory ProbabilityTheory Finset
open scoped NNReal
variable {Ω Ω' : Type*} [MeasurableSpace Ω] {μ : Measure Ω} [MeasurableSpace Ω'] {μ' : Measure Ω'}

theorem imgMean_mono' {M N : ℕ} {f g : ℕ → ℕ → ℝ} (h : ∀ i < M, ∀ j < N, f i j ≤ g i j) :
    imgMean M N f ≤ imgMean M N g := by
  unfold imgMean
  gcongr with i hi j hj
  exact h i (mem_range.1 hi) j (mem_range.1 hj)

theorem imgMean_lin {M N : ℕ} (hp : 0 < M * N) (f : ℕ → ℕ → ℝ) (a b : ℝ) :
    imgMean M N (fun i j => a * f i j + b) = a * imgMean M N f + b := by
  have hne : ((M : ℝ) * N) ≠ 0 := by exact_mod_cast hp.ne'
  obtain ⟨hM, hN⟩ := mul_ne_zero_iff.1 hne
  unfold imgMean
  simp only [sum_add_distrib, ← mul_sum, sum_const, card_range, nsmul_eq_mul]
  field_simp

theorem imgMean_close {M N : ℕ} (hp : 0 < M * N) {f g : ℕ → ℕ → ℝ} {β : ℝ} (h : ∀ i < M, ∀ j < N, |f i j - g i j| ≤ β) :
    |imgMean M N f - imgMean M N g| ≤ β := by
  have e1 := imgMean_mono' (f := f) (g := fun i j => 1 * g i j + β) fun i hi j hj => by
    have := (abs_le.1 (h i hi j hj)).2; linarith
  have e2 := imgMean_mono' (f := fun i j => 1 * g i j + (-β)) (g := f) fun i hi j hj => by
    have := (abs_le.1 (h i hi j hj)).1; linarith
  rw [imgMean_lin hp] at e1 e2
  rw [abs_le]
  constructor <;> linarith

/-- What the clipping can change, for at most `V` electrons² of noise, a distance `δe` (electrons) from the ends of the full
well and `δy` (grey values) from the ends of the range: the expected grey value, the noise. -/
noncomputable def Spec.clipMean (K V δe δy : ℝ) : ℝ := |K| * V / (4 * δe) + (K ^ 2 * V + 1 / 4) / (4 * δy)

noncomputable def Spec.clipNoise (K V δe δy : ℝ) : ℝ :=
  |K| * √(3 * V ^ 2 + V) / (4 * δe) + √(8 * (K ^ 4 * (3 * V ^ 2 + V) + 1)) / (4 * δy)

/-- All pixels have at most `V` electrons² of noise and stay away from the ends. -/
structure Spec.InRange (c : Camera ℝ) (lt : ℝ≥0) (ll : ℕ → ℕ → ℝ≥0) (d0 : ℝ) (s2 : ℝ≥0) (V δe δy : ℝ) : Prop where
  he : 0 < δe
  hy : 0 < δy
  noise : ∀ i < c.height, ∀ j < c.width, lt + ll i j + s2 ≤ V
  well : ∀ i < c.height, ∀ j < c.width, δe ≤ lt + ll i j + (c.dsnu i j + d0) ∧ lt + ll i j + (c.dsnu i j + d0) + δe ≤ c.uEsat
  grey : ∀ i < c.height, ∀ j < c.width, δy ≤ c.K * (lt + ll i j + (c.dsnu i j + d0)) + c.blackoffset ∧
    c.K * (lt + ll i j + (c.dsnu i j + d0)) + c.blackoffset + δy ≤ 2 ^ c.bitDepth - 1

theorem pixelStats_range {c : Camera ℝ} {e0 ve vp m v V δe δy : ℝ} (h : Spec.PixelStats c e0 ve vp m v) (he : 0 < δe)
    (hy : 0 < δy) (h1 : δe ≤ e0) (h2 : e0 + δe ≤ c.uEsat) (h3 : δy ≤ c.K * e0 + c.blackoffset)
    (h4 : c.K * e0 + c.blackoffset + δy ≤ 2 ^ c.bitDepth - 1) (hvp : 0 ≤ vp) (hpv : vp ≤ ve) (hV : ve ≤ V) (hv : 0 ≤ v) :
    |m - (c.K * e0 + c.blackoffset)| ≤ Spec.clipMean c.K V δe δy ∧
    c.K ^ 2 * ve - 2 * Spec.clipNoise c.K V δe δy * (|c.K| * √V) ≤ v := by
  obtain ⟨b1, b2⟩ := h.2 δe δy he hy h1 h2 h3 h4
  have hve : 0 ≤ ve := hvp.trans hpv
  have hκ : 3 * ve ^ 2 + vp ≤ 3 * V ^ 2 + V := by nlinarith
  have hρ : |c.K| * √(3 * ve ^ 2 + vp) / (4 * δe) + √(8 * (c.K ^ 4 * (3 * ve ^ 2 + vp) + 1)) / (4 * δy) ≤
      Spec.clipNoise c.K V δe δy := by
    have k4 : 0 ≤ c.K ^ 4 := by positivity
    unfold Spec.clipNoise
    gcongr
  constructor
  · refine b1.trans ?_
    unfold Spec.clipMean
    gcongr
  · set ρ := Spec.clipNoise c.K V δe δy
    have ρ0 : 0 ≤ ρ := le_trans (by positivity) hρ
    set t := |c.K| * √ve
    have t0 : 0 ≤ t := by positivity
    have tt : t ^ 2 = c.K ^ 2 * ve := by simp only [t]; rw [mul_pow, sq_abs, Real.sq_sqrt hve]
    have tV : t ≤ |c.K| * √V := by simp only [t]; gcongr
    have ht : t - ρ ≤ √v := by linarith
    have s0 := Real.sqrt_nonneg v
    have ss := Real.sq_sqrt hv
    rw [← tt]
    have : t ^ 2 - 2 * ρ * t ≤ v := by
      by_cases hc : ρ ≤ t
      · nlinarith
      · push Not at hc
        nlinarith
    have := mul_le_mul_of_nonneg_left tV ρ0
    linarith

/-- C86, measured values: of a pair of grabbed images the recorded mean is expected to be `K e0 + blackoffset`, averaged over
the pixels, and the recorded temporal variance `1 - 1 / (number of pixels)` times `K² ve`, plus up to 1/4 for the quantisation;
both up to the effect of the clipping. -/
theorem C86_measured (c : Camera ℝ) (hp : 0 < c.height * c.width)
    (henv : (c.height : ℤ) * c.width * (2 ^ c.bitDepth - 1) ^ 2 < 2 ^ 62) (hb : c.bitDepth ≤ 64) (n : ℕ → Ω → Noise ℝ)
    (lt : ℝ≥0) (ll : ℕ → ℕ → ℝ≥0) (d0 : ℝ) (s2 : ℝ≥0) (h : GrabNoise μ 2 c.height c.width n lt ll d0 s2)
    (V δe δy : ℝ) (hr : Spec.InRange c lt ll d0 s2 V δe δy) :
    let M := c.height
    let N := c.width
    let ve := imgMean M N fun i j => (lt + ll i j + s2 : ℝ)
    ∃ y s : Ω → ℝ,
      (∀ ω, seriesPoint (M * N) (temporalEntry ℝ i64 (stack (fun l ω => grabImg c (n l ω)) 2 ω)) = (.fin (y ω), .fin (s ω))) ∧
      Integrable y μ ∧ Integrable s μ ∧
      |∫ ω, y ω ∂μ - imgMean M N fun i j => c.K * (lt + ll i j + (c.dsnu i j + d0)) + c.blackoffset| ≤
        Spec.clipMean c.K V δe δy ∧
      ∫ ω, s ω ∂μ ≤ (1 - 1 / (M * N)) * (c.K ^ 2 * ve + 1 / 4) ∧
      (1 - 1 / (M * N)) * (c.K ^ 2 * ve - 2 * Spec.clipNoise c.K V δe δy * (|c.K| * √V)) ≤ ∫ ω, s ω ∂μ := by
  intro M N ve
  obtain ⟨m, v, hN, hst⟩ := C86_images c hb 2 (by norm_num) n lt ll d0 s2 h
  have hpos : 0 < c.height ∧ 0 < c.width := ⟨Nat.pos_of_mul_pos_right hp, Nat.pos_of_mul_pos_left hp⟩
  have : IsProbabilityMeasure μ := (h.draws 0 (by norm_num) 0 hpos.1 0 hpos.2).quant.isProbabilityMeasure
  obtain ⟨y, s, e, iy, is, ey, es⟩ := C81_temporal hp henv (fun _ => 0) (m := m) (by simpa using hN)
  have hv : ∀ i < M, ∀ j < N, 0 ≤ v i j := fun i hi j hj => by
    rw [← hN.var 0 (by norm_num) i hi j hj]; exact variance_nonneg _ _
  have hone : (0 : ℝ) ≤ 1 - 1 / (M * N) := by
    have : (1 : ℝ) ≤ M * N := by exact_mod_cast hp
    have := (div_le_one₀ (by linarith)).2 this
    linarith
  have hpx : ∀ i < M, ∀ j < N, _ := fun i hi j hj =>
    pixelStats_range (hst i hi j hj) hr.he hr.hy (hr.well i hi j hj).1 (hr.well i hi j hj).2 (hr.grey i hi j hj).1
      (hr.grey i hi j hj).2 (by positivity) (by have := s2.coe_nonneg; linarith) (hr.noise i hi j hj) (hv i hi j hj)
  refine ⟨y, s, e, iy, is, ?_, ?_, ?_⟩
  · rw [ey]
    simp only [add_zero, zero_div]
    exact imgMean_close hp fun i hi j hj => (hpx i hi j hj).1
  · rw [es]
    refine mul_le_mul_of_nonneg_left ?_ hone
    rw [← imgMean_lin hp]
    exact imgMean_mono' fun i hi j hj => (hst i hi j hj).1
  · rw [es]
    refine mul_le_mul_of_nonneg_left ?_ hone
    rw [sub_eq_add_neg, ← imgMean_lin hp]
    refine imgMean_mono' fun i hi j hj => ?_
    have := (hpx i hi j hj).2
    linarith

/-- C86, photon transfer: between images of two radiances the measured temporal variance grows by `K` times the growth of the
measured mean (the estimate of the system gain), up to 1/4 for the quantisation and the effect of the clipping. -/
theorem C86_photon_transfer (c : Camera ℝ) (hp : 0 < c.height * c.width)
    (henv : (c.height : ℤ) * c.width * (2 ^ c.bitDepth - 1) ^ 2 < 2 ^ 62) (hb : c.bitDepth ≤ 64) (n : ℕ → Ω → Noise ℝ)
    (n' : ℕ → Ω' → Noise ℝ) (lt : ℝ≥0) (ll ll' : ℕ → ℕ → ℝ≥0) (d0 : ℝ) (s2 : ℝ≥0)
    (h : GrabNoise μ 2 c.height c.width n lt ll d0 s2) (h' : GrabNoise μ' 2 c.height c.width n' lt ll' d0 s2)
    (V δe δy V' δe' δy' : ℝ) (hr : Spec.InRange c lt ll d0 s2 V δe δy) (hr' : Spec.InRange c lt ll' d0 s2 V' δe' δy') :
    let M := c.height
    let N := c.width
    ∃ (y s : Ω → ℝ) (y' s' : Ω' → ℝ),
      (∀ ω, seriesPoint (M * N) (temporalEntry ℝ i64 (stack (fun l ω => grabImg c (n l ω)) 2 ω)) = (.fin (y ω), .fin (s ω))) ∧
      (∀ ω, seriesPoint (M * N) (temporalEntry ℝ i64 (stack (fun l ω => grabImg c (n' l ω)) 2 ω)) = (.fin (y' ω), .fin (s' ω))) ∧
      |(∫ ω, s ω ∂μ - ∫ ω, s' ω ∂μ') - c.K * (1 - 1 / (M * N)) * (∫ ω, y ω ∂μ - ∫ ω, y' ω ∂μ')| ≤
        1 / 4 + max (2 * Spec.clipNoise c.K V δe δy * (|c.K| * √V)) (2 * Spec.clipNoise c.K V' δe' δy' * (|c.K| * √V')) +
          |c.K| * (Spec.clipMean c.K V δe δy + Spec.clipMean c.K V' δe' δy') := by
  intro M N
  obtain ⟨y, s, e, -, -, a1, a2, a3⟩ := C86_measured c hp henv hb n lt ll d0 s2 h V δe δy hr
  obtain ⟨y', s', e', -, -, b1, b2, b3⟩ := C86_measured c hp henv hb n' lt ll' d0 s2 h' V' δe' δy' hr'
  refine ⟨y, s, y', s', e, e', ?_⟩
  set f : ℝ := 1 - 1 / ((c.height : ℝ) * c.width)
  have f0 : 0 ≤ f ∧ f ≤ 1 := by
    have : (1 : ℝ) ≤ (c.height : ℝ) * c.width := by exact_mod_cast hp
    have h1 := (div_le_one₀ (by linarith)).2 this
    have h2 : (0 : ℝ) ≤ 1 / ((c.height : ℝ) * c.width) := by positivity
    simp only [f]
    constructor <;> linarith
  have key : c.K ^ 2 * imgMean c.height c.width (fun i j => (lt + ll i j + s2 : ℝ)) -
      c.K ^ 2 * imgMean c.height c.width (fun i j => (lt + ll' i j + s2 : ℝ)) =
      c.K * (imgMean c.height c.width (fun i j => c.K * (lt + ll i j + (c.dsnu i j + d0)) + c.blackoffset) -
        imgMean c.height c.width (fun i j => c.K * (lt + ll' i j + (c.dsnu i j + d0)) + c.blackoffset)) := by
    have e : imgMean c.height c.width (fun i j => (lt + ll i j + s2 : ℝ)) -
        imgMean c.height c.width (fun i j => (lt + ll' i j + s2 : ℝ)) =
        imgMean c.height c.width (fun i j => lt + ll i j + (c.dsnu i j + d0)) -
        imgMean c.height c.width (fun i j => lt + ll' i j + (c.dsnu i j + d0)) := by
      rw [← imgMean_sub, ← imgMean_sub]
      congr 1
      funext i j
      ring
    rw [imgMean_lin hp, imgMean_lin hp]
    linear_combination c.K ^ 2 * e
  set A := imgMean c.height c.width (fun i j => c.K * (lt + ll i j + (c.dsnu i j + d0)) + c.blackoffset)
  set A' := imgMean c.height c.width (fun i j => c.K * (lt + ll' i j + (c.dsnu i j + d0)) + c.blackoffset)
  set W := imgMean c.height c.width (fun i j => (lt + ll i j + s2 : ℝ))
  set W' := imgMean c.height c.width (fun i j => (lt + ll' i j + s2 : ℝ))
  set R1 := 2 * Spec.clipNoise c.K V δe δy * (|c.K| * √V)
  set R2 := 2 * Spec.clipNoise c.K V' δe' δy' * (|c.K| * √V')
  have m1 : R1 ≤ max R1 R2 := le_max_left _ _
  have m2 : R2 ≤ max R1 R2 := le_max_right _ _
  set R := max R1 R2
  set β := Spec.clipMean c.K V δe δy
  set β' := Spec.clipMean c.K V' δe' δy'
  set Y := ∫ ω, y ω ∂μ
  set Y' := ∫ ω, y' ω ∂μ'
  set S := ∫ ω, s ω ∂μ
  set S' := ∫ ω, s' ω ∂μ'
  have R0 : 0 ≤ R := by
    have : 0 ≤ Spec.clipNoise c.K V δe δy := by
      have := hr.he; have := hr.hy
      unfold Spec.clipNoise; positivity
    have : 0 ≤ R1 := by positivity
    linarith
  have d1 : |(S - S') - f * (c.K * (A - A'))| ≤ f * (1 / 4 + R) := by
    rw [← key, abs_le]
    have g1 := mul_le_mul_of_nonneg_left m1 f0.1
    have g2 := mul_le_mul_of_nonneg_left m2 f0.1
    constructor <;> nlinarith
  have d2 : |f * (c.K * (A - A')) - c.K * f * (Y - Y')| ≤ f * (|c.K| * (β' + β)) := by
    have e : f * (c.K * (A - A')) - c.K * f * (Y - Y') = f * (c.K * ((Y' - A') - (Y - A))) := by ring
    rw [e, abs_mul, abs_mul, abs_of_nonneg f0.1]
    gcongr
    · exact f0.1
    · exact (abs_sub _ _).trans (add_le_add b1 a1)
  have β0 : 0 ≤ β := (abs_nonneg _).trans a1
  have β1 : 0 ≤ β' := (abs_nonneg _).trans b1
  have h1 : f * (1 / 4 + R) ≤ 1 / 4 + R := by nlinarith
  have h2 : f * (|c.K| * (β' + β)) ≤ |c.K| * (β + β') := by
    have : 0 ≤ |c.K| * (β' + β) := by positivity
    nlinarith
  calc |(S - S') - c.K * f * (Y - Y')| = |((S - S') - f * (c.K * (A - A'))) + (f * (c.K * (A - A')) - c.K * f * (Y - Y'))| := by
        congr 1; ring
    _ ≤ _ := (abs_add_le _ _).trans (by linarith)

/-- the expected value of a function of the quantised and clipped constant signal -/
theorem quant_clip {Q : Ω → ℝ} (hQ : HasLaw Q uniformLaw μ) {x : ℝ} {B : ℕ} (h0 : 0 ≤ x) (hB : x ≤ 2 ^ B - 1) (g : ℝ → ℝ) :
    ∫ ω, g (clip (rint (x + Q ω) : ℝ) 0 (2 ^ B - 1)) ∂μ =
      (1 - Int.fract x) * g ⌊x⌋ + Int.fract x * g (⌊x⌋ + 1) := by
  have hm : Measurable fun u : ℝ => (fun k : ℤ => g (clip (k : ℝ) 0 (2 ^ B - 1))) (rint (x + u)) :=
    (measurable_from_top (f := fun k : ℤ => g (clip (k : ℝ) 0 (2 ^ B - 1)))).comp (measurable_rint.comp (measurable_const_add x))
  have e := hQ.integral_comp hm.aestronglyMeasurable
  simp only [Function.comp_def] at e
  rw [e, quant_integral (fun k : ℤ => g (clip (k : ℝ) 0 (2 ^ B - 1))) x]
  have fl0 : (0 : ℝ) ≤ ⌊x⌋ := by exact_mod_cast Int.floor_nonneg.2 h0
  have fl1 : (⌊x⌋ : ℝ) ≤ x := Int.floor_le x
  have c1 : clip (⌊x⌋ : ℝ) 0 (2 ^ B - 1) = ⌊x⌋ := clip_of_mem fl0 (fl1.trans hB)
  rw [c1]
  rcases eq_or_ne (Int.fract x) 0 with f0 | f0
  · simp [f0]
  · have : ⌊x⌋ + 1 ≤ 2 ^ B - 1 := by
      have h1 : (⌊x⌋ : ℝ) < x := lt_of_le_of_ne fl1 fun h => f0 (by rw [Int.fract, h, sub_self])
      have h2 : (⌊x⌋ : ℝ) < ((2 ^ B - 1 : ℤ) : ℝ) := by push_cast; linarith
      exact_mod_cast Int.add_one_le_iff.2 (by exact_mod_cast h2)
    have h3 : ((⌊x⌋ : ℝ) + 1) ≤ 2 ^ B - 1 := by exact_mod_cast this
    push_cast
    rw [clip_of_mem (by linarith) h3]

/-- C86, quantisation: a pixel without any other noise and the signal `x` (within the range) has the expected grey value `x`,
and the variance `f (1 - f)` with the fractional part `f` of the signal. -/
theorem C86_quantisation (c : Camera ℝ) (hb : c.bitDepth ≤ 64) (n : Ω → Noise ℝ) (i j : ℕ) (d0 : ℝ)
    (h : Draws μ (fun ω => (n ω).therm i j) (fun ω => (n ω).light i j) (fun ω => (n ω).dark i j)
      (fun ω => (n ω).quant i j) 0 0 d0 0)
    (he : 0 ≤ c.dsnu i j + d0) (he' : c.dsnu i j + d0 ≤ c.uEsat)
    (hx : 0 ≤ c.K * (c.dsnu i j + d0) + c.blackoffset) (hx' : c.K * (c.dsnu i j + d0) + c.blackoffset ≤ 2 ^ c.bitDepth - 1) :
    let x := c.K * (c.dsnu i j + d0) + c.blackoffset
    ∫ ω, ((grabImg c (n ω)).px i j : ℝ) ∂μ = x ∧
    Var[fun ω => ((grabImg c (n ω)).px i j : ℝ); μ] = Int.fract x * (1 - Int.fract x) := by
  intro x
  have : IsProbabilityMeasure μ := h.quant.isProbabilityMeasure
  obtain ⟨hX, mX, vX, -, -, -⟩ := raw_moments h (c.dsnu i j)
  have hc := ae_eq_integral_of_variance_eq_zero hX (by rw [vX]; simp)
  rw [mX] at hc
  have ha : (fun ω => ((grabImg c (n ω)).px i j : ℝ)) =ᵐ[μ]
      fun ω => clip (rint (x + (n ω).quant i j) : ℝ) 0 (2 ^ c.bitDepth - 1) := by
    filter_upwards [hc] with ω hω
    rw [px_digital c n i j hb, digital, hω]
    congr 4
    simp only [NNReal.coe_zero, zero_add, x]
    rw [clip_of_mem he he']
  have fx := Int.floor_add_fract x
  have e1 := quant_clip h.quant hx hx' id
  simp only [id] at e1
  have m1 : ∫ ω, ((grabImg c (n ω)).px i j : ℝ) ∂μ = x := by
    rw [integral_congr_ae ha, e1]
    change (1 - Int.fract x) * ⌊x⌋ + Int.fract x * (⌊x⌋ + 1) = x
    linear_combination fx
  refine ⟨m1, ?_⟩
  have hme : AEMeasurable (fun ω => clip (rint (x + (n ω).quant i j) : ℝ) 0 (2 ^ c.bitDepth - 1)) μ :=
    (measurable_clip _ _).comp_aemeasurable (measurable_rintR.comp_aemeasurable (aemeasurable_const.add h.quant.aemeasurable))
  rw [variance_congr ha, variance_eq_integral hme, ← integral_congr_ae ha, m1,
    quant_clip h.quant hx hx' (fun k => (k - x) ^ 2)]
  rw [show (⌊x⌋ : ℝ) - x = - Int.fract x by linarith, show (⌊x⌋ : ℝ) + 1 - x = 1 - Int.fract x by linarith]
  ring

/-- C86, average quantisation noise: over the signals between two integers the variance of `C86_quantisation` takes all values
between 0 (at the integers) and 1/4 (in the middle), with the average 1/6.  (The results of the evaluation subtract, as the
standard says, 1/12: that of rounding without the uniform draw.) -/
theorem C86_quantisation_average :
    (∀ k : ℤ, Int.fract (k : ℝ) * (1 - Int.fract (k : ℝ)) = 0) ∧
    (∀ k : ℤ, Int.fract (k + 1 / 2 : ℝ) * (1 - Int.fract (k + 1 / 2 : ℝ)) = 1 / 4) ∧
    ∀ k : ℤ, ∫ x in (k : ℝ)..(k + 1), Int.fract x * (1 - Int.fract x) = 1 / 6 := by
  have fr : ∀ (k : ℤ) (x : ℝ), k ≤ x → x < k + 1 → Int.fract x = x - k := fun k x h1 h2 => by
    rw [Int.fract, Int.floor_eq_iff.2 ⟨h1, h2⟩]
  refine ⟨fun k => by simp, fun k => by rw [fr k _ (by linarith) (by linarith)]; ring, fun k => ?_⟩
  have e : ∫ x in (k : ℝ)..(k + 1), Int.fract x * (1 - Int.fract x) = ∫ x in (k : ℝ)..(k + 1), (x - k) * (1 - (x - k)) := by
    rw [intervalIntegral.integral_of_le (by linarith), intervalIntegral.integral_of_le (by linarith),
      integral_Ioc_eq_integral_Ioo, integral_Ioc_eq_integral_Ioo]
    refine setIntegral_congr_fun measurableSet_Ioo fun x hx => ?_
    simp only [fr k x hx.1.le hx.2]
  rw [e, intervalIntegral.integral_comp_sub_right (fun x => x * (1 - x)) (k : ℝ)]
  simp only [sub_self, add_sub_cancel_left]
  have : (fun x : ℝ => x * (1 - x)) = fun x => x - x ^ 2 := by funext x; ring
  rw [this, intervalIntegral.integral_sub (by simp) (by simp)]
  norm_num [integral_id, integral_pow]

end Emva
