import Verif.Props.C91
import Verif.Props.C90
import Verif.Props.C86Example

/-!
C91, continued: images of the simulated camera, and the gain measured on them.
-/
set_option autoImplicit false
namespace Emva
open Cam Spec Data MeasureTheory ProbabilityTheory Finset
open scoped NNReal
variable {Ω : Type*} [MeasurableSpace Ω] {μ : Measure Ω}

/-- fourth moment of the difference of two independent numbers with the same first four moments -/
theorem fourth_diff [IsProbabilityMeasure μ] {X Y : Ω → ℝ} (hX : MemLp X 2 μ) (hY : MemLp Y 2 μ) (hi : IndepFun X Y μ) {e ve κ : ℝ}
    (mX : ∫ ω, X ω ∂μ = e) (mY : ∫ ω, Y ω ∂μ = e) (vX : Var[X; μ] = ve) (vY : Var[Y; μ] = ve)
    (iX : Integrable (fun ω => (X ω - e) ^ 4) μ) (iY : Integrable (fun ω => (Y ω - e) ^ 4) μ)
    (fX : ∫ ω, (X ω - e) ^ 4 ∂μ = κ) (fY : ∫ ω, (Y ω - e) ^ 4 ∂μ = κ) :
    Integrable (fun ω => (X ω - Y ω) ^ 4) μ ∧ ∫ ω, (X ω - Y ω) ^ 4 ∂μ = 2 * κ + 6 * ve ^ 2 := by
  let A : Ω → ℝ := fun ω => X ω - e
  let B : Ω → ℝ := fun ω => e - Y ω
  have mA : AEMeasurable A μ := hX.1.aemeasurable.sub_const _
  have mB : AEMeasurable B μ := hY.1.aemeasurable.const_sub _
  have hAB : IndepFun A B μ := hi.comp (φ := fun x => x - e) (ψ := fun y => e - y) (by fun_prop) (by fun_prop)
  have eB : (fun ω => B ω ^ 4) = fun ω => (Y ω - e) ^ 4 := by funext ω; simp only [B]; ring
  have zA : ∫ ω, A ω ∂μ = 0 := by
    simp only [A]; rw [integral_sub (hX.integrable one_le_two) (integrable_const _), mX]; simp
  have zB : ∫ ω, B ω ∂μ = 0 := by
    simp only [B]; rw [integral_sub (integrable_const _) (hY.integrable one_le_two), mY]; simp
  have sA : ∫ ω, A ω ^ 2 ∂μ = ve := by rw [← vX, variance_eq_integral hX.1.aemeasurable, mX]
  have sB : ∫ ω, B ω ^ 2 ∂μ = ve := by
    rw [← vY, variance_eq_integral hY.1.aemeasurable, mY]
    refine integral_congr_ae (ae_of_all _ fun ω => ?_); simp only [B]; ring
  obtain ⟨i, v⟩ := fourth_add mA mB hAB iX (by rw [eB]; exact iY) zA zB
  have e4 : (fun ω => (A ω + B ω) ^ 4) = fun ω => (X ω - Y ω) ^ 4 := by funext ω; simp only [A, B]; ring
  rw [e4] at i v
  refine ⟨i, ?_⟩
  rw [v, sA, sB, eB, fY]
  show ∫ ω, (X ω - e) ^ 4 ∂μ + _ + _ = _
  rw [fX]; ring

/-- difference of the grey values of a pixel in two images -/
theorem px_fourth (c : Camera ℝ) (hb : c.bitDepth ≤ 64) (n n' : Ω → Noise ℝ) (i j : ℕ) (lt ll : ℝ≥0) (d0 : ℝ) (s2 : ℝ≥0)
    (h : Draws μ (fun ω => (n ω).therm i j) (fun ω => (n ω).light i j) (fun ω => (n ω).dark i j)
      (fun ω => (n ω).quant i j) lt ll d0 s2)
    (h' : Draws μ (fun ω => (n' ω).therm i j) (fun ω => (n' ω).light i j) (fun ω => (n' ω).dark i j)
      (fun ω => (n' ω).quant i j) lt ll d0 s2) (hi : IndepFun (quad n i j) (quad n' i j) μ) (V : ℝ) (hV : lt + ll + s2 ≤ V) :
    ∫ ω, (((grabImg c (n ω)).px i j : ℝ) - (grabImg c (n' ω)).px i j) ^ 4 ∂μ ≤ 2 * c.K ^ 4 * (12 * V ^ 2 + 2 * V) + 2000 := by
  have : IsProbabilityMeasure μ := h.quant.isProbabilityMeasure
  obtain ⟨hX, mX, vX, iX4, vX4, -⟩ := raw_moments h (c.dsnu i j)
  obtain ⟨hY, mY, vY, iY4, vY4, -⟩ := raw_moments h' (c.dsnu i j)
  set X := rawElectrons (fun ω => (n ω).therm i j) (fun ω => (n ω).light i j) (fun ω => (n ω).dark i j) (c.dsnu i j)
  set Y := rawElectrons (fun ω => (n' ω).therm i j) (fun ω => (n' ω).light i j) (fun ω => (n' ω).dark i j) (c.dsnu i j)
  have mr : Measurable fun z : ℕ × ℕ × ℝ × ℝ => (z.1 : ℝ) + (z.2.1 : ℝ) + (c.dsnu i j + z.2.2.1) := by
    have m : Measurable (fun n : ℕ => (n : ℝ)) := measurable_from_top
    exact ((m.comp measurable_fst).add (m.comp (measurable_fst.comp measurable_snd))).add
      ((measurable_fst.comp (measurable_snd.comp measurable_snd)).const_add _)
  have hXY : IndepFun X Y μ := hi.comp mr mr
  obtain ⟨i4, v4⟩ := fourth_diff hX hY hXY mX mY vX vY iX4 iY4 vX4 vY4
  have pb : ∀ᵐ ω ∂μ, (((grabImg c (n ω)).px i j : ℝ) - (grabImg c (n' ω)).px i j) ^ 4 ≤ 2 * c.K ^ 4 * (X ω - Y ω) ^ 4 + 2000 := by
    filter_upwards [quant_bound (X := fun ω => c.K * clip (X ω) 0 c.uEsat + c.blackoffset) h.quant,
      quant_bound (X := fun ω => c.K * clip (Y ω) 0 c.uEsat + c.blackoffset) h'.quant] with ω h1 h2
    rw [px_digital c n i j hb, px_digital c n' i j hb]
    have hl := clip_lip (digital X (fun ω => (n ω).quant i j) c.K c.blackoffset c.uEsat ω)
      (digital Y (fun ω => (n' ω).quant i j) c.K c.blackoffset c.uEsat ω) 0 (2 ^ c.bitDepth - 1)
    have hd : |digital X (fun ω => (n ω).quant i j) c.K c.blackoffset c.uEsat ω -
        digital Y (fun ω => (n' ω).quant i j) c.K c.blackoffset c.uEsat ω| ≤ |c.K * (X ω - Y ω)| + 2 := by
      have hc : |c.K * (clip (X ω) 0 c.uEsat - clip (Y ω) 0 c.uEsat)| ≤ |c.K * (X ω - Y ω)| := by
        rw [abs_mul, abs_mul]
        exact mul_le_mul_of_nonneg_left (clip_lip _ _ _ _) (abs_nonneg _)
      have e : ∀ a b a' b' : ℝ, |a - a'| ≤ 1 → |b - b'| ≤ 1 → |a - b| ≤ |a' - b'| + 2 := fun a b a' b' g1 g2 => by
        calc |a - b| = |(a' - b') + (a - a') + (b' - b)| := by congr 1; ring
          _ ≤ |a' - b'| + |a - a'| + |b' - b| := abs_add_three _ _ _
          _ ≤ _ := by rw [abs_sub_comm b' b]; linarith
      refine (e _ _ _ _ h1 h2).trans ?_
      have e2 : c.K * clip (X ω) 0 c.uEsat + c.blackoffset - (c.K * clip (Y ω) 0 c.uEsat + c.blackoffset) =
        c.K * (clip (X ω) 0 c.uEsat - clip (Y ω) 0 c.uEsat) := by ring
      rw [e2]
      linarith
    have h4 := pow_le_pow_left₀ (abs_nonneg _) (hl.trans hd) 4
    rw [Even.pow_abs (by decide)] at h4
    refine h4.trans ?_
    have e3 : 2 * c.K ^ 4 * (X ω - Y ω) ^ 4 = 2 * |c.K * (X ω - Y ω)| ^ 4 := by
      rw [Even.pow_abs (by decide), mul_pow]; ring
    rw [e3]
    set p := |c.K * (X ω - Y ω)|
    nlinarith [sq_nonneg (p ^ 2 - 4 * p - 25), sq_nonneg (p - 11.6)]
  have iB : Integrable (fun ω => 2 * c.K ^ 4 * (X ω - Y ω) ^ 4 + 2000) μ := (i4.const_mul _).add (integrable_const _)
  have hmono : ∫ ω, (((grabImg c (n ω)).px i j : ℝ) - (grabImg c (n' ω)).px i j) ^ 4 ∂μ ≤
      ∫ ω, (2 * c.K ^ 4 * (X ω - Y ω) ^ 4 + 2000) ∂μ :=
    integral_mono_of_nonneg (ae_of_all _ fun ω => Even.pow_nonneg (by decide) _) iB pb
  refine hmono.trans ?_
  rw [integral_add (i4.const_mul _) (integrable_const _), integral_const_mul, v4]
  simp only [integral_const, probReal_univ, one_smul]
  have l0 : (0 : ℝ) ≤ lt + ll := by positivity
  have s0 : (0 : ℝ) ≤ s2 := s2.2
  have k4 : 0 ≤ 2 * c.K ^ 4 := by positivity
  have : 2 * (3 * ((lt : ℝ) + ll + s2) ^ 2 + (lt + ll)) + 6 * (lt + ll + s2) ^ 2 ≤ 12 * V ^ 2 + 2 * V := by nlinarith
  have := mul_le_mul_of_nonneg_left this k4
  linarith

/-- The draws of a pair of images, all independent. -/
structure Spec.PairNoise (μ : Measure Ω) (M N : ℕ) (n : ℕ → Ω → Noise ℝ) (lt : ℝ≥0) (ll : ℕ → ℕ → ℝ≥0) (d0 : ℝ) (s2 : ℝ≥0) : Prop where
  grab : GrabNoise μ 2 M N n lt ll d0 s2
  joint : iIndepFun (fun (z : Fin 2 × Fin M × Fin N) ω => quad (n z.1) z.2.1 z.2.2 ω) μ

/-- Bounds of C91 for the probability that the mean of a pair of images is off by `εy`, its temporal variance off by `εs`. -/
noncomputable def Spec.missMean (K V n ε : ℝ) : ℝ := (K ^ 2 * V + 1 / 4) / (2 * n * ε ^ 2)

noncomputable def Spec.missVar (K V n ε : ℝ) : ℝ :=
  ((2 * K ^ 4 * (12 * V ^ 2 + 2 * V) + 2000) / ε ^ 2 + 2 * (K ^ 2 * V + 1 / 4) / ε) / n

theorem pixelsIndep_grab (c : Camera ℝ) (hb : c.bitDepth ≤ 64) (n : ℕ → Ω → Noise ℝ) (lt : ℝ≥0) (ll : ℕ → ℕ → ℝ≥0) (d0 : ℝ)
    (s2 : ℝ≥0) (h : PairNoise μ c.height c.width n lt ll d0 s2) :
    PixelsIndep μ c.height c.width (fun l ω => grabImg c (n l ω)) := by
  intro i hi j hj i' hi' j' hj' hne
  have hm : ∀ z : Fin 2 × Fin c.height × Fin c.width, Measurable fun ω => quad (n z.1) z.2.1 z.2.2 ω :=
    fun z => h.grab.meas z.1 z.1.2 z.2.1 z.2.1.2 z.2.2 z.2.2.2
  have hd : ∀ l l' : Fin 2, ((l, ⟨i, hi⟩, ⟨j, hj⟩) : Fin 2 × Fin c.height × Fin c.width) ≠ (l', ⟨i', hi'⟩, ⟨j', hj'⟩) := by
    intro l l' e
    simp only [Prod.mk.injEq, Fin.mk.injEq] at e
    exact hne (by rw [e.2.1, e.2.2])
  have key := h.joint.indepFun_prodMk_prodMk hm (0, ⟨i, hi⟩, ⟨j, hj⟩) (1, ⟨i, hi⟩, ⟨j, hj⟩) (0, ⟨i', hi'⟩, ⟨j', hj'⟩)
    (1, ⟨i', hi'⟩, ⟨j', hj'⟩) (hd _ _) (hd _ _) (hd _ _) (hd _ _)
  have mf : ∀ a b : ℕ, Measurable fun z : (ℕ × ℕ × ℝ × ℝ) × (ℕ × ℕ × ℝ × ℝ) =>
      (((pxOf c (c.dsnu a b) z.1 : ℤ) : ℝ), ((pxOf c (c.dsnu a b) z.2 : ℤ) : ℝ)) := fun a b => by
    have m1 : Measurable fun z => ((pxOf c (c.dsnu a b) z : ℤ) : ℝ) :=
      (measurable_from_top (f := fun k : ℤ => (k : ℝ))).comp (measurable_pxOf c _)
    exact (m1.comp measurable_fst).prodMk (m1.comp measurable_snd)
  have := key.comp (mf i j) (mf i' j')
  simp only [pixel, px_pxOf c hb]
  exact this

/-- C91, the simulated camera: of a pair of images whose pixels have at most `V` electrons² of noise, clipped or not, the recorded
mean and temporal variance are close to their expected values, except with the probabilities `missMean` and `missVar`. -/
theorem C91_camera (c : Camera ℝ) (hp : 0 < c.height * c.width)
    (henv : (c.height : ℤ) * c.width * (2 ^ c.bitDepth - 1) ^ 2 < 2 ^ 62) (hb : c.bitDepth ≤ 64) (n : ℕ → Ω → Noise ℝ)
    (lt : ℝ≥0) (ll : ℕ → ℕ → ℝ≥0) (d0 : ℝ) (s2 : ℝ≥0) (h : PairNoise μ c.height c.width n lt ll d0 s2)
    (V : ℝ) (hV : ∀ i < c.height, ∀ j < c.width, lt + ll i j + s2 ≤ V) (εy εs : ℝ) (hy : 0 < εy) (hs : 0 < εs) :
    ∃ y s : Ω → ℝ,
      (∀ ω, seriesPoint (c.height * c.width) (temporalEntry ℝ i64 (stack (fun l ω => grabImg c (n l ω)) 2 ω)) =
        (.fin (y ω), .fin (s ω))) ∧
      μ.real {ω | εy ≤ |y ω - ∫ ω, y ω ∂μ|} ≤ missMean c.K V (c.height * c.width) εy ∧
      μ.real {ω | εs ≤ |s ω - ∫ ω, s ω ∂μ|} ≤ missVar c.K V (c.height * c.width) εs := by
  obtain ⟨m, v, hN, hst⟩ := C86_images c hb 2 (by norm_num) n lt ll d0 s2 h.grab
  have hpos : 0 < c.height ∧ 0 < c.width := ⟨Nat.pos_of_mul_pos_right hp, Nat.pos_of_mul_pos_left hp⟩
  have : IsProbabilityMeasure μ := (h.grab.draws 0 (by norm_num) 0 hpos.1 0 hpos.2).quant.isProbabilityMeasure
  have hκ : ∀ i < c.height, ∀ j < c.width, ∫ ω, (pixel (fun l ω => grabImg c (n l ω)) 1 i j ω -
      pixel (fun l ω => grabImg c (n l ω)) 0 i j ω) ^ 4 ∂μ ≤ 2 * c.K ^ 4 * (12 * V ^ 2 + 2 * V) + 2000 := fun i hi j hj =>
    px_fourth c hb (n 1) (n 0) i j lt (ll i j) d0 s2 (h.grab.draws 1 (by norm_num) i hi j hj) (h.grab.draws 0 (by norm_num) i hi j hj)
      (h.grab.indep 1 (by norm_num) i hi j hj 0 (by norm_num) i hi j hj (by simp)) V (hV i hi j hj)
  have hv : imgMean c.height c.width v ≤ c.K ^ 2 * V + 1 / 4 := by
    have := imgMean_mono' (M := c.height) (N := c.width) (f := v) (g := fun _ _ => 0 * (0 : ℝ) + (c.K ^ 2 * V + 1 / 4)) fun i hi j hj => by
      have h1 := (hst i hi j hj).1
      have h2 := mul_le_mul_of_nonneg_left (hV i hi j hj) (sq_nonneg c.K)
      linarith
    rw [imgMean_lin hp (fun _ _ => (0 : ℝ))] at this
    linarith
  have hn : (0 : ℝ) < c.height * c.width := by exact_mod_cast hp
  obtain ⟨y, s, e, xy, xs, p1, -⟩ := C91_point hp henv hN (pixelsIndep_grab c hb n lt ll d0 s2 h) _ hκ εy hy
  obtain ⟨y', s', e', -, -, -, p2⟩ := C91_point hp henv hN (pixelsIndep_grab c hb n lt ll d0 s2 h) _ hκ εs hs
  have es : s' = s := funext fun ω => by
    have := (e' ω).symm.trans (e ω)
    rw [Prod.mk.injEq, Fl.fin.injEq, Fl.fin.injEq] at this
    exact this.2
  rw [es] at p2
  refine ⟨y, s, e, ?_, ?_⟩
  · rw [xy]
    refine p1.trans ?_
    unfold missMean
    gcongr
  · rw [xs]
    refine p2.trans ?_
    unfold missVar
    gcongr

/-- The recorded point of a pair of images. -/
noncomputable def Spec.recorded (c : Camera ℝ) (n : ℕ → Ω → Noise ℝ) (ω : Ω) : Fl ℝ × Fl ℝ :=
  seriesPoint (c.height * c.width) (temporalEntry ℝ i64 (stack (fun l ω => grabImg c (n l ω)) 2 ω))

/-- Distance of a point of the photon transfer curve from the line, when means and variances are off by up to `εy` and `εs`. -/
noncomputable def Spec.offLine (K V δe δy V' δe' δy' εy εs : ℝ) : ℝ :=
  1 / 4 + max (2 * clipNoise K V δe δy * (|K| * √V)) (2 * clipNoise K V' δe' δy' * (|K| * √V')) +
    |K| * (clipMean K V δe δy + clipMean K V' δe' δy') + 2 * εs + 2 * |K| * εy

/-- Distance of the signal from `K` times the electrons of the light. -/
noncomputable def Spec.offSignal (K V δe δy V' δe' δy' εy : ℝ) : ℝ := clipMean K V δe δy + clipMean K V' δe' δy' + 2 * εy

/-- one point of the photon transfer curve, bright and dark -/
theorem curve_point (c : Camera ℝ) (hp : 0 < c.height * c.width)
    (henv : (c.height : ℤ) * c.width * (2 ^ c.bitDepth - 1) ^ 2 < 2 ^ 62) (hb : c.bitDepth ≤ 64) (n n' : ℕ → Ω → Noise ℝ)
    (lt : ℝ≥0) (ll : ℕ → ℕ → ℝ≥0) (d0 : ℝ) (s2 : ℝ≥0) (h : PairNoise μ c.height c.width n lt ll d0 s2)
    (h' : PairNoise μ c.height c.width n' lt (fun _ _ => 0) d0 s2) (V δe δy V' δe' δy' : ℝ)
    (hr : InRange c lt ll d0 s2 V δe δy) (hr' : InRange c lt (fun _ _ => 0) d0 s2 V' δe' δy') (εy εs : ℝ) (hy : 0 < εy) (hs : 0 < εs) :
    ∃ (bad : Set Ω) (y s y' s' : Ω → ℝ), μ.real bad ≤ missMean c.K V (c.height * c.width) εy + missVar c.K V (c.height * c.width) εs +
        missMean c.K V' (c.height * c.width) εy + missVar c.K V' (c.height * c.width) εs ∧
      ∀ ω, recorded c n ω = (.fin (y ω), .fin (s ω)) ∧ recorded c n' ω = (.fin (y' ω), .fin (s' ω)) ∧
        (ω ∉ bad → |(s ω - s' ω) - c.K * (1 - 1 / (c.height * c.width)) * (y ω - y' ω)| ≤ offLine c.K V δe δy V' δe' δy' εy εs ∧
          |(y ω - y' ω) - c.K * imgMean c.height c.width (fun i j => (ll i j : ℝ))| ≤ offSignal c.K V δe δy V' δe' δy' εy) := by
  obtain ⟨y, s, e, p1, p2⟩ := C91_camera c hp henv hb n lt ll d0 s2 h V hr.noise εy εs hy hs
  obtain ⟨y', s', e', p1', p2'⟩ := C91_camera c hp henv hb n' lt _ d0 s2 h' V' hr'.noise εy εs hy hs
  obtain ⟨Y, S, Y', S', g, g', tr⟩ := C86_photon_transfer c hp henv hb n n' lt ll _ d0 s2 h.grab h'.grab V δe δy V' δe' δy' hr hr'
  obtain ⟨Z, _, f, -, -, z, -⟩ := C86_measured c hp henv hb n lt ll d0 s2 h.grab V δe δy hr
  obtain ⟨Z', _, f', -, -, z', -⟩ := C86_measured c hp henv hb n' lt _ d0 s2 h'.grab V' δe' δy' hr'
  have inj : ∀ {a b a' b' : ℝ}, ((Fl.fin a, Fl.fin b) : Fl ℝ × Fl ℝ) = (.fin a', .fin b') → a = a' ∧ b = b' := by
    intro a b a' b' hh
    rwa [Prod.mk.injEq, Fl.fin.injEq, Fl.fin.injEq] at hh
  have eY : Y = y := funext fun ω => (inj ((g ω).symm.trans (e ω))).1
  have eS : S = s := funext fun ω => (inj ((g ω).symm.trans (e ω))).2
  have eY' : Y' = y' := funext fun ω => (inj ((g' ω).symm.trans (e' ω))).1
  have eS' : S' = s' := funext fun ω => (inj ((g' ω).symm.trans (e' ω))).2
  have eZ : Z = y := funext fun ω => (inj ((f ω).symm.trans (e ω))).1
  have eZ' : Z' = y' := funext fun ω => (inj ((f' ω).symm.trans (e' ω))).1
  rw [eY, eS, eY', eS'] at tr
  rw [eZ] at z
  rw [eZ'] at z'
  refine ⟨(({ω | εy ≤ |y ω - ∫ ω, y ω ∂μ|} ∪ {ω | εs ≤ |s ω - ∫ ω, s ω ∂μ|}) ∪ {ω | εy ≤ |y' ω - ∫ ω, y' ω ∂μ|}) ∪
    {ω | εs ≤ |s' ω - ∫ ω, s' ω ∂μ|}, y, s, y', s', ?_, fun ω => ⟨e ω, e' ω, fun hω => ?_⟩⟩
  · refine (measureReal_union_le _ _).trans (add_le_add ((measureReal_union_le _ _).trans (add_le_add
      ((measureReal_union_le _ _).trans (add_le_add p1 p2)) p1')) p2')
  · simp only [Set.mem_union, Set.mem_setOf_eq, not_or, not_le] at hω
    obtain ⟨⟨⟨b1, b2⟩, b3⟩, b4⟩ := hω
    have hn : (1 : ℝ) ≤ c.height * c.width := by exact_mod_cast hp
    have hone0 : (0 : ℝ) ≤ 1 - 1 / (c.height * c.width) := by
      have := (div_le_one₀ (by linarith : (0 : ℝ) < c.height * c.width)).2 hn; linarith
    have hone : |(1 : ℝ) - 1 / (c.height * c.width)| ≤ 1 := by
      rw [abs_of_nonneg hone0]
      have : (0 : ℝ) ≤ 1 / (c.height * c.width) := by positivity
      linarith
    constructor
    · set ρ : ℝ := 1 - 1 / (c.height * c.width)
      set my := ∫ ω, y ω ∂μ
      set ms := ∫ ω, s ω ∂μ
      set my' := ∫ ω, y' ω ∂μ
      set ms' := ∫ ω, s' ω ∂μ
      have e1 : (s ω - s' ω) - c.K * ρ * (y ω - y' ω) = ((ms - ms') - c.K * ρ * (my - my')) + (s ω - ms) - (s' ω - ms') -
          c.K * ρ * ((y ω - my) - (y' ω - my')) := by ring
      have k : |c.K * ρ * ((y ω - my) - (y' ω - my'))| ≤ |c.K| * (2 * εy) := by
        rw [abs_mul, abs_mul]
        have : |(y ω - my) - (y' ω - my')| ≤ 2 * εy := (abs_sub _ _).trans (by linarith)
        calc |c.K| * |ρ| * |(y ω - my) - (y' ω - my')| ≤ |c.K| * 1 * (2 * εy) := by gcongr
          _ = _ := by ring
      rw [e1, offLine]
      refine (abs_sub _ _).trans ?_
      have a1 : |((ms - ms') - c.K * ρ * (my - my')) + (s ω - ms) - (s' ω - ms')| ≤
          |(ms - ms') - c.K * ρ * (my - my')| + |s ω - ms| + |s' ω - ms'| :=
        (abs_sub _ _).trans (add_le_add (abs_add_le _ _) le_rfl)
      linarith
    · let D : ℕ → ℕ → ℝ := fun i j => c.K * ((lt : ℝ) + ((0 : ℝ≥0) : ℝ) + (c.dsnu i j + d0)) + c.blackoffset
      have l3 : imgMean c.height c.width (fun i j => c.K * ((lt : ℝ) + ll i j + (c.dsnu i j + d0)) + c.blackoffset) =
          imgMean c.height c.width D + c.K * imgMean c.height c.width (fun i j => (ll i j : ℝ)) := by
        have l1 : (fun i j => c.K * ((lt : ℝ) + ll i j + (c.dsnu i j + d0)) + c.blackoffset) = fun i j =>
            D i j - ((-c.K) * (ll i j : ℝ) + 0) := by
          funext i j; simp only [D, NNReal.coe_zero]; ring
        have l2 := imgMean_sub c.height c.width D (fun i j => (-c.K) * (ll i j : ℝ) + 0)
        rw [imgMean_lin hp (fun i j => (ll i j : ℝ)) (-c.K) 0] at l2
        rw [l1, l2]; ring
      have z1 : |∫ ω, y ω ∂μ - imgMean c.height c.width
          (fun i j => c.K * ((lt : ℝ) + ll i j + (c.dsnu i j + d0)) + c.blackoffset)| ≤ clipMean c.K V δe δy := z
      have z2 : |∫ ω, y' ω ∂μ - imgMean c.height c.width D| ≤ clipMean c.K V' δe' δy' := z'
      rw [l3] at z1
      rw [offSignal, abs_le]
      rw [abs_le] at z1 z2
      have := abs_lt.1 b1
      have := abs_lt.1 b3
      constructor <;> linarith

/-- C91, the gain. A data set of `P` pairs of bright and dark images of the simulated camera, of which the first `P0` stay away
from the ends of the range. Except with a probability of at most `P0` times the bound of `curve_point` (which goes to zero with
the number of pixels), these points are near the line and the system gain found is that of the camera times `1 - 1 / (number of pixels)`, up to `√(j + 1)` times
`offLine` over the signal of any of the points `0 .. j` used, provided all these are among the first `P0`. -/
theorem C91_gain (q : LSQ ℝ) (hq : q.Good) (c : Camera ℝ) (hp : 0 < c.height * c.width)
    (henv : (c.height : ℤ) * c.width * (2 ^ c.bitDepth - 1) ^ 2 < 2 ^ 62) (hb : c.bitDepth ≤ 64) (P P0 : ℕ) (hP : P0 ≤ P)
    (nb nd : ℕ → ℕ → Ω → Noise ℝ) (lt : ℕ → ℝ≥0) (ll : ℕ → ℕ → ℕ → ℝ≥0) (d0 : ℝ) (s2 : ℝ≥0)
    (h : ∀ p < P0, PairNoise μ c.height c.width (nb p) (lt p) (ll p) d0 s2)
    (h' : ∀ p < P0, PairNoise μ c.height c.width (nd p) (lt p) (fun _ _ => 0) d0 s2) (V δe δy V' δe' δy' : ℝ)
    (hr : ∀ p < P0, InRange c (lt p) (ll p) d0 s2 V δe δy) (hr' : ∀ p < P0, InRange c (lt p) (fun _ _ => 0) d0 s2 V' δe' δy')
    (εy εs : ℝ) (hy : 0 < εy) (hs : 0 < εs) (r : Ω → Results.Res ℝ)
    (hd : ∀ ω, (r ω).temporal.u_y = (List.range P).map (fun p => (recorded c (nb p) ω).1) ∧
      (r ω).temporal.s2_y = (List.range P).map (fun p => (recorded c (nb p) ω).2) ∧
      (r ω).temporal.u_ydark = (List.range P).map (fun p => (recorded c (nd p) ω).1) ∧
      (r ω).temporal.s2_ydark = (List.range P).map (fun p => (recorded c (nd p) ω).2)) :
    ∃ bad : Set Ω, μ.real bad ≤ P0 * (missMean c.K V (c.height * c.width) εy + missVar c.K V (c.height * c.width) εs +
        missMean c.K V' (c.height * c.width) εy + missVar c.K V' (c.height * c.width) εs) ∧
      ∀ ω, ω ∉ bad → (∀ p < P0, ∃ y s y' s', recorded c (nb p) ω = (.fin y, .fin s) ∧ recorded c (nd p) ω = (.fin y', .fin s') ∧
        |(s - s') - c.K * (1 - 1 / (c.height * c.width)) * (y - y')| ≤ offLine c.K V δe δy V' δe' δy' εy εs ∧
        |(y - y') - c.K * imgMean c.height c.width (fun a b => (ll p a b : ℝ))| ≤ offSignal c.K V δe δy V' δe' δy' εy) ∧
        ∀ j < P0, Results.val Results.indexSensitivityMax (r ω) = .ok j → ∀ i ≤ j,
        0 < c.K * imgMean c.height c.width (fun a b => (ll i a b : ℝ)) - offSignal c.K V δe δy V' δe' δy' εy →
        ∃ k, Results.val (Results.K q) (r ω) = .ok (.fin k) ∧
          |k - c.K * (1 - 1 / (c.height * c.width))| ≤ √(j + 1) * offLine c.K V δe δy V' δe' δy' εy εs /
            (c.K * imgMean c.height c.width (fun a b => (ll i a b : ℝ)) - offSignal c.K V δe δy V' δe' δy' εy) := by
  -- every recorded value is finite
  have fin : ∀ (n : ℕ → Ω → Noise ℝ) (ω : Ω), ∃ y s : ℝ, recorded c n ω = (.fin y, .fin s) := fun n ω => by
    have g := fun l => C49_range c (n l ω) hb
    have hk : ∀ l, ∀ i < c.height, ∀ j < c.width, 0 ≤ (grabImg c (n l ω)).px i j ∧ (grabImg c (n l ω)).px i j ≤ 2 ^ c.bitDepth - 1 :=
      fun l i _ j _ => by
        have := (g l).2.2 i j
        exact ⟨this.1, this.2.1⟩
    exact ⟨_, _, C05_temporal_point ℝ c.height c.width (2 ^ c.bitDepth - 1) _ _
      ⟨hp, rfl, rfl, rfl, rfl, hk 0, hk 1, henv⟩⟩
  choose yb sb eb using fun p => fin (nb p)
  choose yd sd ed using fun p => fin (nd p)
  choose bad y s y' s' hbad hcur using fun (p : Fin P0) => curve_point c hp henv hb (nb p) (nd p) (lt p) (ll p) d0 s2
    (h p p.2) (h' p p.2) V δe δy V' δe' δy' (hr p p.2) (hr' p p.2) εy εs hy hs
  refine ⟨⋃ p ∈ (Finset.univ : Finset (Fin P0)), bad p, ?_, ?_⟩
  · refine (measureReal_biUnion_finset_le _ _).trans ((sum_le_sum fun p _ => hbad p).trans_eq ?_)
    rw [sum_const, card_univ, Fintype.card_fin, nsmul_eq_mul]
  · intro ω hω
    simp only [mem_univ, Set.iUnion_true, Set.mem_iUnion, not_exists] at hω
    have inj : ∀ {a b a' b' : ℝ}, ((Fl.fin a, Fl.fin b) : Fl ℝ × Fl ℝ) = (.fin a', .fin b') → a = a' ∧ b = b' := by
      intro a b a' b' hh
      rwa [Prod.mk.injEq, Fl.fin.injEq, Fl.fin.injEq] at hh
    have pts : ∀ p < P0, |(sb p ω - sd p ω) - c.K * (1 - 1 / (c.height * c.width)) * (yb p ω - yd p ω)| ≤
          offLine c.K V δe δy V' δe' δy' εy εs ∧
        |(yb p ω - yd p ω) - c.K * imgMean c.height c.width (fun a b => (ll p a b : ℝ))| ≤ offSignal c.K V δe δy V' δe' δy' εy := by
      intro p hp'
      obtain ⟨a, b, f⟩ := hcur ⟨p, hp'⟩ ω
      obtain ⟨a1, a2⟩ := inj ((eb p ω).symm.trans a)
      obtain ⟨b1, b2⟩ := inj ((ed p ω).symm.trans b)
      have := f (hω ⟨p, hp'⟩)
      rwa [← a1, ← a2, ← b1, ← b2] at this
    refine ⟨fun p hp' => ⟨_, _, _, _, eb p ω, ed p ω, pts p hp'⟩, ?_⟩
    intro j hj hidx i hij hx0
    have lists : ∀ (f : ℕ → Fl ℝ) (g : ℕ → ℝ), (∀ p, f p = .fin (g p)) → (List.range P).map f = ((List.range P).map g).map .fin :=
      fun f g hfg => by rw [List.map_map]; exact List.map_congr_left fun p _ => hfg p
    obtain ⟨d1, d2, d3, d4⟩ := hd ω
    rw [lists _ (fun p => yb p ω) fun p => by rw [eb p ω]] at d1
    rw [lists _ (fun p => sb p ω) fun p => by rw [eb p ω]] at d2
    rw [lists _ (fun p => yd p ω) fun p => by rw [ed p ω]] at d3
    rw [lists _ (fun p => sd p ω) fun p => by rw [ed p ω]] at d4
    have hdiff : ∀ f g : ℕ → ℝ, diff ((List.range P).map f) ((List.range P).map g) = (List.range P).map fun p => f p - g p :=
      fun f g => by simp [diff, List.zipWith_map]
    have hget : ∀ (f : ℕ → ℝ) (p : ℕ) (a : ℝ), ((List.range P).map f)[p]? = some a → a = f p := fun f p a ha => by
      simp only [List.getElem?_map, Option.map_eq_some_iff] at ha
      obtain ⟨b, hb', rfl⟩ := ha
      have := List.getElem?_eq_some_iff.1 hb'
      obtain ⟨hlt, rfl⟩ := this
      simp
    have hget' : ∀ (f : ℕ → ℝ) (p : ℕ), p < P → ((List.range P).map f)[p]? = some (f p) := fun f p hp' => by
      simp [hp']
    have hi0 : i < P0 := by omega
    have xi := abs_le.1 (pts i hi0).2
    have xpos : c.K * imgMean c.height c.width (fun a b => (ll i a b : ℝ)) - offSignal c.K V δe δy V' δe' δy' εy ≤ yb i ω - yd i ω := by
      linarith [xi.1]
    obtain ⟨k, ek, hk, -⟩ := C90_gain q hq (r ω) _ _ _ _ d1 d3 d2 d4 (by simp) (by simp) (by simp) j hidx
      ⟨i, hij, yb i ω - yd i ω, by rw [hdiff]; exact hget' _ i (by omega), by linarith⟩
    refine ⟨k, ek, ?_⟩
    have := hk (c.K * (1 - 1 / (c.height * c.width))) (offLine c.K V δe δy V' δe' δy' εy εs) (fun p hpj a b ha hb' => by
      rw [hdiff] at ha hb'
      rw [hget _ p a ha, hget _ p b hb']
      exact (pts p (by omega)).1) i hij (yb i ω - yd i ω) (by rw [hdiff]; exact hget' _ i (by omega))
    have hoff : 0 ≤ offLine c.K V δe δy V' δe' δy' εy εs := (abs_nonneg _).trans (pts i hi0).1
    rw [le_div_iff₀ hx0]
    set κ := c.K * (1 - 1 / ((c.height : ℝ) * c.width))
    set x := yb i ω - yd i ω
    have hxp : 0 < x := by linarith
    calc |k - κ| * _ ≤ |k - κ| * x := mul_le_mul_of_nonneg_left xpos (abs_nonneg _)
      _ = |(k - κ) * x| := by rw [abs_mul, abs_of_pos hxp]
      _ ≤ √((j + 1) * offLine c.K V δe δy V' δe' δy' εy εs ^ 2) := Real.abs_le_sqrt this
      _ = _ := by rw [Real.sqrt_mul (by positivity), Real.sqrt_sq hoff]

end Emva
