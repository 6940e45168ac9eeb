import Verif.Props.C86
import Mathlib.Probability.IdentDistrib

/-!
C86, continued: grabbed images as random images in the sense of C81, and what is measured on them.
-/
set_option autoImplicit false
namespace Emva
open Cam Spec Data MeasureTheory ProbabilityTheory Finset
open scoped NNReal
variable {Ω Ω' : Type*} [MeasurableSpace Ω] {μ : Measure Ω} [MeasurableSpace Ω'] {μ' : Measure Ω'}

/-- the grey value of a pixel as a function of its draws -/
noncomputable def pxOf (c : Camera ℝ) (dsnu : ℝ) (z : ℕ × ℕ × ℝ × ℝ) : ℤ :=
  clip (rint (c.K * clip ((z.1 : ℝ) + (z.2.1 : ℝ) + (dsnu + z.2.2.1)) 0 c.uEsat + z.2.2.2 + c.blackoffset)) 0
    (imgMax c.bitDepth)

theorem measurable_pxOf (c : Camera ℝ) (dsnu : ℝ) : Measurable (pxOf c dsnu) := by
  have m : Measurable (fun n : ℕ => (n : ℝ)) := measurable_from_top
  have h1 : Measurable fun z : ℕ × ℕ × ℝ × ℝ => (z.1 : ℝ) + (z.2.1 : ℝ) + (dsnu + z.2.2.1) :=
    ((m.comp measurable_fst).add (m.comp (measurable_fst.comp measurable_snd))).add
      ((measurable_fst.comp (measurable_snd.comp measurable_snd)).const_add dsnu)
  have h2 := (((measurable_clip 0 c.uEsat).comp h1).const_mul c.K).add
    (measurable_snd.comp (measurable_snd.comp measurable_snd) : Measurable fun z : ℕ × ℕ × ℝ × ℝ => z.2.2.2)
  exact (measurable_from_top (f := fun k : ℤ => clip k 0 (imgMax c.bitDepth))).comp
    (measurable_rint.comp (h2.add_const c.blackoffset))

theorem px_pxOf (c : Camera ℝ) (hb : c.bitDepth ≤ 64) (n : Ω → Noise ℝ) (i j : ℕ) (ω : Ω) :
    (grabImg c (n ω)).px i j = pxOf c (c.dsnu i j) (quad n i j ω) := by
  rw [((C49_range c (n ω) hb).2.2 i j).2.2]
  rfl

/-- the law of the draws -/
theorem draws_law {T L : Ω → ℕ} {D Q : Ω → ℝ} {lt ll : ℝ≥0} {d0 : ℝ} {s2 : ℝ≥0} (h : Draws μ T L D Q lt ll d0 s2) :
    AEMeasurable (fun ω => (T ω, L ω, D ω, Q ω)) μ ∧
    μ.map (fun ω => (T ω, L ω, D ω, Q ω)) = (((((poissonMeasure lt).prod (poissonMeasure ll)).prod (gaussianReal d0 s2)).map
      (fun z => (z.1.1, z.1.2, z.2))).prod uniformLaw).map (fun z => (z.1.1, z.1.2.1, z.1.2.2, z.2)) := by
  have : IsProbabilityMeasure μ := h.quant.isProbabilityMeasure
  have mT := h.therm.aemeasurable
  have mL := h.light.aemeasurable
  have mD := h.dark.aemeasurable
  have mQ := h.quant.aemeasurable
  have mTL : AEMeasurable (fun ω => (T ω, L ω)) μ := mT.prodMk mL
  have mTLD : AEMeasurable (fun ω => (T ω, L ω, D ω)) μ := mT.prodMk (mL.prodMk mD)
  have e1 := (indepFun_iff_map_prod_eq_prod_map_map mT mL).1 h.indep_light
  have e2 := (indepFun_iff_map_prod_eq_prod_map_map mTL mD).1 h.indep_dark
  have e3 := (indepFun_iff_map_prod_eq_prod_map_map mTLD mQ).1 h.indep_quant
  have r1 : Measurable fun z : (ℕ × ℕ) × ℝ => (z.1.1, z.1.2, z.2) := by fun_prop
  have r2 : Measurable fun z : (ℕ × ℕ × ℝ) × ℝ => (z.1.1, z.1.2.1, z.1.2.2, z.2) := by fun_prop
  rw [h.therm.map_eq, h.light.map_eq] at e1
  rw [e1, h.dark.map_eq] at e2
  have e4 : μ.map (fun ω => (T ω, L ω, D ω)) = (((poissonMeasure lt).prod (poissonMeasure ll)).prod (gaussianReal d0 s2)).map
      (fun z => (z.1.1, z.1.2, z.2)) := by
    rw [← e2, AEMeasurable.map_map_of_aemeasurable r1.aemeasurable (mTL.prodMk mD)]
    rfl
  rw [e4, h.quant.map_eq] at e3
  refine ⟨mT.prodMk (mL.prodMk (mD.prodMk mQ)), ?_⟩
  rw [← e3, AEMeasurable.map_map_of_aemeasurable r2.aemeasurable (mTLD.prodMk mQ)]
  rfl

/-- pixels with the same distribution of the draws have the same expected value and variance -/
theorem px_ident (c : Camera ℝ) (hb : c.bitDepth ≤ 64) (n : Ω → Noise ℝ) (n' : Ω' → Noise ℝ) (i j : ℕ) (lt ll : ℝ≥0) (d0 : ℝ) (s2 : ℝ≥0)
    (h : Draws μ (fun ω => (n ω).therm i j) (fun ω => (n ω).light i j) (fun ω => (n ω).dark i j)
      (fun ω => (n ω).quant i j) lt ll d0 s2)
    (h' : Draws μ' (fun ω => (n' ω).therm i j) (fun ω => (n' ω).light i j) (fun ω => (n' ω).dark i j)
      (fun ω => (n' ω).quant i j) lt ll d0 s2) :
    IdentDistrib (fun ω => ((grabImg c (n ω)).px i j : ℝ)) (fun ω => ((grabImg c (n' ω)).px i j : ℝ)) μ μ' := by
  obtain ⟨m1, e1⟩ := draws_law h
  obtain ⟨m2, e2⟩ := draws_law h'
  have hq : IdentDistrib (quad n i j) (quad n' i j) μ μ' := ⟨m1, m2, by rw [← e2] at e1; exact e1⟩
  have hm : Measurable fun z => ((pxOf c (c.dsnu i j) z : ℤ) : ℝ) :=
    (measurable_from_top (f := fun k : ℤ => (k : ℝ))).comp (measurable_pxOf c _)
  have e : (fun ω => ((grabImg c (n ω)).px i j : ℝ)) = (fun z => ((pxOf c (c.dsnu i j) z : ℤ) : ℝ)) ∘ quad n i j := by
    funext ω; simp only [Function.comp, px_pxOf c hb]
  have e' : (fun ω => ((grabImg c (n' ω)).px i j : ℝ)) = (fun z => ((pxOf c (c.dsnu i j) z : ℤ) : ℝ)) ∘ quad n' i j := by
    funext ω; simp only [Function.comp, px_pxOf c hb]
  rw [e, e']
  exact hq.comp hm

/-- What C86 says about the expected value `m` and the variance `v` of a pixel with, in electrons, the expected value `e0`,
the variance `ve` and the variance `vp` of the Poisson part. -/
def Spec.PixelStats (c : Camera ℝ) (e0 ve vp m v : ℝ) : Prop :=
  v ≤ c.K ^ 2 * ve + 1 / 4 ∧
  ∀ δe δy : ℝ, 0 < δe → 0 < δy → δe ≤ e0 → e0 + δe ≤ c.uEsat → δy ≤ c.K * e0 + c.blackoffset →
    c.K * e0 + c.blackoffset + δy ≤ 2 ^ c.bitDepth - 1 →
      |m - (c.K * e0 + c.blackoffset)| ≤ |c.K| * ve / (4 * δe) + (c.K ^ 2 * ve + 1 / 4) / (4 * δy) ∧
      |c.K| * √ve ≤ √v + |c.K| * √(3 * ve ^ 2 + vp) / (4 * δe) + √(8 * (c.K ^ 4 * (3 * ve ^ 2 + vp) + 1)) / (4 * δy)

/-- C86, images: when the camera draws its numbers as `GrabNoise` says, the images it grabs are random images in the
sense of C81: the grey values are uncorrelated, all images have the same expected grey values `m` and the same noise
`v`, and these are those of the linear camera model (see `C86_pixel`). -/
theorem C86_images (c : Camera ℝ) (hb : c.bitDepth ≤ 64) (L : ℕ) (hL : 0 < L) (n : ℕ → Ω → Noise ℝ) (lt : ℝ≥0)
    (ll : ℕ → ℕ → ℝ≥0) (d0 : ℝ) (s2 : ℝ≥0) (h : GrabNoise μ L c.height c.width n lt ll d0 s2) :
    ∃ m v : ℕ → ℕ → ℝ, Noisy μ L c.height c.width (2 ^ c.bitDepth - 1) (fun l ω => grabImg c (n l ω)) (fun _ => m) v ∧
      ∀ i < c.height, ∀ j < c.width,
        Spec.PixelStats c (lt + ll i j + (c.dsnu i j + d0)) (lt + ll i j + s2) (lt + ll i j) (m i j) (v i j) := by
  refine ⟨fun i j => ∫ ω, ((grabImg c (n 0 ω)).px i j : ℝ) ∂μ, fun i j => Var[fun ω => ((grabImg c (n 0 ω)).px i j : ℝ); μ],
    ⟨?_, ?_, ?_, ?_, ?_, ?_⟩, ?_⟩
  · exact fun l _ ω => ⟨rfl, rfl⟩
  · intro l _ ω i _ j _
    obtain ⟨a, b, -⟩ := (C49_range c (n l ω) hb).2.2 i j
    exact ⟨a, b⟩
  · intro l hl i hi j hj
    have : (fun ω => (grabImg c (n l ω)).px i j) = fun ω => pxOf c (c.dsnu i j) (quad (n l) i j ω) :=
      funext fun ω => px_pxOf c hb _ i j ω
    rw [this]
    exact (measurable_pxOf c _).comp (h.meas l hl i hi j hj)
  · intro l hl i hi j hj
    exact (px_ident c hb _ _ i j _ _ _ _ (h.draws l hl i hi j hj) (h.draws 0 hL i hi j hj)).integral_eq
  · intro l hl i hi j hj
    exact (px_ident c hb _ _ i j _ _ _ _ (h.draws l hl i hi j hj) (h.draws 0 hL i hi j hj)).variance_eq
  · intro l hl i hi j hj l' hl' i' hi' j' hj' hne
    have hm : ∀ i j, Measurable fun z => ((pxOf c (c.dsnu i j) z : ℤ) : ℝ) := fun i j =>
      (measurable_from_top (f := fun k : ℤ => (k : ℝ))).comp (measurable_pxOf c _)
    have e : ∀ l i j, pixel (fun l ω => grabImg c (n l ω)) l i j =
        (fun z => ((pxOf c (c.dsnu i j) z : ℤ) : ℝ)) ∘ quad (n l) i j := fun l i j => by
      funext ω; simp only [pixel, Function.comp, px_pxOf c hb]
    have : IsProbabilityMeasure μ := (h.draws l hl i hi j hj).quant.isProbabilityMeasure
    have hL2 : ∀ l < L, ∀ i < c.height, ∀ j < c.width, MemLp (pixel (fun l ω => grabImg c (n l ω)) l i j) 2 μ := by
      intro l hl i hi j hj
      refine MemLp.of_bound (C := (2 : ℝ) ^ c.bitDepth - 1) ?_ (ae_of_all _ fun ω => ?_)
      · rw [e]
        exact ((hm i j).comp (h.meas l hl i hi j hj)).aestronglyMeasurable
      · obtain ⟨a, b, -⟩ := (C49_range c (n l ω) hb).2.2 i j
        rw [pixel, Real.norm_eq_abs, abs_of_nonneg (by exact_mod_cast a)]
        exact_mod_cast b
    refine IndepFun.covariance_eq_zero ?_ (hL2 l hl i hi j hj) (hL2 l' hl' i' hi' j' hj')
    rw [e, e]
    exact (h.indep l hl i hi j hj l' hl' i' hi' j' hj' hne).comp (hm i j) (hm i' j')
  · intro i hi j hj
    exact C86_pixel c hb (n 0) i j lt (ll i j) d0 s2 (h.draws 0 hL i hi j hj)

end Emva
