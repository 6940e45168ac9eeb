import Verif.Props.C86Measured
import Verif.Model.Radiance
import Mathlib.Probability.HasLawExists

/-!
C86, continued: the means of the draws of `grab`, existence of the draws, a camera within the hypotheses.
-/
set_option autoImplicit false
namespace Emva
open Cam Spec Data MeasureTheory ProbabilityTheory
open scoped NNReal

/-- C86, `grab`: `grab` returns an image exactly when the dark current and the light give means that are not negative, and
then it is the image of the draws. -/
theorem C86_grab (c : Camera ℝ) (o : Optics) (radiance : Arr3) (T f : Option ℝ) (n : Noise ℝ) (img : Img) :
    grabRadiance c o radiance T f n = .ok img ↔
      img = grabImg c n ∧ (∃ lt : ℝ≥0, uTherm c o T = .ok (lt : ℝ)) ∧
      ∀ i < c.height, ∀ j < c.width, (∃ ll : ℝ≥0, uE c o radiance f i j = .fin (ll : ℝ)) ∨ uE c o radiance f i j = .inf false := by
  have hok : ∀ x : Fl ℝ, poissonOk x = true ↔ (∃ ll : ℝ≥0, x = .fin (ll : ℝ)) ∨ x = .inf false := by
    intro x
    rcases x with _ | neg | x
    · simp [poissonOk, Fl.le]
    · cases neg <;> simp [poissonOk, Fl.le]
    · simp only [poissonOk, Fl.le, decide_eq_true_eq, Fl.fin.injEq, reduceCtorEq, or_false]
      exact ⟨fun h => ⟨⟨x, h⟩, rfl⟩, fun ⟨l, h⟩ => h ▸ l.coe_nonneg⟩
  unfold grabRadiance
  rcases hu : uTherm c o T with e | u
  · simp [bind, Except.bind]
  · simp only [bind, Except.bind]
    split_ifs with h1 h2
    · simp only [reduceCtorEq, false_iff]
      rintro ⟨-, ⟨lt, hl⟩, -⟩
      rw [Except.ok.injEq] at hl
      simp [(hok (.fin u)).2 (.inl ⟨lt, by rw [hl]⟩)] at h1
    · simp only [reduceCtorEq, false_iff]
      rintro ⟨-, -, h⟩
      simp only [Bool.not_eq_true', List.all_eq_false, List.mem_range, Bool.not_eq_true] at h2
      obtain ⟨i, hi, j, hj, hij⟩ := h2
      simp [(hok _).2 (h i hi j hj)] at hij
    · simp only [Bool.not_eq_true', Bool.not_eq_false] at h1
      simp only [Bool.not_eq_true', Bool.not_eq_false, List.all_eq_true, List.mem_range] at h2
      have hpu : ∃ lt : ℝ≥0, u = lt := by
        rcases (hok _).1 h1 with ⟨l, hl⟩ | hl
        · exact ⟨l, by simpa using hl⟩
        · simp at hl
      constructor
      · intro h
        refine ⟨by simpa using h.symm, ?_, fun i hi j hj => (hok _).1 (h2 i hi j hj)⟩
        obtain ⟨l, hl⟩ := hpu
        exact ⟨l, by rw [hl]⟩
      · rintro ⟨rfl, -, -⟩; rfl

section
variable {Ω α β : Type*} [MeasurableSpace Ω] [MeasurableSpace α] [MeasurableSpace β] {μ : Measure Ω}
  {a : Measure α} {b : Measure β} [IsProbabilityMeasure a] [IsProbabilityMeasure b]

/-- the components of a pair with a product law -/
theorem prod_parts {A : Ω → α} {B : Ω → β} (h : HasLaw (fun ω => (A ω, B ω)) (a.prod b) μ) :
    HasLaw A a μ ∧ HasLaw B b μ ∧ IndepFun A B μ := by
  have : IsProbabilityMeasure μ := h.isProbabilityMeasure
  have hA : HasLaw A a μ := ⟨measurable_fst.comp_aemeasurable h.aemeasurable, by
    have := congrArg (Measure.map Prod.fst) h.map_eq
    rw [AEMeasurable.map_map_of_aemeasurable measurable_fst.aemeasurable h.aemeasurable, Measure.map_fst_prod] at this
    simpa [Function.comp_def] using this⟩
  have hB : HasLaw B b μ := ⟨measurable_snd.comp_aemeasurable h.aemeasurable, by
    have := congrArg (Measure.map Prod.snd) h.map_eq
    rw [AEMeasurable.map_map_of_aemeasurable measurable_snd.aemeasurable h.aemeasurable, Measure.map_snd_prod] at this
    simpa [Function.comp_def] using this⟩
  refine ⟨hA, hB, ?_⟩
  rw [indepFun_iff_map_prod_eq_prod_map_map hA.aemeasurable hB.aemeasurable, hA.map_eq, hB.map_eq]
  exact h.map_eq
end

/-- C86, the hypotheses can be met: for all means and variances there are draws with these laws. -/
theorem C86_draws_exist (K M N : ℕ) (lt : ℝ≥0) (ll : ℕ → ℕ → ℝ≥0) (d0 : ℝ) (s2 : ℝ≥0) :
    ∃ (Ω : Type) (_ : MeasurableSpace Ω) (μ : Measure Ω) (n : ℕ → Ω → Noise ℝ), GrabNoise μ K M N n lt ll d0 s2 := by
  obtain ⟨Ω, _, P, X, hm, hl, hi, -⟩ := exists_hasLaw_indepFun (ι := ℕ × ℕ × ℕ) (fun _ => ((ℕ × ℕ) × ℝ) × ℝ)
    (fun z => (((poissonMeasure lt).prod (poissonMeasure (ll z.2.1 z.2.2))).prod (gaussianReal d0 s2)).prod uniformLaw)
  let n : ℕ → Ω → Noise ℝ := fun l ω =>
    ⟨fun i j => (X (l, i, j) ω).1.1.1, fun i j => (X (l, i, j) ω).1.1.2, fun i j => (X (l, i, j) ω).1.2, fun i j => (X (l, i, j) ω).2⟩
  let φ : ((ℕ × ℕ) × ℝ) × ℝ → ℕ × ℕ × ℝ × ℝ := fun z => (z.1.1.1, z.1.1.2, z.1.2, z.2)
  have hφ : Measurable φ := by fun_prop
  refine ⟨Ω, _, P, n, ⟨?_, ?_, ?_⟩⟩
  · intro l _ i _ j _
    exact hφ.comp (hm (l, i, j))
  · intro l _ i _ j _
    obtain ⟨h1, hq, iq⟩ := prod_parts (A := fun ω => (X (l, i, j) ω).1) (B := fun ω => (X (l, i, j) ω).2) (hl (l, i, j))
    obtain ⟨h2, hd, id'⟩ := prod_parts (A := fun ω => (X (l, i, j) ω).1.1) (B := fun ω => (X (l, i, j) ω).1.2) h1
    obtain ⟨h3, h4, il⟩ := prod_parts (A := fun ω => (X (l, i, j) ω).1.1.1) (B := fun ω => (X (l, i, j) ω).1.1.2) h2
    refine ⟨h3, h4, hd, hq, il, id', ?_⟩
    exact iq.comp (φ := fun z : (ℕ × ℕ) × ℝ => (z.1.1, z.1.2, z.2)) (by fun_prop) measurable_id
  · intro l _ i _ j _ l' _ i' _ j' _ hne
    exact (hi.indepFun hne).comp hφ hφ

/-- A camera with 12 bits, a gain of 1/10 and a full well of 20000 electrons. -/
noncomputable def exCam86 : Camera ℝ where
  bitDepth := 12
  width := 640
  height := 480
  Ks := [1 / 10]
  K := 1 / 10
  blackoffsets := [20]
  blackoffset := 20
  uEsat := 20000
  exposure := 1000000
  dsnu := fun i _ => if i = 0 then 5 else 0

/-- Half the full well, 10 thermal electrons, a dark noise of 5 electrons. -/
theorem ex86_light : Spec.InRange exCam86 10 (fun _ _ => 9890) 100 25 9925 9990 1020 := by
  refine ⟨by norm_num, by norm_num, fun i _ j _ => ?_, fun i _ j _ => ?_, fun i _ j _ => ?_⟩
  · norm_num
  · rcases eq_or_ne i 0 with h | h <;> simp only [exCam86, h, if_true, if_false] <;> norm_num
  · rcases eq_or_ne i 0 with h | h <;> simp only [exCam86, h, if_true, if_false] <;> norm_num

/-- No light. -/
theorem ex86_dark : Spec.InRange exCam86 10 (fun _ _ => 0) 100 25 35 110 31 := by
  refine ⟨by norm_num, by norm_num, fun i _ j _ => ?_, fun i _ j _ => ?_, fun i _ j _ => ?_⟩
  · norm_num
  · rcases eq_or_ne i 0 with h | h <;> simp only [exCam86, h, if_true, if_false] <;> norm_num
  · rcases eq_or_ne i 0 with h | h <;> simp only [exCam86, h, if_true, if_false] <;> norm_num

/-- With this camera the photon transfer holds up to 4 DN², while the variance grows by 98.9 DN². -/
theorem ex86_line : 1 / 4 + max (2 * Spec.clipNoise (1 / 10) 9925 9990 1020 * (|1 / 10| * √9925))
    (2 * Spec.clipNoise (1 / 10) 35 110 31 * (|1 / 10| * √35)) +
      |1 / 10| * (Spec.clipMean (1 / 10) 9925 9990 1020 + Spec.clipMean (1 / 10) 35 110 31) ≤ (4 : ℝ) := by
  have k : |(1 / 10 : ℝ)| = 1 / 10 := abs_of_pos (by norm_num)
  have s1 : √(9925 : ℝ) ≤ 100 := Real.sqrt_le_iff.2 (by norm_num)
  have s2 : √(35 : ℝ) ≤ 6 := Real.sqrt_le_iff.2 (by norm_num)
  have s3 : √(3 * 9925 ^ 2 + 9925 : ℝ) ≤ 17200 := Real.sqrt_le_iff.2 (by norm_num)
  have s4 : √(3 * 35 ^ 2 + 35 : ℝ) ≤ 61 := Real.sqrt_le_iff.2 (by norm_num)
  have s5 : √(8 * ((1 / 10) ^ 4 * (3 * 9925 ^ 2 + 9925) + 1) : ℝ) ≤ 490 := Real.sqrt_le_iff.2 (by norm_num)
  have s6 : √(8 * ((1 / 10) ^ 4 * (3 * 35 ^ 2 + 35) + 1) : ℝ) ≤ 4 := Real.sqrt_le_iff.2 (by norm_num)
  have c1 : Spec.clipNoise (1 / 10) 9925 9990 1020 ≤ 17 / 100 := by
    unfold Spec.clipNoise; rw [k]
    calc _ ≤ (1 / 10 * 17200 / (4 * 9990) + 490 / (4 * 1020) : ℝ) := by gcongr
      _ ≤ _ := by norm_num
  have c2 : Spec.clipNoise (1 / 10) 35 110 31 ≤ 5 / 100 := by
    unfold Spec.clipNoise; rw [k]
    calc _ ≤ (1 / 10 * 61 / (4 * 110) + 4 / (4 * 31) : ℝ) := by gcongr
      _ ≤ _ := by norm_num
  have p1 : 2 * Spec.clipNoise (1 / 10) 9925 9990 1020 * (|1 / 10| * √9925) ≤ 3.4 := by
    rw [k]
    calc _ ≤ 2 * (17 / 100) * (1 / 10 * 100 : ℝ) := by gcongr
      _ = 3.4 := by norm_num
  have p2 : 2 * Spec.clipNoise (1 / 10) 35 110 31 * (|1 / 10| * √35) ≤ 3.4 := by
    rw [k]
    calc _ ≤ 2 * (5 / 100) * (1 / 10 * 6 : ℝ) := by gcongr
      _ ≤ 3.4 := by norm_num
  have m := max_le p1 p2
  have b : |1 / 10| * (Spec.clipMean (1 / 10) 9925 9990 1020 + Spec.clipMean (1 / 10) 35 110 31) ≤ (1 / 10 : ℝ) := by
    unfold Spec.clipMean; rw [k]; norm_num
  linarith

end Emva
