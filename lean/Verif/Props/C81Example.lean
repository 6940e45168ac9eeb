import Verif.Props.C81
import Mathlib.MeasureTheory.Integral.Pi
import Mathlib.Probability.Independence.Basic

/-!
A case for C81: a ramp of grey values `10 j`, to every pixel of every image 0 or 2 is added by tossing a coin.
-/
set_option autoImplicit false
namespace Emva
open Spec Data Finset MeasureTheory ProbabilityTheory

/-- a fair coin -/
noncomputable def coin : Measure Bool := (1 / 2 : ENNReal) • Measure.dirac false + (1 / 2 : ENNReal) • Measure.dirac true

instance : IsProbabilityMeasure coin := ⟨by simp [coin, ENNReal.inv_two_add_inv_two]⟩

theorem coin_integral (f : Bool → ℝ) : ∫ b, f b ∂coin = (f false + f true) / 2 := by
  rw [coin, integral_add_measure (Integrable.of_finite.smul_measure (by simp)) (Integrable.of_finite.smul_measure (by simp)),
    integral_smul_measure, integral_smul_measure, integral_dirac, integral_dirac]
  simp
  ring

/-- one coin for every pixel of every image -/
abbrev Coins (L M N : ℕ) := Fin L × Fin M × Fin N → Bool

/-- all coins are tossed independently -/
noncomputable def tosses (L M N : ℕ) : Measure (Coins L M N) := Measure.pi fun _ => coin

instance (L M N : ℕ) : IsProbabilityMeasure (tosses L M N) := by unfold tosses; infer_instance

/-- the images -/
def coinImage (L M N : ℕ) (l : ℕ) (ω : Coins L M N) : Img :=
  ⟨M, N, fun i j => 10 * j + if h : l < L ∧ i < M ∧ j < N then
    (if ω (⟨l, h.1⟩, ⟨i, h.2.1⟩, ⟨j, h.2.2⟩) then 2 else 0) else 0⟩

/-- the grey value of a pixel for the side of its coin -/
def coinValue (j : ℕ) (b : Bool) : ℝ := 10 * j + if b then 2 else 0

theorem coinPixel {L M N l i j : ℕ} (hl : l < L) (hi : i < M) (hj : j < N) :
    pixel (coinImage L M N) l i j = fun ω => coinValue j (ω (⟨l, hl⟩, ⟨i, hi⟩, ⟨j, hj⟩)) := by
  funext ω
  simp only [pixel, coinImage, coinValue, hl, hi, hj, and_self, dite_true]
  split_ifs <;> push_cast <;> rfl

theorem coin_noisy (L M N : ℕ) : Noisy (tosses L M N) L M N (10 * N + 2) (coinImage L M N)
    (fun _ _ j => 10 * j + 1) (fun _ _ => 1) := by
  have mv : ∀ j, Measurable (coinValue j) := fun j => measurable_from_top
  have mp : ∀ k : Fin L × Fin M × Fin N, MeasurePreserving (fun ω : Coins L M N => ω k) (tosses L M N) coin := fun k =>
    measurePreserving_eval (fun _ => coin) k
  have mem : ∀ (k : Fin L × Fin M × Fin N) j, MemLp (fun ω : Coins L M N => coinValue j (ω k)) 2 (tosses L M N) := fun k j =>
    (MemLp.of_discrete (μ := coin) (f := coinValue j)).comp_measurePreserving (mp k)
  refine ⟨fun l hl ω => ⟨rfl, rfl⟩, ?_, ?_, ?_, ?_, ?_⟩
  · intro l hl ω i hi j hj
    simp only [coinImage, hl, hi, hj, and_self, dite_true]
    split_ifs <;> constructor <;> push_cast <;> omega
  · intro l hl i hi j hj
    simp only [coinImage, hl, hi, hj, and_self, dite_true]
    exact (measurable_from_top (f := fun b : Bool => (10 * (j : ℤ) + if b then 2 else 0))).comp (measurable_pi_apply _)
  · intro l hl i hi j hj
    rw [coinPixel hl hi hj, tosses, integral_comp_eval (μ := fun _ => coin) (mv j).aestronglyMeasurable, coin_integral]
    simp [coinValue]
    ring
  · intro l hl i hi j hj
    rw [coinPixel hl hi hj, (mp _).variance_fun_comp (mv j).aemeasurable, variance_eq_integral (mv j).aemeasurable,
      coin_integral, coin_integral]
    simp [coinValue]
    ring
  · intro l hl i hi j hj l' hl' i' hi' j' hj' hne
    rw [coinPixel hl hi hj, coinPixel hl' hi' hj']
    have ind := iIndepFun_pi (μ := fun _ : Fin L × Fin M × Fin N => coin) (X := fun k => coinValue k.2.2)
      fun k => (mv _).aemeasurable
    have := ind.indepFun (i := (⟨l, hl⟩, ⟨i, hi⟩, ⟨j, hj⟩)) (j := (⟨l', hl'⟩, ⟨i', hi'⟩, ⟨j', hj'⟩)) (by
      intro e
      apply hne
      simpa using e)
    exact this.covariance_eq_zero (mem _ _) (mem _ _)

/-- Pairs of 1 x 3 images: the expected mean is 11, the expected temporal variance 2/3 (the noise has the variance 1). -/
example : ∃ y s : Coins 2 1 3 → ℝ, (∀ ω, seriesPoint 3 (temporalEntry ℝ i64 (stack (coinImage 2 1 3) 2 ω))
      = (.fin (y ω), .fin (s ω))) ∧ ∫ ω, y ω ∂tosses 2 1 3 = 11 ∧ ∫ ω, s ω ∂tosses 2 1 3 = 2 / 3 := by
  obtain ⟨y, s, h1, -, -, h2, h3⟩ := C81_temporal (M := 1) (N := 3) (B := 10 * (3 : ℕ) + 2) (v := fun _ _ => 1) (m := fun _ j => 10 * j + 1) (by norm_num) (by norm_num) (fun _ => 0)
    (by simpa using coin_noisy 2 1 3)
  refine ⟨y, s, h1, ?_, ?_⟩
  · rw [h2]; norm_num [imgMean, sum_range_succ]
  · rw [h3]; norm_num [imgMean, sum_range_succ]

/-- Four images: the expected stack variance is that of the noise, 1, and the measured spatial variance is expected to be
100 + 1/4, from which the results subtract a quarter of the stack variance; the ramp has the variance 100. -/
example : ∃ (s : Coins 4 1 3 → SpatialData ℝ) (w V : Coins 4 1 3 → ℝ),
    (∀ ω, getSpatialData 1 3 (getIntImgs ℝ i64 (stack (coinImage 4 1 3) 4 ω)) = .ok (s ω) ∧
      (s ω).var_mean = .fin (w ω) ∧ (s ω).avg_var = .fin (V ω)) ∧
    ∫ ω, w ω ∂tosses 4 1 3 = 1 ∧ ∫ ω, V ω ∂tosses 4 1 3 = 100 + 1 / 4 := by
  obtain ⟨s, a, w, V, c, ρ, h1, -, -, -, -, -, -, h2, h3, -⟩ := C81_spatial (by norm_num) (by norm_num) (by norm_num)
    (coin_noisy 4 1 3)
  refine ⟨s, w, V, fun ω => ⟨(h1 ω).1, (h1 ω).2.2.1, (h1 ω).2.2.2.1⟩, ?_, ?_⟩
  · rw [h2]; norm_num [imgMean, sum_range_succ]
  · rw [h3]; norm_num [imgMean, imgSampleVar, sum_range_succ]

end Emva
