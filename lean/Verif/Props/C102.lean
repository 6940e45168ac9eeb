import Verif.Spec.FromImages
import Verif.Lemmas.NearbyIndex
import Verif.Props.C99
import Verif.Props.C95Data

/-!
C102: from the images to the datasheet in floating point arithmetic.
-/
set_option autoImplicit false
namespace Emva
open Spec Data Results Fit

theorem abs_sum_le {ι : Type} (l : List ι) (f e : ι → ℝ) (h : ∀ s ∈ l, |f s| ≤ e s) : |(l.map f).sum| ≤ (l.map e).sum := by
  induction l with
  | nil => simp
  | cons s l ih =>
    simp only [List.map_cons, List.sum_cons]
    exact (abs_add_le _ _).trans (add_le_add (h s (List.mem_cons_self ..)) (ih fun x hx => h x (List.mem_cons_of_mem _ hx)))

theorem sum_sub {ι : Type} (l : List ι) (f g : ι → ℝ) : (l.map f).sum - (l.map g).sum = (l.map fun s => f s - g s).sum := by
  induction l with
  | nil => simp
  | cons s l ih => simp only [List.map_cons, List.sum_cons, ← ih]; ring

/-- the slope of points with errors, found by a solver with tolerance, agrees with the best slope of the exact points -/
theorem slope_perturbed {ι : Type} (l : List ι) (x y x' y' α β : ι → ℝ) (hx : ∀ s ∈ l, |x' s - x s| ≤ α s)
    (hy : ∀ s ∈ l, |y' s - y s| ≤ β s) (η : ℝ) (h0 : 0 ≤ η) (h1 : η < 1)
    (cxy : (l.map fun s => α s * |y s| + β s * |x s| + α s * β s).sum ≤ η * (l.map fun s => x s * y s).sum)
    (cxx : (l.map fun s => 2 * α s * |x s| + α s ^ 2).sum ≤ η * (l.map fun s => x s ^ 2).sum)
    (hne : ∃ s ∈ l, x s ≠ 0) (k : ℝ) (hk : BestSlope (l.map fun s => (x s, y s)) k) (hk0 : 0 < k)
    (τ δ ρ : ℝ) (hτ : 0 ≤ τ) (hρ : 0 ≤ ρ) (hρ1 : ρ ≤ 1)
    (htol : τ * (l.map fun s => (|y s| + β s) ^ 2).sum + δ ≤ ρ ^ 2 * (1 - η) ^ 5 * (k ^ 2 * (l.map fun s => x s ^ 2).sum)) :
    (∃ s ∈ l, x' s ≠ 0) ∧ ∀ k' k0, NearSlope τ δ (l.map fun s => (x' s, y' s)) k' k0 →
      Close ((1 - ρ) * (1 - η) ^ 2) k' k := by
  set L := l.map fun s => (x s, y s) with hL
  set L' := l.map fun s => (x' s, y' s) with hL'
  have eXX : Sxx L = (l.map fun s => x s ^ 2).sum := by
    unfold Sxx S; rw [hL, List.map_map]; congr 1; refine List.map_congr_left fun s _ => ?_; simp [sq]
  have eXX' : Sxx L' = (l.map fun s => x' s ^ 2).sum := by
    unfold Sxx S; rw [hL', List.map_map]; congr 1; refine List.map_congr_left fun s _ => ?_; simp [sq]
  have eXY : Sxy L = (l.map fun s => x s * y s).sum := by
    unfold Sxy S; rw [hL, List.map_map]; rfl
  have eXY' : Sxy L' = (l.map fun s => x' s * y' s).sum := by
    unfold Sxy S; rw [hL', List.map_map]; rfl
  have hneL : ∃ p ∈ L, p.1 ≠ 0 := by
    obtain ⟨s, hs, h⟩ := hne
    exact ⟨_, List.mem_map_of_mem hs, h⟩
  have hpos := Sxx_pos hneL
  have ek : k = Sxy L / Sxx L := bestSlope_eq hk hneL
  have hxy : 0 < Sxy L := by
    have : Sxy L = k * Sxx L := by rw [ek]; field_simp
    rw [this]; positivity
  have dxx : |Sxx L' - Sxx L| ≤ η * Sxx L := by
    rw [eXX, eXX', sum_sub]
    refine (abs_sum_le l _ _ fun s hs => ?_).trans cxx
    have a := hx s hs
    have ha : 0 ≤ α s := (abs_nonneg _).trans a
    rw [show x' s ^ 2 - x s ^ 2 = (x' s - x s) * (2 * x s) + (x' s - x s) ^ 2 by ring]
    refine (abs_add_le _ _).trans ?_
    rw [abs_mul, abs_mul, abs_two, abs_pow]
    have b1 : |x' s - x s| * (2 * |x s|) ≤ α s * (2 * |x s|) := mul_le_mul_of_nonneg_right a (by positivity)
    have b2 : |x' s - x s| ^ 2 ≤ α s ^ 2 := pow_le_pow_left₀ (abs_nonneg _) a 2
    linarith
  have dxy : |Sxy L' - Sxy L| ≤ η * Sxy L := by
    rw [eXY, eXY', sum_sub]
    refine (abs_sum_le l _ _ fun s hs => ?_).trans cxy
    have a := hx s hs
    have b := hy s hs
    have ha : 0 ≤ α s := (abs_nonneg _).trans a
    have hb : 0 ≤ β s := (abs_nonneg _).trans b
    rw [show x' s * y' s - x s * y s = (x' s - x s) * y s + (y' s - y s) * x s + (x' s - x s) * (y' s - y s) by ring]
    refine (abs_add_three _ _ _).trans ?_
    rw [abs_mul, abs_mul, abs_mul]
    have b1 := mul_le_mul_of_nonneg_right a (abs_nonneg (y s))
    have b2 := mul_le_mul_of_nonneg_right b (abs_nonneg (x s))
    have b3 := mul_le_mul a b (abs_nonneg _) ha
    linarith
  have c1 : Close (1 - η) (Sxx L') (Sxx L) := Close.of_abs hpos dxx h1.le
  have c2 : Close (1 - η) (Sxy L') (Sxy L) := Close.of_abs hxy dxy h1.le
  have hη : 0 < 1 - η := by linarith
  have hpos' : 0 < Sxx L' := Close.pos c1 hη hpos
  have hne' : ∃ s ∈ l, x' s ≠ 0 := by
    by_contra hc
    push Not at hc
    have : (l.map fun s => x' s ^ 2).sum = (l.map fun _ => (0 : ℝ)).sum := by
      congr 1
      refine List.map_congr_left fun s hs => ?_
      rw [hc s hs]; norm_num
    rw [eXX', this] at hpos'
    simp at hpos'
  refine ⟨hne', fun k' k0 hn => ?_⟩
  have hneL' : ∃ p ∈ L', p.1 ≠ 0 := by
    obtain ⟨s, hs, h⟩ := hne'
    exact ⟨_, List.mem_map_of_mem hs, h⟩
  have ek0 : k0 = Sxy L' / Sxx L' := bestSlope_eq hn.1 hneL'
  have c0 : Close ((1 - η) ^ 2) k0 k := by
    rw [ek, ek0, sq]
    exact Close.div c2 c1 hη.le hη hpos
  have hk00 := Close.pos c0 (by positivity) hk0
  have hS : sqErr L' k0 0 ≤ (l.map fun s => (|y s| + β s) ^ 2).sum := by
    have e0 : sqErr L' 0 0 = (l.map fun s => y' s ^ 2).sum := by
      unfold sqErr
      rw [hL', List.map_map]
      congr 1
      refine List.map_congr_left fun s _ => ?_
      simp
    refine (hn.1 0 hk00.ne).le.trans ?_
    rw [e0]
    refine List.sum_le_sum fun s hs => ?_
    rw [← sq_abs]
    refine pow_le_pow_left₀ (abs_nonneg _) ?_ 2
    have := abs_sub_abs_le_abs_sub (y' s) (y s)
    linarith [hy s hs]
  have hb : (k' - k0) ^ 2 ≤ (ρ * k0) ^ 2 := by
    have a1 := hn.2
    rw [weight_eq L'] at a1
    rw [← eXX] at htol
    have a2 : (k' - k0) ^ 2 * Sxx L' ≤ ρ ^ 2 * (1 - η) ^ 5 * (k ^ 2 * Sxx L) := by
      have := mul_le_mul_of_nonneg_left hS hτ
      linarith
    have a6 : (1 - η) ^ 2 * k ≤ k0 := c0.2.2.1
    have a7 : (1 - η) * Sxx L ≤ Sxx L' := c1.2.2.1
    have a8 : ((1 - η) ^ 2 * k) ^ 2 * ((1 - η) * Sxx L) ≤ k0 ^ 2 * Sxx L' :=
      mul_le_mul (pow_le_pow_left₀ (by positivity) a6 2) a7 (by positivity) (by positivity)
    have a9 : ρ ^ 2 * (1 - η) ^ 5 * (k ^ 2 * Sxx L) ≤ ρ ^ 2 * (k0 ^ 2 * Sxx L') := by
      have := mul_le_mul_of_nonneg_left a8 (show 0 ≤ ρ ^ 2 by positivity)
      refine le_trans (le_of_eq ?_) this
      ring
    have a10 : Sxx L' * (k' - k0) ^ 2 ≤ Sxx L' * (ρ * k0) ^ 2 := by
      have := a2.trans a9
      linarith [show Sxx L' * (ρ * k0) ^ 2 = ρ ^ 2 * (k0 ^ 2 * Sxx L') by ring]
    exact le_of_mul_le_mul_left a10 hpos'
  have c3 : Close (1 - ρ) k' k0 := Close.of_abs hk00 (abs_le_of_sq_le_sq hb (by positivity)) hρ1
  exact Close.trans c3 c0 (by linarith) (by positivity)

section
variable {u : ℝ} (R : Rounding u) (S : RSum R)

theorem rnd_diff {a b a' b' ea eb : ℝ} (ha : |a' - a| ≤ ea) (hb : |b' - b| ≤ eb) :
    |R.rnd (a' - b') - (a - b)| ≤ u * |a - b| + (1 + u) * (ea + eb) := by
  have h1 := R.err (a' - b')
  have h2 : |(a' - b') - (a - b)| ≤ ea + eb := by
    rw [show (a' - b') - (a - b) = (a' - a) - (b' - b) by ring]
    exact (abs_sub _ _).trans (add_le_add ha hb)
  have h3 : |a' - b'| ≤ |a - b| + (ea + eb) := by
    have := abs_sub_abs_le_abs_sub (a' - b') (a - b)
    linarith
  have h4 := mul_le_mul_of_nonneg_left h3 R.u_nonneg
  rw [show R.rnd (a' - b') - (a - b) = (R.rnd (a' - b') - (a' - b')) + ((a' - b') - (a - b)) by ring]
  refine (abs_add_le _ _).trans ?_
  linarith

/-- the images of the points have the size `h × w`, 0 ≤ pixel ≤ B, and are small enough for exact integer sums -/
structure Spec.ShotsOK (h w : ℕ) (B : ℤ) (l : List Shot) : Prop where
  bright : ∀ s ∈ l, PairOK h w B s.bright₁ s.bright₂
  dark : ∀ s ∈ l, PairOK h w B s.dark₁ s.dark₂
  size : (h : ℤ) * w ≤ 2 ^ 51
  range : (h : ℤ) * w * B ≤ 2 ^ 52

theorem imagesMean_nonneg {h w : ℕ} {B : ℤ} {a b : Img} (ok : PairOK h w B a b) : 0 ≤ imagesMean h w a b := by
  unfold imagesMean imgMean
  have h1 : 0 ≤ ∑ i ∈ Finset.range h, ∑ j ∈ Finset.range w, (a.px i j : ℝ) := Finset.sum_nonneg fun i hi => Finset.sum_nonneg fun j hj => by
    exact_mod_cast (ok.ra i (Finset.mem_range.1 hi) j (Finset.mem_range.1 hj)).1
  have h2 : 0 ≤ ∑ i ∈ Finset.range h, ∑ j ∈ Finset.range w, (b.px i j : ℝ) := Finset.sum_nonneg fun i hi => Finset.sum_nonneg fun j hj => by
    exact_mod_cast (ok.rb i (Finset.mem_range.1 hi) j (Finset.mem_range.1 hj)).1
  positivity

/-- the error of the mean and of the variance of one pair -/
theorem pair_error (hu1 : u ≤ 1 / 100) {h w : ℕ} {B : ℤ} {a b : Img} (ok : PairOK h w B a b) (hn : (h : ℤ) * w ≤ 2 ^ 51)
    (hB : (h : ℤ) * w * B ≤ 2 ^ 52) :
    |(Rounded.seriesPoint R (h * w) (Rounded.entry R S [a, b])).1 - imagesMean h w a b| ≤ u * imagesMean h w a b ∧
    |(Rounded.seriesPoint R (h * w) (Rounded.entry R S [a, b])).2 - imagesVar h w a b| ≤ pairErr u h w a b := by
  obtain ⟨h1, h2⟩ := C83_temporal R S hu1 h w B a b ok hn hB
  constructor
  · rw [h1]
    have := R.err (imagesMean h w a b)
    rwa [abs_of_nonneg (imagesMean_nonneg ok)] at this
  · unfold pairErr
    split
    · rename_i e
      subst e
      rw [C83_identical R S h w B a ok hn hB]
      simp [imagesVar, imgPopVar, imgMean]
    · exact h2

/-- the rounded differences of a shot -/
noncomputable def rsig (h w : ℕ) (s : Shot) : ℝ :=
  R.rnd ((Rounded.seriesPoint R (h * w) (Rounded.entry R S [s.bright₁, s.bright₂])).1 -
    (Rounded.seriesPoint R (h * w) (Rounded.entry R S [s.dark₁, s.dark₂])).1)
noncomputable def rvar (h w : ℕ) (s : Shot) : ℝ :=
  R.rnd ((Rounded.seriesPoint R (h * w) (Rounded.entry R S [s.bright₁, s.bright₂])).2 -
    (Rounded.seriesPoint R (h * w) (Rounded.entry R S [s.dark₁, s.dark₂])).2)

/-- C102: the errors of signal and noise of a point. -/
theorem C102_point (hu1 : u ≤ 1 / 100) {h w : ℕ} {B : ℤ} {l : List Shot} (ok : ShotsOK h w B l) {s : Shot} (hs : s ∈ l) :
    |rsig R S h w s - signalOf h w s| ≤ signalErr u h w s ∧ |rvar R S h w s - noiseOf h w s| ≤ noiseErr u h w s := by
  obtain ⟨b1, b2⟩ := pair_error R S hu1 (ok.bright s hs) ok.size ok.range
  obtain ⟨d1, d2⟩ := pair_error R S hu1 (ok.dark s hs) ok.size ok.range
  exact ⟨rnd_diff R b1 d1, rnd_diff R b2 d2⟩

end
end Emva
