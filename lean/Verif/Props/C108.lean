import Verif.Spec.DarkFit
import Verif.Props.C102Data
import Verif.Props.C101Data

/-!
C108: the results of a measurement with more than two exposure times, from the images on, in floating point arithmetic.
-/
set_option autoImplicit false
namespace Emva
open Spec Data Results Fit

/-- the best line solves the normal equations -/
theorem bestLine_sq {l : List (ℝ × ℝ)} (h : ∃ p ∈ l, ∃ p' ∈ l, p.1 ≠ p'.1) {m b : ℝ} (hb : BestLine l m b) (m' b' : ℝ) :
    sqErr l m' b' = sqErr l m b + S (fun p => ((m' - m) * p.1 + (b' - b)) ^ 2) l := by
  have hd := disc_pos h
  obtain ⟨p, hp, _⟩ := id h
  have hn : (l.length : ℝ) ≠ 0 := by exact_mod_cast (List.length_pos_of_ne_nil (List.ne_nil_of_mem hp)).ne'
  have hs : Fit.slope l * ((l.length : ℝ) * Sxx l - Sx l * Sx l) = (l.length : ℝ) * Sxy l - Sx l * Sy l := by
    unfold Fit.slope; exact div_mul_cancel₀ _ hd.ne'
  have h1 : Fit.slope l * Sxx l + (Sy l - Fit.slope l * Sx l) / l.length * Sx l = Sxy l := by
    have e : (l.length : ℝ) * ((Sy l - Fit.slope l * Sx l) / l.length) = Sy l - Fit.slope l * Sx l := by field_simp
    have : (l.length : ℝ) * (Fit.slope l * Sxx l + (Sy l - Fit.slope l * Sx l) / l.length * Sx l - Sxy l) = 0 := by
      linear_combination hs + Sx l * e
    exact sub_eq_zero.1 ((mul_eq_zero.1 this).resolve_left hn)
  have h2 : Fit.slope l * Sx l + (Sy l - Fit.slope l * Sx l) / l.length * l.length = Sy l := by field_simp; ring
  obtain ⟨rfl, rfl⟩ : m = Fit.slope l ∧ b = (Sy l - Fit.slope l * Sx l) / l.length := by
    have := bestLine_unique (bestLine_of h) (m' := m) (b' := b) fun k c => ?_
    · exact this
    · by_cases e : (k, c) = (m, b)
      · obtain ⟨rfl, rfl⟩ := Prod.mk.inj e; exact le_rfl
      · exact (hb k c e).le
  exact sqErr_normal h1 h2 m' b'

section
variable {ι : Type}

theorem sum_le_sum' (l : List ι) {f g : ι → ℝ} (h : ∀ s ∈ l, f s ≤ g s) : (l.map f).sum ≤ (l.map g).sum := by
  induction l with
  | nil => simp
  | cons a l ih =>
    rw [List.map_cons, List.map_cons, List.sum_cons, List.sum_cons]
    exact add_le_add (h a (by simp)) (ih fun s hs => h s (List.mem_cons_of_mem _ hs))

theorem sum_lin (l : List ι) (f g : ι → ℝ) (a b : ℝ) : (l.map fun s => a * f s + b * g s).sum = a * (l.map f).sum + b * (l.map g).sum := by
  induction l with
  | nil => simp
  | cons x l ih => simp only [List.map_cons, List.sum_cons, ih]; ring

/-- a line found by a solver with tolerance for points with errors, against the best line through the points without errors -/
theorem line_perturbed (l : List ι) (x f g e : ι → ℝ) (hg : ∀ s ∈ l, |g s - f s| ≤ e s) (hx : ∃ s ∈ l, ∃ s' ∈ l, x s ≠ x s')
    {m0 b0 m b m1 b1 τ δ : ℝ} (h0 : BestLine (l.map fun s => (x s, f s)) m0 b0) (hτ : 0 ≤ τ)
    (hn : NearLine τ δ (l.map fun s => (x s, g s)) m b m1 b1) :
    S (fun p => ((m - m0) * p.1 + (b - b0)) ^ 2) (l.map fun s => (x s, f s)) ≤
      lineErr τ δ (l.map fun s => e s ^ 2).sum (l.map fun s => (x s, f s)) m0 b0 := by
  have dis : ∀ y : ι → ℝ, ∃ p ∈ l.map (fun s => (x s, y s)), ∃ p' ∈ l.map (fun s => (x s, y s)), p.1 ≠ p'.1 := fun y => by
    obtain ⟨s, hs, s', hs', hne⟩ := hx
    exact ⟨_, List.mem_map_of_mem hs, _, List.mem_map_of_mem hs', hne⟩
  -- sums over the points
  have eS : ∀ (y : ι → ℝ) (a c : ℝ), S (fun p => (a * p.1 + c) ^ 2) (l.map fun s => (x s, y s)) = (l.map fun s => (a * x s + c) ^ 2).sum :=
    fun y a c => by unfold S; rw [List.map_map]; rfl
  have eQ : ∀ (y : ι → ℝ) (a c : ℝ), sqErr (l.map fun s => (x s, y s)) a c = (l.map fun s => (y s - (a * x s + c)) ^ 2).sum :=
    fun y a c => by unfold sqErr; rw [List.map_map]; rfl
  have q1 := bestLine_sq (dis f) h0 m1 b1
  have q2 := bestLine_sq (dis g) hn.1 m0 b0
  have q3 := hn.2.1
  rw [List.map_map] at q3
  unfold lineErr
  rw [eS] at q1 q2 ⊢
  rw [eQ] at q1 q2 q3 ⊢
  rw [eQ] at q1 q2
  replace q3 : (l.map fun s => ((m * x s + b) - (m1 * x s + b1)) ^ 2).sum ≤ τ * (l.map fun s => (g s - (m1 * x s + b1)) ^ 2).sum + δ := q3
  have E1 : (l.map fun s => (g s - f s) ^ 2).sum ≤ (l.map fun s => e s ^ 2).sum := sum_le_sum' l fun s hs => by
    rw [← sq_abs]; exact pow_le_pow_left₀ (abs_nonneg _) (hg s hs) 2
  -- the best lines are not farther from each other than the points
  have D1 : (l.map fun s => ((m1 - m0) * x s + (b1 - b0)) ^ 2).sum ≤ (l.map fun s => (g s - f s) ^ 2).sum := by
    have a1 : (l.map fun s => (g s - (m0 * x s + b0)) ^ 2).sum - (l.map fun s => (g s - (m1 * x s + b1)) ^ 2).sum
        + ((l.map fun s => (f s - (m1 * x s + b1)) ^ 2).sum - (l.map fun s => (f s - (m0 * x s + b0)) ^ 2).sum)
        = (l.map fun s => 2 * ((g s - f s) * ((m1 - m0) * x s + (b1 - b0)))).sum := by
      clear * -
      induction l with
      | nil => simp
      | cons p l ih => simp only [List.map_cons, List.sum_cons] at ih ⊢; linear_combination ih
    have a2 : (l.map fun s => 2 * ((g s - f s) * ((m1 - m0) * x s + (b1 - b0)))).sum ≤
        (l.map fun s => 1 * (g s - f s) ^ 2 + 1 * ((m1 - m0) * x s + (b1 - b0)) ^ 2).sum := sum_le_sum' l fun s _ => by
      nlinarith [sq_nonneg ((g s - f s) - ((m1 - m0) * x s + (b1 - b0)))]
    rw [sum_lin l (fun s => (g s - f s) ^ 2) (fun s => ((m1 - m0) * x s + (b1 - b0)) ^ 2)] at a2
    have a3 : (l.map fun s => ((m0 - m1) * x s + (b0 - b1)) ^ 2) = l.map fun s => ((m1 - m0) * x s + (b1 - b0)) ^ 2 :=
      List.map_congr_left fun s _ => by ring
    rw [a3] at q2
    linarith
  -- the least error of the points with errors
  have Q : (l.map fun s => (g s - (m1 * x s + b1)) ^ 2).sum ≤
      2 * (l.map fun s => (f s - (m0 * x s + b0)) ^ 2).sum + 2 * (l.map fun s => (g s - f s) ^ 2).sum := by
    have a1 : (l.map fun s => (g s - (m0 * x s + b0)) ^ 2).sum ≤
        (l.map fun s => 2 * (f s - (m0 * x s + b0)) ^ 2 + 2 * (g s - f s) ^ 2).sum := sum_le_sum' l fun s _ => by
      nlinarith [sq_nonneg ((f s - (m0 * x s + b0)) - (g s - f s))]
    rw [sum_lin l (fun s => (f s - (m0 * x s + b0)) ^ 2) (fun s => (g s - f s) ^ 2)] at a1
    have a2 : 0 ≤ (l.map fun s => ((m0 - m1) * x s + (b0 - b1)) ^ 2).sum := List.sum_nonneg fun z hz => by
      obtain ⟨s, -, rfl⟩ := List.mem_map.1 hz; positivity
    linarith
  -- together
  have T : (l.map fun s => ((m - m0) * x s + (b - b0)) ^ 2).sum ≤
      2 * (l.map fun s => ((m * x s + b) - (m1 * x s + b1)) ^ 2).sum + 2 * (l.map fun s => ((m1 - m0) * x s + (b1 - b0)) ^ 2).sum := by
    rw [← sum_lin l (fun s => ((m * x s + b) - (m1 * x s + b1)) ^ 2) (fun s => ((m1 - m0) * x s + (b1 - b0)) ^ 2)]
    exact sum_le_sum' l fun s _ => by nlinarith [sq_nonneg (((m * x s + b) - (m1 * x s + b1)) - ((m1 - m0) * x s + (b1 - b0)))]
  have := mul_le_mul_of_nonneg_left (Q.trans (add_le_add le_rfl (mul_le_mul_of_nonneg_left E1 zero_le_two))) hτ
  nlinarith

end

theorem spread_le (l : List (ℝ × ℝ)) (hl : l ≠ []) (a c : ℝ) : a ^ 2 * spread l ≤ S (fun p => (a * p.1 + c) ^ 2) l := by
  have hn : (0 : ℝ) < l.length := by exact_mod_cast List.length_pos_of_ne_nil hl
  rw [spread_eq, S_line, S_line]
  have : a ^ 2 * Sxx l + 2 * a * c * Sx l + c ^ 2 * l.length - a ^ 2 * (1 ^ 2 * Sxx l + 2 * 1 * -(Sx l / l.length) * Sx l
      + (-(Sx l / l.length)) ^ 2 * l.length) = l.length * (c + a * (Sx l / l.length)) ^ 2 := by
    field_simp; ring
  have h2 : 0 ≤ (l.length : ℝ) * (c + a * (Sx l / l.length)) ^ 2 := by positivity
  linarith

theorem lever_le (l : List (ℝ × ℝ)) (hx : ∃ p ∈ l, p.1 ≠ 0) (a c : ℝ) : c ^ 2 * lever l ≤ S (fun p => (a * p.1 + c) ^ 2) l := by
  have hp := Sxx_pos hx
  rw [lever_eq l hx, S_line]
  have : a ^ 2 * Sxx l + 2 * a * c * Sx l + c ^ 2 * l.length - c ^ 2 * (l.length - Sx l * Sx l / Sxx l) =
      Sxx l * (a + c * (Sx l / Sxx l)) ^ 2 := by
    field_simp; ring
  have h2 : 0 ≤ Sxx l * (a + c * (Sx l / Sxx l)) ^ 2 := by positivity
  linarith

/-- a number whose square is near -/
theorem close_of_sq {a b η w D : ℝ} (hw : 0 < w) (h : (a - b) ^ 2 * w ≤ D) (hD : D ≤ (η * b) ^ 2 * w) (hη : 0 ≤ η) (hη1 : η ≤ 1) :
    SignedClose (1 - η) a b := by
  have h1 := le_of_mul_le_mul_right (h.trans hD) hw
  refine SignedClose.of_abs ?_ hη1
  have := abs_le_of_sq_le_sq (a := a - b) (b := |η * b|) (by rwa [sq_abs]) (abs_nonneg _)
  rwa [abs_mul, abs_of_nonneg hη] at this

section
variable {u : ℝ} (R : Rounding u) (S : RSum R)

/-- the fits against the exposure time in floating point and exactly -/
theorem dark_fit (q' q : LSQ ℝ) (hq : q.Good) (τ δ η : ℝ) (hq' : q'.Near τ δ) (hτ : 0 ≤ τ) (hη : 0 ≤ η) (hη1 : η ≤ 1) (l : List Shot)
    (many : 2 < (l.map Shot.texp).toFinset.card) (f g e : Shot → ℝ) (hg : ∀ s ∈ l, |g s - f s| ≤ e s) (m1 b1 : ℝ)
    (hM : BestLine (l.map fun s => (s.texp, f s)) m1 b1) :
    ∃ m' b', linearB q' ((l.map Shot.texp).map .fin) ((l.map g).map .fin) = .ok (.fin m', .fin b') ∧
      linearB q ((l.map Shot.texp).map .fin) ((l.map f).map .fin) = .ok (.fin m1, .fin b1) ∧
      (lineErr τ δ (l.map fun s => e s ^ 2).sum (l.map fun s => (s.texp, f s)) m1 b1 ≤ (η * m1) ^ 2 * spread (l.map fun s => (s.texp, f s)) →
        SignedClose (1 - η) m' m1) ∧
      (lineErr τ δ (l.map fun s => e s ^ 2).sum (l.map fun s => (s.texp, f s)) m1 b1 ≤ (η * b1) ^ 2 * lever (l.map fun s => (s.texp, f s)) →
        SignedClose (1 - η) b' b1) := by
  have hdis := two_distinct many
  have zipm : ∀ y : Shot → ℝ, (l.map Shot.texp).zip (l.map y) = l.map fun s => (s.texp, y s) := fun y => by
    rw [List.zip_map']
  obtain ⟨m2, b2, e2, h2⟩ := linearB_fin hq (l.map Shot.texp) (l.map f) (by simp) hdis
  obtain ⟨m3, b3, m4, b4, e3, h3⟩ := C94_line q' τ δ hq' (l.map Shot.texp) (l.map g) (by simp) hdis
  rw [zipm] at h2 h3
  obtain ⟨rfl, rfl⟩ : m2 = m1 ∧ b2 = b1 := bestLine_unique hM fun k c => by
    by_cases hc : (k, c) = (m2, b2)
    · obtain ⟨rfl, rfl⟩ := Prod.mk.inj hc; exact le_rfl
    · exact (h2 k c hc).le
  have hx : ∃ s ∈ l, ∃ s' ∈ l, s.texp ≠ s'.texp := by
    obtain ⟨x, hx, x', hx', hne⟩ := hdis
    obtain ⟨s, hs, rfl⟩ := List.mem_map.1 hx
    obtain ⟨s', hs', rfl⟩ := List.mem_map.1 hx'
    exact ⟨s, hs, s', hs', hne⟩
  have D := line_perturbed l Shot.texp f g e hg hx h2 hτ h3
  obtain ⟨s, hs, s', hs', hne⟩ := hx
  have dis : ∃ p ∈ l.map (fun s => (s.texp, f s)), ∃ p' ∈ l.map (fun s => (s.texp, f s)), p.1 ≠ p'.1 :=
    ⟨_, List.mem_map_of_mem hs, _, List.mem_map_of_mem hs', hne⟩
  have hl : (l.map fun s => (s.texp, f s)) ≠ [] := List.ne_nil_of_mem (List.mem_map_of_mem hs)
  have hx0 : ∃ p ∈ l.map (fun s => (s.texp, f s)), p.1 ≠ 0 := by
    obtain ⟨p, hp, p', hp', hne⟩ := dis
    by_cases h : p.1 = 0
    · exact ⟨p', hp', fun h' => hne (h.trans h'.symm)⟩
    · exact ⟨p, hp, h⟩
  have hlen : (0 : ℝ) < (l.map fun s => (s.texp, f s)).length := by exact_mod_cast List.length_pos_of_ne_nil hl
  refine ⟨m3, b3, e3, e2, fun h => close_of_sq ?_ ((spread_le _ hl _ _).trans D) h hη hη1,
    fun h => close_of_sq ?_ ((lever_le _ hx0 _ _).trans D) h hη hη1⟩
  · have := disc_pos dis
    rw [disc_eq _ hl, ← spread_eq] at this
    exact pos_of_mul_pos_right this hlen.le
  · have := disc_pos dis
    rw [lever_eq _ hx0, sub_pos, div_lt_iff₀ (Sxx_pos hx0)]
    linarith

/-- C108: the results of a measurement with more than two exposure times, computed in floating point from its images by a solver of
given tolerance, against the exact results of the same images. The dark noise is now the offset `c1` of the best line through the
variances of the dark images against the exposure time. If rounding and tolerance are small against the slopes of this line and of
the line through the dark values, the four dark currents are accurate, too, and those from the variance are `np.nan` exactly if the
slope is negative. -/
theorem C108_measurement (hu1 : u ≤ 1 / 100) (q' q : LSQ ℝ) (hq : q.Good) (τ δ ρ η : ℝ) (hq' : q'.Near τ δ) (hτ : 0 ≤ τ)
    (hρ : 0 ≤ ρ) (hρ1 : ρ < 1) (hη : 0 ≤ η) (hη1 : η < 1) (hacc : 3 / 4 ≤ (1 - ρ) ^ 2 * (1 - η) ^ 4 * (1 - u) ^ 5)
    {h w : ℕ} {B : ℤ} {l : List Shot} (ok : ShotsOK h w B l) (r r' : Res ℝ)
    (ht : r.temporal = exactTemporal h w l) (ht' : r'.temporal = Rounded.temporal R S h w l)
    (hgiven : r'.index_u_ysat = r.index_u_ysat) (many : 2 < (l.map Shot.texp).toFinset.card)
    (sat : SafeSaturation u h w l r.index_u_ysat) (i : ℤ) (hi : val indexUysat r = .ok i) (s₀ : Shot) (hs₀ : AtIndex l i s₀)
    (range : SafeRange u h w l s₀) (j : ℕ) (hj : val indexSensitivityMax r = .ok j)
    (hx : ∃ s ∈ l.take (j + 1), signalOf h w s ≠ 0) (hp : ∃ s ∈ l.take (j + 1), s.photons ≠ 0) (hp0 : 0 < s₀.photons)
    (small : SlopeErrors u η h w (l.take (j + 1))) (k m : ℝ) (hk : val (K q) r = .ok (.fin k)) (hk0 : 0 < k)
    (hm : val (Results.R q) r = .ok (.fin m)) (hm0 : 0 < m) (tol : SmallTolerance u η τ δ ρ k m h w (l.take (j + 1)))
    (v1 c1 : ℝ) (hV : BestLine (darkVars h w l) v1 c1)
    (tolC : lineErr τ δ (darkVarsErr u h w l) (darkVars h w l) v1 c1 ≤ (η * c1) ^ 2 * lever (darkVars h w l))
    (e : ℝ) (he : 1 ≤ ((1 - ρ) ^ 7 * (1 - η) ^ 14 * (1 - u) ^ 18) * (1 + e)) :
    (RelError e (val (Rounded.gain R q') r') (val (K q) r) ∧
    RelError e (val (Rounded.resp R q') r') (val (Results.R q) r) ∧
    RelError e (val (Rounded.inverseK R q') r') (val (inverseK q) r) ∧
    RelError e (val (Rounded.QE R q') r') (val (QE q) r) ∧
    RelError e (val (Rounded.sigmaYDark R q') r') (val (sigmaYDark q) r) ∧
    RelError e (val (Rounded.sigmaD R q') r') (val (sigmaD q) r) ∧
    RelError e (val (Rounded.uPMin R q') r') (val (uPMin q) r) ∧
    RelError e (val (Rounded.uEMin R q') r') (val (uEMin q) r) ∧
    RelError e (val (Rounded.uESat R q') r') (val (uESat q) r) ∧
    RelError e (val (Rounded.SNRMax R q') r') (val (SNRMax q) r) ∧
    RelError e (val (Rounded.inverseSNRMax R q') r') (val (inverseSNRMax q) r) ∧
    RelError e (val (Rounded.DR R q') r') (val (DR q) r)) ∧
    ∀ m1 b1, BestLine (darkMeans h w l) m1 b1 →
      lineErr τ δ (darkMeansErr u h w l) (darkMeans h w l) m1 b1 ≤ (η * m1) ^ 2 * spread (darkMeans h w l) →
      lineErr τ δ (darkVarsErr u h w l) (darkVars h w l) v1 c1 ≤ (η * v1) ^ 2 * spread (darkVars h w l) →
      RelErrorNum e (val (Rounded.uIMeanDN R q') r') (val (uIMeanDN q) r) ∧
      RelErrorNum e (val (Rounded.uIMean R q') r') (val (uIMean q) r) ∧
      RelErrorNum e (val (Rounded.uIVarDN R q') r') (val (uIVarDN q) r) ∧
      RelErrorNum e (val (Rounded.uIVar R q') r') (val (uIVar q) r) ∧
      (val (Rounded.uIVarDN R q') r' = .ok .npnan ↔ v1 < 0) := by
  obtain ⟨e1, e2, e3, e4⟩ := exactTemporal_lists ok
  have gv : ∀ s ∈ l, |(Rounded.seriesPoint R (h * w) (Rounded.entry R S [s.dark₁, s.dark₂])).2 - imagesVar h w s.dark₁ s.dark₂| ≤
      pairErr u h w s.dark₁ s.dark₂ := fun s hs => (pair_error R S hu1 (ok.dark s hs) ok.size ok.range).2
  have gm : ∀ s ∈ l, |(Rounded.seriesPoint R (h * w) (Rounded.entry R S [s.dark₁, s.dark₂])).1 - imagesMean h w s.dark₁ s.dark₂| ≤
      u * imagesMean h w s.dark₁ s.dark₂ := fun s hs => (pair_error R S hu1 (ok.dark s hs) ok.size ok.range).1
  obtain ⟨v', c', eV', eV, sV, sC⟩ := dark_fit q' q hq τ δ η hq' hτ hη hη1.le l many _ _ _ gv v1 c1 hV
  have tx : r.temporal.texp = l.map Shot.texp := by rw [ht]; rfl
  have tx' : r'.temporal.texp = l.map Shot.texp := by rw [ht']; rfl
  have dv' : r'.temporal.s2_ydark = (l.map fun s => (Rounded.seriesPoint R (h * w) (Rounded.entry R S [s.dark₁, s.dark₂])).2).map .fin := by
    rw [ht', List.map_map]; rfl
  have dm' : r'.temporal.u_ydark = (l.map fun s => (Rounded.seriesPoint R (h * w) (Rounded.entry R S [s.dark₁, s.dark₂])).1).map .fin := by
    rw [ht', List.map_map]; rfl
  rw [← tx', ← dv'] at eV'
  rw [← tx, ← e4, ← ht] at eV
  have many1 : 2 < r.temporal.texp.toFinset.card := by rw [tx]; exact many
  have many2 : 2 < r'.temporal.texp.toFinset.card := by rw [tx']; exact many
  have hraw : ∀ (r : Res ℝ) (q : LSQ ℝ) (v c : ℝ), 2 < r.temporal.texp.toFinset.card →
      linearB q (r.temporal.texp.map .fin) r.temporal.s2_ydark = .ok (.fin v, .fin c) →
      val (rawDark q) r = .ok (.fin c) := fun r q v c many h => by
    unfold rawDark
    rw [val_bind_ok stable_few (by stab) (val_many many), val_bind_ok stable_temporal (by stab) rfl]
    simp only [Bool.false_eq_true, if_false]
    rw [h, val_bind_ok (Stable.lift _) (by stab) rfl, val_pure]
  obtain ⟨main, k', ek', ck⟩ := results_from_images R S hu1 q' q hq τ δ ρ η hq' hτ hρ hρ1 hη hη1 hacc ok r r' ht ht' hgiven sat i hi s₀ hs₀ range j
    hj hx hp hp0 small k m hk hk0 hm hm0 tol c' c1 (hraw r' q' _ _ many2 eV') (hraw r q _ _ many1 eV) (sC tolC).max_zero e he
  refine ⟨main, fun m1 b1 hM tolM tolV => ?_⟩
  obtain ⟨m', b', eM', eM, sM, -⟩ := dark_fit q' q hq τ δ η hq' hτ hη hη1.le l many _ _ _ gm m1 b1 hM
  rw [← tx', ← dm'] at eM'
  rw [← tx, ← e2, ← ht] at eM
  have hs : 0 < 1 - u := by linarith
  have hs1 : 1 - u ≤ 1 := by have := R.u_nonneg; linarith
  have hc : 0 < 1 - ρ := by linarith
  have hc1 : 1 - ρ ≤ 1 := by linarith
  have hd : 0 < 1 - η := by linarith
  have hd1 : 1 - η ≤ 1 := by linarith
  replace sM := sM tolM
  replace sV := sV tolV
  generalize hsd' : 1 - u = z at *
  generalize 1 - ρ = c at *
  generalize 1 - η = d at *
  have ht0 : 0 < c * d ^ 2 := by positivity
  have ht1 : c * d ^ 2 ≤ 1 := mul_le_one₀ hc1 (by positivity) (pow_le_one₀ hd.le hd1)
  have hdt : c * d ^ 2 ≤ d := by
    have h1 : c * d ≤ 1 := mul_le_one₀ hc1 hd.le hd1
    have := mul_le_mul_of_nonneg_right h1 hd.le
    linarith [show c * d ^ 2 = c * d * d by ring]
  have cur := C101_currents R (by linarith) q' q r' r (c * d ^ 2) ht0 many2 many1 k' k _ _ _ _ _ _ _ _ ek' hk hk0 ck eM' eM (sM.mono hdt)
    eV' eV (sV.mono hdt)
  rw [hsd'] at cur
  have finN : ∀ {a b : ℕ} {x y : Except PyErr (PyNum ℝ)}, AgreeNum ((c * d ^ 2) ^ a * z ^ b) x y → a ≤ 7 → b ≤ 18 →
      RelErrorNum e x y := by
    intro a b x y h h7 h18
    refine h.relError (by positivity) ?_
    have e1 : (c * d ^ 2) ^ 7 * z ^ 18 ≤ (c * d ^ 2) ^ a * z ^ b :=
      mul_le_mul (pow_le_pow_of_le_one ht0.le ht1 h7) (pow_le_pow_of_le_one hs.le hs1 h18) (by positivity) (by positivity)
    have e0 : c ^ 7 * d ^ 14 * z ^ 18 = (c * d ^ 2) ^ 7 * z ^ 18 := by ring
    have e2 : 0 ≤ 1 + e := by
      by_contra hneg
      have : c ^ 7 * d ^ 14 * z ^ 18 * (1 + e) < 0 := mul_neg_of_pos_of_neg (by positivity) (not_le.1 hneg)
      linarith
    rw [e0] at he
    exact he.trans (mul_le_mul_of_nonneg_right e1 e2)
  obtain ⟨d1, d2, d3, d4, -, d6, -⟩ := cur
  exact ⟨finN (a := 1) (b := 1) (by simpa using d1) (by norm_num) (by norm_num), finN d2 (by norm_num) (by norm_num),
    finN d3 (by norm_num) (by norm_num), finN d4 (by norm_num) (by norm_num), d6⟩

end
end Emva
