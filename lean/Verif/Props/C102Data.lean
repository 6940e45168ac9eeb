import Verif.Props.C102
import Verif.Props.C17_C18

/-!
C102: the indices, the gain and the responsivity, and the results of a measurement, from its images.
-/
set_option autoImplicit false
namespace Emva
open Spec Data Results Fit

theorem apart_le {x y x' y' ex ey : ℝ} (h : Apart x ex y ey) (hx : |x' - x| ≤ ex) (hy : |y' - y| ≤ ey) : x ≤ y ↔ x' ≤ y' := by
  rcases h with h | ⟨rfl, rfl⟩
  · obtain ⟨a1, a2⟩ := abs_le.1 hx
    obtain ⟨b1, b2⟩ := abs_le.1 hy
    rcases le_or_gt x y with c | c
    · rw [abs_of_nonpos (by linarith)] at h
      exact ⟨fun _ => by linarith, fun _ => c⟩
    · rw [abs_of_pos (by linarith)] at h
      exact ⟨fun hc => by linarith, fun hc => by linarith⟩
  · have e1 : x' = x := by have := abs_nonpos_iff.1 hx; linarith
    have e2 : y' = y := by have := abs_nonpos_iff.1 hy; linarith
    rw [e1, e2]

theorem apart_symm {x y ex ey : ℝ} (h : Apart x ex y ey) : Apart y ey x ex := by
  rcases h with h | ⟨h1, h2⟩
  · left; rw [abs_sub_comm]; linarith
  · exact .inr ⟨h2, h1⟩

/-- the saturation index of two evaluations whose variances are in the same order -/
theorem usat_same (l : List Shot) (f g e : Shot → ℝ) (hg : ∀ s ∈ l, |g s - f s| ≤ e s) (r r' : Res ℝ)
    (h1 : r.temporal.s2_y = (l.map f).map .fin) (h2 : r'.temporal.s2_y = (l.map g).map .fin) (hi : r'.index_u_ysat = r.index_u_ysat)
    (safe : (∃ i, r.index_u_ysat = some i ∧ i ≠ 0) ∨ (l.Pairwise fun s t => Apart (f s) (e s) (f t) (e t)) ∧
      ∀ s ∈ l, Apart (f s) (e s) 0 0) :
    val indexUysat r' = val indexUysat r := by
  rw [Nearby.val_indexUysat, Nearby.val_indexUysat, hi]
  rcases safe with ⟨i, e0, h0⟩ | ⟨hp, hz⟩
  · rw [e0]; simp only [if_pos h0]
  have key : satLoop r'.temporal.s2_y r'.temporal.s2_y.length (.fin 0) 0 = satLoop r.temporal.s2_y r.temporal.s2_y.length (.fin 0) 0 := by
    rw [h1, h2]
    simp only [List.length_map]
    have ef := Nearby.getD_list (l.map f) (n := l.length) (by simp)
    have eg := Nearby.getD_list (l.map g) (n := l.length) (by simp)
    rw [ef, eg]
    symm
    refine Nearby.satLoop_agree (n := l.length) ?_ l.length none (by simp) 0
    have get : ∀ (f : Shot → ℝ) (j : ℕ) (hj : j < l.length), (l.map f).getD j 0 = f l[j] := fun f j hj => by simp [hj]
    intro m hm j hj
    cases m with
    | none =>
      simp only [Nearby.mval]
      rw [get f j hj, get g j hj]
      exact apart_le (apart_symm (hz _ (List.getElem_mem hj))) (by simp) (hg _ (List.getElem_mem hj))
    | some i =>
      have hi := hm i rfl
      simp only [Nearby.mval]
      rw [get f j hj, get g j hj, get f i hi, get g i hi]
      rcases lt_trichotomy i j with c | rfl | c
      · exact apart_le (List.pairwise_iff_getElem.1 hp i j hi hj c) (hg _ (List.getElem_mem hi)) (hg _ (List.getElem_mem hj))
      · exact ⟨fun _ => le_rfl, fun _ => le_rfl⟩
      · exact apart_le (apart_symm (List.pairwise_iff_getElem.1 hp j i hj hi c)) (hg _ (List.getElem_mem hi)) (hg _ (List.getElem_mem hj))
  rw [key]

section
variable {u : ℝ} (R : Rounding u) (S : RSum R)

theorem exactTemporal_lists {h w : ℕ} {B : ℤ} {l : List Shot} (ok : ShotsOK h w B l) :
    (exactTemporal h w l).u_y = (l.map fun s => imagesMean h w s.bright₁ s.bright₂).map .fin ∧
    (exactTemporal h w l).u_ydark = (l.map fun s => imagesMean h w s.dark₁ s.dark₂).map .fin ∧
    (exactTemporal h w l).s2_y = (l.map fun s => imagesVar h w s.bright₁ s.bright₂).map .fin ∧
    (exactTemporal h w l).s2_ydark = (l.map fun s => imagesVar h w s.dark₁ s.dark₂).map .fin := by
  simp only [exactTemporal, List.map_map]
  refine ⟨?_, ?_, ?_, ?_⟩ <;> refine List.map_congr_left fun s hs => ?_
  · rw [C05_temporal_point ℝ h w B _ _ (ok.bright s hs)]; rfl
  · rw [C05_temporal_point ℝ h w B _ _ (ok.dark s hs)]; rfl
  · rw [C05_temporal_point ℝ h w B _ _ (ok.bright s hs)]; rfl
  · rw [C05_temporal_point ℝ h w B _ _ (ok.dark s hs)]; rfl

theorem diff_map {ι : Type} (l : List ι) (f g : ι → ℝ) : diff (l.map f) (l.map g) = l.map fun s => f s - g s := by
  unfold diff
  rw [List.zipWith_map]
  induction l with
  | nil => rfl
  | cons s l ih => rw [List.zipWith_cons_cons, ih]; rfl

theorem zip_map_take {ι : Type} (l : List ι) (f g : ι → ℝ) (n : ℕ) :
    ((l.map f).take n).zip ((l.map g).take n) = (l.take n).map fun s => (f s, g s) := by
  rw [← List.map_take, ← List.map_take]
  induction l.take n with
  | nil => rfl
  | cons s l ih => simp [ih]

/-- the range of the gain is the same -/
theorem smax_same (hu1 : u ≤ 1 / 100) {h w : ℕ} {B : ℤ} {l : List Shot} (ok : ShotsOK h w B l) (r r' : Res ℝ)
    (ht : r.temporal = exactTemporal h w l) (ht' : r'.temporal = Rounded.temporal R S h w l)
    (k : ℤ) (hk : val indexUysat r = .ok k) (hk' : val indexUysat r' = .ok k) (s₀ : Shot) (hs₀ : Np.idx l k = .ok s₀)
    (hm : s₀ ∈ l) (safe : SafeRange u h w l s₀) :
    val (Rounded.indexSensitivityMax R) r' = val indexSensitivityMax r := by
  obtain ⟨e1, e2, -, -⟩ := exactTemporal_lists ok
  have eX : Np.bin (· - ·) r.temporal.u_y r.temporal.u_ydark = .ok ((l.map (signalOf h w)).map .fin) := by
    rw [signal_fin r _ _ (by rw [ht, e1]) (by rw [ht, e2]) (by simp), diff_map]; rfl
  have eX' : val (Rounded.signal R) r' = .ok ((l.map (rsig R S h w)).map .fin) := by
    rw [rsignal_fin R r' (l.map fun s => (Rounded.seriesPoint R (h * w) (Rounded.entry R S [s.bright₁, s.bright₂])).1)
      (l.map fun s => (Rounded.seriesPoint R (h * w) (Rounded.entry R S [s.dark₁, s.dark₂])).1)
      (by rw [ht', List.map_map]; rfl) (by rw [ht', List.map_map]; rfl) (by simp), rdiff, diff_map]
    simp only [List.map_map]
    rfl
  have i1 : Np.idx ((l.map (signalOf h w)).map Fl.fin) k = .ok (.fin (signalOf h w s₀)) := by
    rw [List.map_map, Np.idx_map, hs₀]; rfl
  have i2 : Np.idx ((l.map (rsig R S h w)).map Fl.fin) k = .ok (.fin (rsig R S h w s₀)) := by
    rw [List.map_map, Np.idx_map, hs₀]; rfl
  have f1 : val (Rounded.indexSensitivityMax R) r' =
      Np.maxI (Np.argwhere (fun y => Fl.le y (.fin (R.rnd (R.rnd (7 / 10) * rsig R S h w s₀)))) ((l.map (rsig R S h w)).map .fin)) := by
    unfold Rounded.indexSensitivityMax Rounded.lastBelow
    rw [val_bind_ok (Rounded.stable_signal R) (by stab) eX', val_bind_ok Stable.indexUysat (by stab) hk',
      val_bind_ok (x := lift (Np.idx _ k)) (Stable.lift _) (by stab) i2, val_lift]
    rfl
  have f2 : val indexSensitivityMax r =
      Np.maxI (Np.argwhere (fun y => Fl.le y (.fin (7 / 10 * signalOf h w s₀))) ((l.map (signalOf h w)).map .fin)) := by
    unfold indexSensitivityMax
    rw [val_lastBelow, eX, hk]
    simp only [except_bind_ok]
    rw [i1]
    rfl
  rw [f1, f2, List.map_map, List.map_map, argwhere_map, argwhere_map]
  congr 1
  refine argwhere_congr fun s hs => ?_
  show decide (rsig R S h w s ≤ R.rnd (R.rnd (7 / 10) * rsig R S h w s₀)) = decide (signalOf h w s ≤ 7 / 10 * signalOf h w s₀)
  refine decide_eq_decide.2 ?_
  have a := (C102_point R S hu1 ok hs).1
  have b := (C102_point R S hu1 ok hm).1
  have hu0 := R.u_nonneg
  set x := signalOf h w s₀
  set x' := rsig R S h w s₀
  set ε := signalErr u h w s₀
  have c1 := R.err (7 / 10)
  rw [abs_of_pos (show (0 : ℝ) < 7 / 10 by norm_num)] at c1
  have c2 := R.err (R.rnd (7 / 10) * x')
  have ax : |x'| ≤ |x| + ε := by have := abs_sub_abs_le_abs_sub x' x; linarith
  have c3 : |R.rnd (7 / 10)| ≤ 7 / 10 * (1 + u) := by
    have := abs_sub_abs_le_abs_sub (R.rnd (7 / 10)) (7 / 10)
    rw [abs_of_pos (show (0 : ℝ) < 7 / 10 by norm_num)] at this
    linarith
  have c4 : |R.rnd (R.rnd (7 / 10) * x') - 7 / 10 * x| ≤ 7 / 10 * (ε + (2 * u + u ^ 2) * (|x| + ε)) := by
    have e : R.rnd (R.rnd (7 / 10) * x') - 7 / 10 * x = (R.rnd (R.rnd (7 / 10) * x') - R.rnd (7 / 10) * x') +
        (R.rnd (7 / 10) - 7 / 10) * x' + 7 / 10 * (x' - x) := by
      generalize R.rnd (R.rnd (7 / 10) * x') = A
      generalize R.rnd (7 / 10) = C
      ring
    rw [e]
    refine (abs_add_three _ _ _).trans ?_
    rw [abs_mul, abs_mul, abs_of_pos (show (0 : ℝ) < 7 / 10 by norm_num)]
    have d1 : |R.rnd (R.rnd (7 / 10) * x') - R.rnd (7 / 10) * x'| ≤ u * (7 / 10 * (1 + u) * (|x| + ε)) := by
      refine c2.trans (mul_le_mul_of_nonneg_left ?_ hu0)
      rw [abs_mul]
      exact mul_le_mul c3 ax (abs_nonneg _) (by positivity)
    have d2 : |R.rnd (7 / 10) - 7 / 10| * |x'| ≤ u * (7 / 10) * (|x| + ε) := mul_le_mul c1 ax (abs_nonneg _) (by positivity)
    nlinarith
  have g := safe s hs
  exact (apart_le (.inl g) a c4).symm


/-- the data of an evaluation from images, with `val` -/
theorem gain_from_images (hu1 : u ≤ 1 / 100) (q' q : LSQ ℝ) (hq : q.Good) (τ δ ρ η : ℝ) (hq' : q'.Near τ δ) (hτ : 0 ≤ τ)
    (hρ : 0 ≤ ρ) (hρ1 : ρ ≤ 1) (hη : 0 ≤ η) (hη1 : η < 1) {h w : ℕ} {B : ℤ} {l : List Shot} (ok : ShotsOK h w B l) (r r' : Res ℝ)
    (ht : r.temporal = exactTemporal h w l) (ht' : r'.temporal = Rounded.temporal R S h w l)
    (j : ℕ) (hj : val indexSensitivityMax r = .ok j) (hj' : val (Rounded.indexSensitivityMax R) r' = .ok j)
    (hx : ∃ s ∈ l.take (j + 1), signalOf h w s ≠ 0) (hp : ∃ s ∈ l.take (j + 1), s.photons ≠ 0)
    (small : SlopeErrors u η h w (l.take (j + 1))) (k m : ℝ) (hk : val (K q) r = .ok (.fin k)) (hk0 : 0 < k)
    (hm : val (Results.R q) r = .ok (.fin m)) (hm0 : 0 < m) (tol : SmallTolerance u η τ δ ρ k m h w (l.take (j + 1))) :
    (∃ k', val (Rounded.gain R q') r' = .ok (.fin k') ∧ Close ((1 - ρ) * (1 - η) ^ 2) k' k) ∧
    ∃ m', val (Rounded.resp R q') r' = .ok (.fin m') ∧ Close ((1 - ρ) * (1 - η) ^ 2) m' m := by
  obtain ⟨e1, e2, e3, e4⟩ := exactTemporal_lists ok
  have ep : r.temporal.u_p = l.map Shot.photons := by rw [ht]; rfl
  have ep' : r'.temporal.u_p = l.map Shot.photons := by rw [ht']; rfl
  have dX : diff (l.map fun s => imagesMean h w s.bright₁ s.bright₂) (l.map fun s => imagesMean h w s.dark₁ s.dark₂) =
      l.map (signalOf h w) := diff_map ..
  have dY : diff (l.map fun s => imagesVar h w s.bright₁ s.bright₂) (l.map fun s => imagesVar h w s.dark₁ s.dark₂) =
      l.map (noiseOf h w) := diff_map ..
  have getp : ∀ (f : Shot → ℝ), (∃ s ∈ l.take (j + 1), f s ≠ 0) → ∃ i ≤ j, ∃ y, (l.map f)[i]? = some y ∧ y ≠ 0 := by
    rintro f ⟨s, hs, h0⟩
    obtain ⟨i, hi, hs⟩ := List.mem_take_iff_getElem.1 hs
    have h2 : i < l.length := by omega
    exact ⟨i, by omega, f s, by rw [List.getElem?_map, List.getElem?_eq_getElem h2, hs]; rfl, h0⟩
  obtain ⟨k1, ek, bk⟩ := C66_gain q hq r _ _ _ _ (by rw [ht, e1]) (by rw [ht, e2]) (by rw [ht, e3]) (by rw [ht, e4])
    (by simp) (by simp) (by simp) j hj (by rw [dX]; exact getp _ hx)
  obtain rfl : k1 = k := by rw [hk] at ek; injection ek with ek; injection ek with ek; exact ek.symm
  obtain ⟨m1, em, bm⟩ := C66_responsivity q hq r _ _ (by rw [ht, e1]) (by rw [ht, e2]) (by simp) (by rw [ep]; simp) j hj
    (by rw [ep]; exact getp _ hp)
  obtain rfl : m1 = m := by rw [hm] at em; injection em with em; injection em with em; exact em.symm
  rw [dX, dY, List.zip, List.take_zipWith, ← List.zip, zip_map_take] at bk
  rw [dX, ep, List.zip, List.take_zipWith, ← List.zip, zip_map_take] at bm
  have mem : ∀ s ∈ l.take (j + 1), s ∈ l := fun s hs => List.mem_of_mem_take hs
  have pt := fun s (hs : s ∈ l.take (j + 1)) => C102_point R S hu1 ok (mem s hs)
  obtain ⟨n1, c1⟩ := slope_perturbed (l.take (j + 1)) _ _ (rsig R S h w) (rvar R S h w) _ _ (fun s hs => (pt s hs).1)
    (fun s hs => (pt s hs).2) η hη hη1 small.xy small.xx hx k1 bk hk0 τ δ ρ hτ hρ hρ1 tol.gain
  have hsq : 0 ≤ ((l.take (j + 1)).map fun s => s.photons ^ 2).sum := List.sum_nonneg fun x hx => by
    obtain ⟨s, -, rfl⟩ := List.mem_map.1 hx; exact sq_nonneg _
  obtain ⟨n2, c2⟩ := slope_perturbed (l.take (j + 1)) Shot.photons _ Shot.photons (rsig R S h w) (fun _ => 0) _ (fun s _ => by simp)
    (fun s hs => (pt s hs).1) η hη hη1 (by simpa using small.py) (by simpa using mul_nonneg hη hsq) hp m1 bm hm0 τ δ ρ hτ hρ hρ1 tol.resp
  have f1 : r'.temporal.u_y = (l.map fun s => (Rounded.seriesPoint R (h * w) (Rounded.entry R S [s.bright₁, s.bright₂])).1).map .fin := by
    rw [ht', List.map_map]; rfl
  have f2 : r'.temporal.u_ydark = (l.map fun s => (Rounded.seriesPoint R (h * w) (Rounded.entry R S [s.dark₁, s.dark₂])).1).map .fin := by
    rw [ht', List.map_map]; rfl
  have f3 : r'.temporal.s2_y = (l.map fun s => (Rounded.seriesPoint R (h * w) (Rounded.entry R S [s.bright₁, s.bright₂])).2).map .fin := by
    rw [ht', List.map_map]; rfl
  have f4 : r'.temporal.s2_ydark = (l.map fun s => (Rounded.seriesPoint R (h * w) (Rounded.entry R S [s.dark₁, s.dark₂])).2).map .fin := by
    rw [ht', List.map_map]; rfl
  have gX : val (Rounded.signal R) r' = .ok ((l.map (rsig R S h w)).map .fin) := by
    rw [rsignal_fin R r' _ _ f1 f2 (by simp), rdiff, diff_map]
    simp only [List.map_map]
    rfl
  have gY : Np.bin (fun x y => Rounded.rd R (x - y)) r'.temporal.s2_y r'.temporal.s2_ydark = .ok ((l.map (rvar R S h w)).map .fin) := by
    rw [f3, f4, bin_rd_fin R _ _ (by simp), rdiff, diff_map]
    simp only [List.map_map]
    rfl
  have sS := Rounded.stable_signal R
  have sI := Rounded.stable_smax R
  constructor
  · obtain ⟨s, hs, h0⟩ := n1
    obtain ⟨k', k0', e', n'⟩ := C94_slope q' τ δ hq' ((l.map (rsig R S h w)).take (j + 1)) ((l.map (rvar R S h w)).take (j + 1))
      (by simp) ⟨rsig R S h w s, by rw [← List.map_take]; exact List.mem_map_of_mem hs, h0⟩
    rw [zip_map_take] at n'
    refine ⟨k', ?_, c1 _ _ n'⟩
    unfold Rounded.gain
    rw [val_bind_ok sS (by stab) gX, val_bind_ok stable_temporal (by stab) rfl,
      val_bind_ok (x := lift (Np.bin _ _ _)) (Stable.lift _) (by stab) (by rw [val_lift]; exact gY),
      val_bind_ok (a := 0) stable_smin (by stab) rfl, val_bind_ok sI (by stab) hj', val_lift,
      Np.slice_zero, Np.slice_zero]
    simp only [List.map_take] at e' ⊢
    exact e'
  · obtain ⟨s, hs, h0⟩ := n2
    obtain ⟨k', k0', e', n'⟩ := C94_slope q' τ δ hq' ((l.map Shot.photons).take (j + 1)) ((l.map (rsig R S h w)).take (j + 1))
      (by simp) ⟨s.photons, by rw [← List.map_take]; exact List.mem_map_of_mem hs, h0⟩
    rw [zip_map_take] at n'
    refine ⟨k', ?_, c2 _ _ n'⟩
    unfold Rounded.resp
    rw [val_bind_ok sS (by stab) gX, val_bind_ok stable_photons (by stab) (val_photons r'),
      val_bind_ok (a := 0) stable_smin (by stab) rfl, val_bind_ok sI (by stab) hj', val_lift, ep',
      Np.slice_zero, Np.slice_zero]
    simp only [List.map_take] at e' ⊢
    exact e'


/-- the results of a measurement from its images, given the dark variances -/
theorem results_from_images (hu1 : u ≤ 1 / 100) (q' q : LSQ ℝ) (hq : q.Good) (τ δ ρ η : ℝ) (hq' : q'.Near τ δ) (hτ : 0 ≤ τ)
    (hρ : 0 ≤ ρ) (hρ1 : ρ < 1) (hη : 0 ≤ η) (hη1 : η < 1) (hacc : 3 / 4 ≤ (1 - ρ) ^ 2 * (1 - η) ^ 4 * (1 - u) ^ 5)
    {h w : ℕ} {B : ℤ} {l : List Shot} (ok : ShotsOK h w B l) (r r' : Res ℝ)
    (ht : r.temporal = exactTemporal h w l) (ht' : r'.temporal = Rounded.temporal R S h w l)
    (hgiven : r'.index_u_ysat = r.index_u_ysat)
    (sat : SafeSaturation u h w l r.index_u_ysat) (i : ℤ) (hi : val indexUysat r = .ok i) (s₀ : Shot) (hs₀ : AtIndex l i s₀)
    (range : SafeRange u h w l s₀) (j : ℕ) (hj : val indexSensitivityMax r = .ok j)
    (hx : ∃ s ∈ l.take (j + 1), signalOf h w s ≠ 0) (hp : ∃ s ∈ l.take (j + 1), s.photons ≠ 0) (hp0 : 0 < s₀.photons)
    (small : SlopeErrors u η h w (l.take (j + 1))) (k m : ℝ) (hk : val (K q) r = .ok (.fin k)) (hk0 : 0 < k)
    (hm : val (Results.R q) r = .ok (.fin m)) (hm0 : 0 < m) (tol : SmallTolerance u η τ δ ρ k m h w (l.take (j + 1)))
    (v' v : ℝ) (hV2 : val (rawDark q') r' = .ok (.fin v')) (hV1 : val (rawDark q) r = .ok (.fin v))
    (cv : Close (1 - η) (max v' 0) (max v 0)) (e : ℝ) (he : 1 ≤ ((1 - ρ) ^ 7 * (1 - η) ^ 14 * (1 - u) ^ 18) * (1 + e)) :
    (RelError e (val (Rounded.gain R q') r') (val (K q) r) ∧
    RelError e (val (Rounded.resp R q') r') (val (Results.R q) r) ∧
    RelError e (val (Rounded.inverseK R q') r') (val (inverseK q) r) ∧
    RelError e (val (Rounded.QE R q') r') (val (QE q) r) ∧
    RelError e (val (Rounded.sigmaYDark R q') r') (val (sigmaYDark q) r) ∧
    RelError e (val (Rounded.sigmaD R q') r') (val (sigmaD q) r) ∧
    RelError e (val (Rounded.uPMin R q') r') (val (uPMin q) r) ∧
    RelError e (val (Rounded.uEMin R q') r') (val (uEMin q) r) ∧
    RelError e (val (Rounded.uESat R q') r') (val (uESat q) r) ∧
    RelError e (val (Rounded.SNRMax R q') r') (val (SNRMax q) r) ∧
    RelError e (val (Rounded.inverseSNRMax R q') r') (val (inverseSNRMax q) r) ∧
    RelError e (val (Rounded.DR R q') r') (val (DR q) r)) ∧
    ∃ k', val (Rounded.gain R q') r' = .ok (.fin k') ∧ Close ((1 - ρ) * (1 - η) ^ 2) k' k := by
  have hs : 0 < 1 - u := by linarith
  have hs1 : 1 - u ≤ 1 := by have := R.u_nonneg; linarith
  obtain ⟨e1, e2, e3, e4⟩ := exactTemporal_lists ok
  have hi' : val indexUysat r' = .ok i := by
    rw [← hi]
    exact usat_same l _ (fun s => (Rounded.seriesPoint R (h * w) (Rounded.entry R S [s.bright₁, s.bright₂])).2) _
      (fun s hs => (pair_error R S hu1 (ok.bright s hs) ok.size ok.range).2) r r' (by rw [ht, e3]) (by rw [ht', List.map_map]; rfl)
      hgiven sat
  have hm₀ : s₀ ∈ l := by
    rcases hs₀ with ⟨-, h⟩ | ⟨-, -, h⟩ <;> exact List.mem_of_getElem? h
  have hidx := (Np.idx_ok_iff l i s₀).2 hs₀
  have hj' : val (Rounded.indexSensitivityMax R) r' = .ok j := by
    rw [smax_same R S hu1 ok r r' ht ht' i hi hi' s₀ hidx hm₀ range, hj]
  obtain ⟨⟨k', ek', ck⟩, m', em', cm⟩ := gain_from_images R S hu1 q' q hq τ δ ρ η hq' hτ hρ hρ1.le hη hη1 ok r r' ht ht' j hj hj' hx hp
    small k m hk hk0 hm hm0 tol
  have hP : ∀ x : Res ℝ, x.temporal.u_p = l.map Shot.photons → val indexUysat x = .ok i → val uPSat x = .ok (.fin s₀.photons) := by
    intro x h1 h2
    unfold uPSat
    rw [val_bind_ok stable_temporal (by stab) rfl, val_bind_ok Stable.indexUysat (by stab) h2,
      val_bind_ok (x := lift (Np.idx _ _)) (a := s₀.photons) (Stable.lift _) (by stab)
        (by rw [val_lift, h1, Np.idx_map, hidx]; rfl)]
    rfl
  have hP1 := hP r (by rw [ht]; rfl) hi
  have hP2 := hP r' (by rw [ht']; rfl) hi'
  have hc : 0 < 1 - ρ := by linarith
  have hc1 : 1 - ρ ≤ 1 := by linarith
  have hd : 0 < 1 - η := by linarith
  have hd1 : 1 - η ≤ 1 := by linarith
  generalize hsd' : 1 - u = z at *
  generalize 1 - ρ = c at *
  generalize 1 - η = d at *
  have ht0 : 0 < c * d ^ 2 := by positivity
  have ht1 : c * d ^ 2 ≤ 1 := mul_le_one₀ hc1 (by positivity) (pow_le_one₀ hd.le hd1)
  have hdt : c * d ^ 2 ≤ d := by
    have h1 : c * d ≤ 1 := mul_le_one₀ hc1 hd.le hd1
    have := mul_le_mul_of_nonneg_right h1 hd.le
    linarith [show c * d ^ 2 = c * d * d by ring]
  have main := C95_results R (by linarith) q' q r' r (c * d ^ 2) ht0 ht1 (by rw [hsd']; refine hacc.trans (le_of_eq ?_); ring)
    k' k m' m _ _ _ _ ek' hk hk0 ck em' hm hm0 cm hP2 hP1 hp0 (Close.refl hp0.le ht1) hV2 hV1 (Close.mono cv hdt)
  rw [hsd'] at main
  have fin : ∀ {a b : ℕ} {x y : Except PyErr (Fl ℝ)}, AgreeUpTo ((c * d ^ 2) ^ a * z ^ b) x y → a ≤ 7 → b ≤ 18 → RelError e x y := by
    intro a b x y h h7 h18
    refine h.relError (by positivity) ?_
    have e1 : (c * d ^ 2) ^ 7 * z ^ 18 ≤ (c * d ^ 2) ^ a * z ^ b :=
      mul_le_mul (pow_le_pow_of_le_one ht0.le ht1 h7) (pow_le_pow_of_le_one hs.le hs1 h18) (by positivity) (by positivity)
    have e0 : c ^ 7 * d ^ 14 * z ^ 18 = (c * d ^ 2) ^ 7 * z ^ 18 := by ring
    have e2 : 0 ≤ 1 + e := by
      by_contra hneg
      have : c ^ 7 * d ^ 14 * z ^ 18 * (1 + e) < 0 := mul_neg_of_pos_of_neg (by positivity) (not_le.1 hneg)
      linarith
    rw [e0] at he
    exact he.trans (mul_le_mul_of_nonneg_right e1 e2)
  obtain ⟨a1, a2, a3, a4, a5, a6, a7, a8, a9, a10⟩ := main
  exact ⟨⟨fin (a := 1) (b := 0) ⟨_, _, ek', hk, by simpa using ck⟩ (by norm_num) (by norm_num),
    fin (a := 1) (b := 0) ⟨_, _, em', hm, by simpa using cm⟩ (by norm_num) (by norm_num),
    fin (a := 1) (b := 1) (by simpa using a1) (by norm_num) (by norm_num), fin a2 (by norm_num) (by norm_num),
    fin (a := 1) (b := 2) (by simpa using a3) (by norm_num) (by norm_num), fin a4 (by norm_num) (by norm_num),
    fin a5 (by norm_num) (by norm_num), fin a6 (by norm_num) (by norm_num), fin a7 (by norm_num) (by norm_num),
    fin a8 (by norm_num) (by norm_num), fin a9 (by norm_num) (by norm_num), fin a10 (by norm_num) (by norm_num)⟩, k', ek', ck⟩

/-- C102: the results of a measurement with at most two exposure times, computed in floating point from its images by a solver of
given tolerance, against the exact results of the same images. -/
theorem C102_measurement (hu1 : u ≤ 1 / 100) (q' q : LSQ ℝ) (hq : q.Good) (τ δ ρ η : ℝ) (hq' : q'.Near τ δ) (hτ : 0 ≤ τ)
    (hρ : 0 ≤ ρ) (hρ1 : ρ < 1) (hη : 0 ≤ η) (hη1 : η < 1) (hacc : 3 / 4 ≤ (1 - ρ) ^ 2 * (1 - η) ^ 4 * (1 - u) ^ 5)
    {h w : ℕ} {B : ℤ} {l : List Shot} (ok : ShotsOK h w B l) (r r' : Res ℝ)
    (ht : r.temporal = exactTemporal h w l) (ht' : r'.temporal = Rounded.temporal R S h w l)
    (hgiven : r'.index_u_ysat = r.index_u_ysat) (few : (l.map Shot.texp).toFinset.card ≤ 2)
    (sat : SafeSaturation u h w l r.index_u_ysat) (i : ℤ) (hi : val indexUysat r = .ok i) (s₀ : Shot) (hs₀ : AtIndex l i s₀)
    (range : SafeRange u h w l s₀) (j : ℕ) (hj : val indexSensitivityMax r = .ok j)
    (hx : ∃ s ∈ l.take (j + 1), signalOf h w s ≠ 0) (hp : ∃ s ∈ l.take (j + 1), s.photons ≠ 0) (hp0 : 0 < s₀.photons)
    (small : SmallErrors u η h w (l.take (j + 1))) (k m : ℝ) (hk : val (K q) r = .ok (.fin k)) (hk0 : 0 < k)
    (hm : val (Results.R q) r = .ok (.fin m)) (hm0 : 0 < m) (tol : SmallTolerance u η τ δ ρ k m h w (l.take (j + 1)))
    (e : ℝ) (he : 1 ≤ ((1 - ρ) ^ 7 * (1 - η) ^ 14 * (1 - u) ^ 18) * (1 + e)) :
    RelError e (val (Rounded.gain R q') r') (val (K q) r) ∧
    RelError e (val (Rounded.resp R q') r') (val (Results.R q) r) ∧
    RelError e (val (Rounded.inverseK R q') r') (val (inverseK q) r) ∧
    RelError e (val (Rounded.QE R q') r') (val (QE q) r) ∧
    RelError e (val (Rounded.sigmaYDark R q') r') (val (sigmaYDark q) r) ∧
    RelError e (val (Rounded.sigmaD R q') r') (val (sigmaD q) r) ∧
    RelError e (val (Rounded.uPMin R q') r') (val (uPMin q) r) ∧
    RelError e (val (Rounded.uEMin R q') r') (val (uEMin q) r) ∧
    RelError e (val (Rounded.uESat R q') r') (val (uESat q) r) ∧
    RelError e (val (Rounded.SNRMax R q') r') (val (SNRMax q) r) ∧
    RelError e (val (Rounded.inverseSNRMax R q') r') (val (inverseSNRMax q) r) ∧
    RelError e (val (Rounded.DR R q') r') (val (DR q) r) := by
  obtain ⟨e1, e2, e3, e4⟩ := exactTemporal_lists ok
  -- the dark variance is that of the first point
  have hne : ∃ s t, l = s :: t := List.exists_cons_of_ne_nil fun h => by
    obtain ⟨s, hs, -⟩ := hx
    rw [h] at hs
    simp at hs
  obtain ⟨s, tl, rfl⟩ := hne
  have hV : ∀ (q : LSQ ℝ) (x : Res ℝ) (v : ℝ) (vs : List (Fl ℝ)), x.temporal.texp = (s :: tl).map Shot.texp → x.temporal.s2_ydark = .fin v :: vs →
      val (rawDark q) x = .ok (.fin v) := fun q x v vs h1 h2 => by
    unfold rawDark
    rw [val_bind_ok stable_few (by stab) rfl, val_bind_ok stable_temporal (by stab) rfl,
      if_pos (decide_eq_true (by rw [nUnique_eq, h1]; exact few)), val_lift, h2]
    rfl
  have hV1 := hV q r (imagesVar h w s.dark₁ s.dark₂) _ (by rw [ht]; rfl) (by rw [ht, e4]; rfl)
  have hV2 := hV q' r' (Rounded.seriesPoint R (h * w) (Rounded.entry R S [s.dark₁, s.dark₂])).2 _ (by rw [ht']; rfl) (by rw [ht']; rfl)
  have cv : Close (1 - η) (max (Rounded.seriesPoint R (h * w) (Rounded.entry R S [s.dark₁, s.dark₂])).2 0)
      (max (imagesVar h w s.dark₁ s.dark₂) 0) := by
    have h1 := (pair_error R S hu1 (ok.dark s (List.mem_cons_self ..)) ok.size ok.range).2.trans
      (small.dark s (by simp))
    have h0 : 0 ≤ imagesVar h w s.dark₁ s.dark₂ := by
      unfold imagesVar imgPopVar
      have : 0 ≤ ∑ i ∈ Finset.range h, ∑ j ∈ Finset.range w, (((s.dark₂.px i j : ℝ) - s.dark₁.px i j)
          - imgMean h w (fun i j => (s.dark₂.px i j : ℝ) - s.dark₁.px i j)) ^ 2 :=
        Finset.sum_nonneg fun i _ => Finset.sum_nonneg fun j _ => sq_nonneg _
      positivity
    rcases h0.eq_or_lt with h0 | h0
    · rw [← h0] at h1 ⊢
      rw [mul_zero, sub_zero, abs_nonpos_iff] at h1
      rw [h1]
      exact Close.refl (by simp) (by linarith)
    · have c := Close.of_abs h0 h1 hη1.le
      rw [max_eq_left c.1, max_eq_left h0.le]
      exact c
  exact (results_from_images R S hu1 q' q hq τ δ ρ η hq' hτ hρ hρ1 hη hη1 hacc ok r r' ht ht' hgiven sat i hi s₀ hs₀ range j hj hx hp hp0
    small.toSlopeErrors k m hk hk0 hm hm0 tol _ _ hV2 hV1 cv e he).1

end

/-- C102: for one exposure time the data without rounding are those of `_get_temporal` for the pairs of images. -/
theorem C102_data (h w : ℕ) (d : Loader.KindData ℝ (TemporalEntry ℝ)) (hw : WF2 d) (hn : NonNegPhotons d) (t : Temporal ℝ)
    (ht : getTemporal (h * w) d = .ok t) (h1 : d.length = 1) (im : ℝ → Img × Img)
    (him : ∀ e p v, get2 d e p = some v → v = temporalEntry ℝ i64 [(im p).1, (im p).2]) :
    ∃ e, (∃ v, get2 d e 0 = some v) ∧ t = exactTemporal h w (t.u_p.map fun p => ⟨(im p).1, (im p).2, (im 0).1, (im 0).2, e, p⟩) := by
  have hp : Paired d := by
    by_contra hc
    rw [(C17_acceptance (h * w) d hw).2 hc] at ht
    simp at ht
  obtain ⟨t', ht', e1, e2, e3, -, e4⟩ := getTemporal_ok (h * w) hw hp
  rw [ht] at ht'
  cases ht'
  obtain ⟨e, v, -, hv, f1, f2, f3⟩ := e4 h1
  have hb := bright_brightPts hw ((expGood_iff hw).2 hp) hn
  have hx : ∀ x ∈ brightPts d (sortedKeys d), x.2.2 = temporalEntry ℝ i64 [(im x.2.1).1, (im x.2.1).2] := by
    rintro ⟨a, b, c⟩ hx
    exact him a b c ((hb.mem a b c).1 hx).2
  have hv' := him e 0 v hv
  refine ⟨e, ⟨v, hv⟩, ?_⟩
  obtain ⟨T, P, U, V, UD, VD⟩ := t
  simp only [exactTemporal] at *
  rw [Temporal.mk.injEq]
  refine ⟨?_, ?_, ?_, ?_, ?_, ?_⟩
  · rw [f1, List.map_map]; exact (List.map_const' ..).symm
  · rw [List.map_map]; exact (List.map_id' P).symm
  · rw [e2, List.map_map, e1, List.map_map]
    refine List.map_congr_left fun x hx' => ?_
    rw [hx x hx']; rfl
  · rw [e3, List.map_map, e1, List.map_map]
    refine List.map_congr_left fun x hx' => ?_
    rw [hx x hx']; rfl
  · rw [f2, List.map_map, hv']; exact (List.map_const' ..).symm
  · rw [f3, List.map_map, hv']; exact (List.map_const' ..).symm

end Emva
