import Verif.Props.C109
import Verif.Props.C97Float
import Verif.Props.C108Example
import Verif.Props.C109Decibel
import Verif.Props.C106Example

/-!
C109: images of six points with a slightly curved characteristic.
-/
set_option autoImplicit false
namespace Emva
open Spec Data Results Rounding Fit

/-- mean gray values 10, 15, 21, 25, 31, 30 over a dark mean of 10 -/
noncomputable def curved : List Shot :=
  [warm 10 1 10 1 1 0, warm 15 2 10 1 1 100, warm 21 3 10 1 1 200, warm 25 4 10 1 1 300, warm 31 5 10 1 1 400, warm 30 1 10 1 1 500]

theorem curved_ok : ShotsOK 1 2 255 curved where
  bright := by
    intro s hs
    simp only [curved, List.mem_cons, List.not_mem_nil, or_false] at hs
    rcases hs with rfl | rfl | rfl | rfl | rfl | rfl <;> exact px2_ok (by norm_num) (by norm_num) (by norm_num) (by norm_num)
  dark := by
    intro s hs
    simp only [curved, List.mem_cons, List.not_mem_nil, or_false] at hs
    rcases hs with rfl | rfl | rfl | rfl | rfl | rfl <;> exact px2_ok (by norm_num) (by norm_num) (by norm_num) (by norm_num)
  size := by norm_num
  range := by norm_num

theorem warm_held (m d D c : ℤ) (t p : ℝ) (hm : 0 ≤ m ∧ m ≤ 255) (hD : 0 ≤ D ∧ D ≤ 255) : heldSignal 1 2 (warm m d D c t p) = m - D := by
  have e : ∀ n : ℤ, 0 ≤ n ∧ n ≤ 255 → b64 n = n := by
    intro n hn
    lift n to ℕ using hn.1
    exact binary64.nat n (by have := hn.2; omega)
  simp only [heldSignal, warm, pair_mean]
  rw [e m hm, e D hD]

theorem curved_held : curved.map (heldSignal 1 2) = [0, 5, 11, 15, 21, 20] := by
  simp only [curved, List.map_cons, List.map_nil]
  rw [warm_held _ _ _ _ _ _ (by norm_num) (by norm_num), warm_held _ _ _ _ _ _ (by norm_num) (by norm_num),
    warm_held _ _ _ _ _ _ (by norm_num) (by norm_num), warm_held _ _ _ _ _ _ (by norm_num) (by norm_num),
    warm_held _ _ _ _ _ _ (by norm_num) (by norm_num), warm_held _ _ _ _ _ _ (by norm_num) (by norm_num)]
  norm_num

theorem curved_pairs : (curved.map fun s => (s.photons, heldSignal 1 2 s)) = [(0, 0), (100, 5), (200, 11), (300, 15), (400, 21), (500, 20)] := by
  have : (curved.map fun s => (s.photons, heldSignal 1 2 s)) = (curved.map Shot.photons).zip (curved.map (heldSignal 1 2)) := by
    rw [List.zip_map']
  rw [this, curved_held]
  rfl

/-- the object of the computer -/
noncomputable def fromCurved (sp : Spatial ℝ) : Res ℝ := ⟨Ieee.temporal ISum.left 1 2 curved, sp, none, some 4⟩

theorem fromCurved_sat (sp : Spatial ℝ) : val indexUysat (fromCurved sp) = .ok 4 := by
  rw [Nearby.val_indexUysat]; rfl

theorem fromCurved_diff : diff (curved.map fun s => b64 (imagesMean 1 2 s.bright₁ s.bright₂))
    (curved.map fun s => b64 (imagesMean 1 2 s.dark₁ s.dark₂)) = [0, 5, 11, 15, 21, 20] := (diff_map _ _ _).trans curved_held

theorem curved_means : (Ieee.temporal ISum.left 1 2 curved).u_y = (curved.map fun s => b64 (imagesMean 1 2 s.bright₁ s.bright₂)).map .fin ∧
    (Ieee.temporal ISum.left 1 2 curved).u_ydark = (curved.map fun s => b64 (imagesMean 1 2 s.dark₁ s.dark₂)).map .fin :=
  ieee_means ISum.left curved_ok (by norm_num) (by norm_num [ISum.left])

theorem fromCurved_at : AtIndex (curved.map (heldSignal 1 2)) 4 21 := by
  rw [curved_held]; exact .inl ⟨by norm_num, rfl⟩

theorem fromCurved_max (sp : Spatial ℝ) : val indexLinearityMax (fromCurved sp) = .ok 3 := by
  obtain ⟨m1, m2⟩ := curved_means
  refine (((C26_linearity_max (fromCurved sp) _ _ m1 m2 (by simp) 4 (fromCurved_sat sp)).1 21
    (by rw [fromCurved_diff]; exact .inl ⟨by norm_num, rfl⟩)).1 3).2 ?_
  rw [fromCurved_diff]
  refine ⟨⟨_, rfl, by norm_num⟩, fun j x hj hx => ?_⟩
  match j, hj with
  | 4, _ => cases hx; norm_num
  | 5, _ => cases hx; norm_num
  | j + 6, _ => simp at hx

theorem fromCurved_min (sp : Spatial ℝ) : val indexLinearityMin (fromCurved sp) = .ok 1 := by
  obtain ⟨m1, m2⟩ := curved_means
  refine (((C26_linearity_min (fromCurved sp) _ _ m1 m2 (by simp) 4 (fromCurved_sat sp)).1 21
    (by rw [fromCurved_diff]; exact .inl ⟨by norm_num, rfl⟩)).1 1).2 ?_
  rw [fromCurved_diff]
  refine ⟨⟨_, rfl, by norm_num⟩, fun j x hj hx => ?_⟩
  match j, hj with
  | 0, _ => cases hx; norm_num

/-- the hypotheses of `C109_linearity` are met: the linearity errors of these images in float64 are finite and right to 10⁻⁴ per cent -/
theorem curved_computed (sp : Spatial ℝ) : ∃ lo lo' hi hi', val LEMin (fromCurved sp) = .ok (.fin lo) ∧
    val (Ieee.LEMin ISum.left) (fromCurved sp) = .ok (.fin lo') ∧ val LEMax (fromCurved sp) = .ok (.fin hi) ∧
    val (Ieee.LEMax ISum.left) (fromCurved sp) = .ok (.fin hi') ∧ |lo' - lo| ≤ 1 / 10 ^ 4 ∧ |hi' - hi| ≤ 1 / 10 ^ 4 := by
  have hp : [(100, 5), (200, 11), (300, (15 : ℝ))] = ((curved.map fun s => (s.photons, heldSignal 1 2 s)).take (3 + 1)).drop 1 := by
    rw [curved_pairs]; rfl
  have eA : sumXY [(100, 5), (200, 11), (300, (15 : ℝ))] = 640 / 11 := by norm_num [sumXY]
  have eB : sumXYY [(100, 5), (200, 11), (300, (15 : ℝ))] = 2536 / 363 := by norm_num [sumXYY]
  have eC : sumXXYY [(100, 5), (200, 11), (300, (15 : ℝ))] = 136800 / 121 := by norm_num [sumXXYY]
  have eD : sumY [(100, 5), (200, 11), (300, (15 : ℝ))] = 59 / 165 := by norm_num [sumY]
  have eE : sumYY [(100, 5), (200, 11), (300, (15 : ℝ))] = 287 / 5445 := by norm_num [sumYY]
  have eT : fitTerms [(100, 5), (200, 11), (300, (15 : ℝ))] = 14283616 / 131769 := by rw [fitTerms, eB, eC, eE]; norm_num
  have eF : fitDet [(100, 5), (200, 11), (300, (15 : ℝ))] = 11744 / 1089 := by rw [fitDet, eB, eC, eE]; norm_num
  have hWell : ∀ p ∈ [(100, 5), (200, 11), (300, (15 : ℝ))],
      WellOn (1 + 2 ^ (-43 : ℤ)) [(100, 5), (200, 11), (300, (15 : ℝ))] (387 / 7340) (-75 / 367) p ∧
      PlainLine (387 / 7340) (-75 / 367) p := by
    intro p hp
    simp only [List.mem_cons, List.not_mem_nil, or_false] at hp
    rcases hp with rfl | rfl | rfl <;>
      simp only [WellOn, PlainLine, lineScale, slopeScale, offsetScale, eA, eB, eC, eD, eT, eF] <;> norm_num [abs_of_pos]
  have gap : ∀ P : ℝ → Prop, (∀ y ∈ [0, 5, 11, 15, 21, (20 : ℝ)], P y) → ∀ s ∈ curved, P (heldSignal 1 2 s) := by
    intro P hP s hs
    refine hP _ ?_
    rw [← curved_held]
    exact List.mem_map_of_mem hs
  have main := C109_linearity ISum.left curved_ok (by norm_num [ISum.left]) (fromCurved sp) rfl 4 (fromCurved_sat sp) 21 fromCurved_at
      (by norm_num) ?_ ?_ 1 3 (fromCurved_min sp) (fromCurved_max sp) _ hp ?_ ?_ (by norm_num) (by norm_num [ISum.left])
      (1 + 2 ^ (-43 : ℤ)) ?_ (by norm_num) ?_ (387 / 7340) (-75 / 367) ?_ hWell
  · obtain ⟨l, l', a', b', -, -, -, -, -, -, -, -, -, lo, lo', hi, hi', h1, h2, h3, h4, h5⟩ := main
    refine ⟨lo, lo', hi, hi', h1, h2, h3, h4, ?_⟩
    have k := h5 400000000 ?_
    · exact ⟨k.1.trans (by norm_num), k.2.trans (by norm_num)⟩
    · intro p hp
      simp only [List.mem_cons, List.not_mem_nil, or_false] at hp
      rcases hp with rfl | rfl | rfl <;>
        simp only [deviationScale, lineScale, slopeScale, offsetScale, eA, eB, eC, eD, eT, eF] <;> norm_num [abs_of_pos]
  · refine gap (fun y => y ≤ (1 - (2 : ℝ) ^ (-53 : ℤ)) ^ 4 * (95 / 100 * 21) ∨ 95 / 100 * 21 < (1 - (2 : ℝ) ^ (-53 : ℤ)) ^ 4 * y) ?_
    intro y hy
    simp only [List.mem_cons, List.not_mem_nil, or_false] at hy
    rcases hy with rfl | rfl | rfl | rfl | rfl | rfl <;> norm_num
  · refine gap (fun y => y < (1 - (2 : ℝ) ^ (-53 : ℤ)) ^ 4 * (5 / 100 * 21) ∨ 5 / 100 * 21 ≤ (1 - (2 : ℝ) ^ (-53 : ℤ)) ^ 4 * y) ?_
    intro y hy
    simp only [List.mem_cons, List.not_mem_nil, or_false] at hy
    rcases hy with rfl | rfl | rfl | rfl | rfl | rfl <;> norm_num
  · intro p hp
    simp only [List.mem_cons, List.not_mem_nil, or_false] at hp
    rcases hp with rfl | rfl | rfl <;> norm_num [PlainPoint]
  · exact ⟨(100, 5), by simp, (200, 11), by simp, by norm_num⟩
  · exact C97_float64 ISum.left.free _ (by norm_num [ISum.left, ISum.free])
  · rw [eT, eF]; norm_num
  · refine Lin.best_of_normal ?_ ⟨(100, 5), by simp, (200, 11), by simp, by norm_num⟩ ?_ ?_
    · intro p hp
      simp only [List.mem_cons, List.not_mem_nil, or_false] at hp
      rcases hp with rfl | rfl | rfl <;> norm_num
    · show 387 / 7340 * sumXXYY _ + -75 / 367 * sumXYY _ = sumXY _
      rw [eA, eB, eC]; norm_num
    · show 387 / 7340 * sumXYY _ + -75 / 367 * sumYY _ = sumY _
      rw [eB, eD, eE]; norm_num

theorem fromShots_usat (sp : Spatial ℝ) : val uPSat (fromShots sp) = .ok (.fin 400) := by
  unfold uPSat
  rw [val_bind_ok stable_temporal (by stab) rfl, val_bind_ok Stable.indexUysat (by stab) (fromShots_sat sp)]
  rfl

theorem fromShots_sigma (sp : Spatial ℝ) : val (sigmaYDark (exactLSQ ℝ)) (fromShots sp) = .ok (.fin (Real.sqrt (1 / 2))) := by
  have e : val (rawDark (exactLSQ ℝ)) (fromShots sp) = .ok (.fin (1 / 2)) := by
    unfold rawDark
    rw [val_bind_ok stable_few (by stab) rfl, val_bind_ok stable_temporal (by stab) rfl,
      if_pos (decide_eq_true (by rw [nUnique_eq]; simp [fromShots, exactTemporal, shots, shot])), val_lift]
    show Np.idx (exactTemporal 1 2 shots).s2_ydark 0 = _
    rw [(exactTemporal_lists shots_ok).2.2.2]
    simp only [shots, shot, List.map_cons, List.map_nil, pair_var]
    norm_num
    rfl
  have e2 : val (s2YDark (exactLSQ ℝ)) (fromShots sp) = .ok (.fin (1 / 2)) := by
    unfold s2YDark
    rw [val_bind_ok (stable_rawDark _) (by stab) e, val_pure]
    norm_num
  unfold sigmaYDark
  rw [val_bind_ok (stable_s2YDark _) (by stab) e2, val_pure]
  norm_num [Fl.sqrt]

/-- the hypotheses of the theorems on logarithms are met: in float64, `SNR_max_dB`, `SNR_max_bit` and `DR_dB` of the four points of
C102 are right to 10⁻¹⁰, if the logarithm is right to 10⁻¹⁵ -/
theorem shots_decibel (sp sp' : Spatial ℝ) {v : ℝ} (lg : RLog v) (hv0 : 0 ≤ v) (hv : v ≤ 1 / 10 ^ 15) :
    let r := fromShots sp
    let r' : Res ℝ := ⟨Ieee.temporal ISum.left 1 2 shots, sp', none, none⟩
    ∃ s d x y z, val (SNRMaxDB (exactLSQ ℝ)) r = .ok (.fin (20 * Real.logb 10 s)) ∧ val (Ieee.SNRMaxDB (exactLSQ ℝ) lg) r' = .ok (.fin x) ∧
      val (SNRMaxBit (exactLSQ ℝ)) r = .ok (.fin (Real.logb 2 s)) ∧ val (Ieee.SNRMaxBit (exactLSQ ℝ) lg) r' = .ok (.fin y) ∧
      val (DRDB (exactLSQ ℝ)) r = .ok (.fin (20 * Real.logb 10 d)) ∧ val (Ieee.DRDB (exactLSQ ℝ) lg) r' = .ok (.fin z) ∧
      |x - 20 * Real.logb 10 s| ≤ 1 / 10 ^ 10 ∧ |y - Real.logb 2 s| ≤ 1 / 10 ^ 10 ∧ |z - 20 * Real.logb 10 d| ≤ 1 / 10 ^ 10 := by
  intro r r'
  obtain ⟨hK, hR⟩ := fromShots_KR sp (exactLSQ ℝ) exactLSQ_good
  obtain ⟨-, -, -, -, rd, rs⟩ := shots_computed sp sp'
  have q0 := Real.sqrt_nonneg (1 / 2)
  have q1 : Real.sqrt (1 / 2) ≤ 1 := Real.sqrt_le_one.2 (by norm_num)
  obtain ⟨qe, pm, em, es, dr, snr, -, -, -, -, hdr, hsnr, rfl, -, -, he, -, rfl, -, hd, h0, hsq, -⟩ :=
    C30_consistency (exactLSQ ℝ) r (19 / 40) (1 / 25) _ 400 (by norm_num) (by norm_num) q0 (by norm_num) hK hR (fromShots_sigma sp) (fromShots_usat sp)
  have s1 : 5 ≤ snr := by nlinarith
  have s2 : snr ≤ 6 := by nlinarith
  have e1 : 1 / 2 ≤ em := by rw [he]; linarith
  have e2 : em ≤ 3 := by rw [he]; linarith
  have d1 : 10 ≤ dr := by rw [hd, le_div_iff₀ (by linarith)]; linarith
  have d2 : dr ≤ 100 := by rw [hd, div_le_iff₀ (by linarith)]; linarith
  have b1 : ∀ {x : ℝ}, 1 ≤ x → 1 / 2 ^ 700 ≤ x := fun h =>
    le_trans (by rw [div_le_one (by positivity)]; exact one_le_pow₀ (by norm_num)) h
  have b2 : ∀ {x : ℝ}, x ≤ 2 ^ 7 → x ≤ 2 ^ 700 := fun h => le_trans h (pow_le_pow_right₀ (by norm_num) (by norm_num))
  obtain ⟨x, x1, x2, x3⟩ := C109_snr_db lg hv0 (hv.trans (by norm_num)) _ _ r r' (1 / 10 ^ 12) (by norm_num) snr (b1 (by linarith)) (b2 (by norm_num; linarith)) rs hsnr
  obtain ⟨y, y1, y2, y3⟩ := C109_snr_bit lg hv0 _ _ r r' (1 / 10 ^ 12) (by norm_num) snr (b1 (by linarith)) rs hsnr
  obtain ⟨z, z1, z2, z3⟩ := C109_dr_db lg hv0 (hv.trans (by norm_num)) _ _ r r' (1 / 10 ^ 12) (by norm_num) dr (b1 (by linarith)) (b2 (by norm_num; linarith)) rd hdr
  have log : ∀ (B : ℝ) {t : ℝ}, 2 ≤ B → 1 ≤ t → t ≤ 128 → |Real.logb B t| ≤ 7 := by
    intro B t hB h1 h2
    rw [abs_of_nonneg (Real.logb_nonneg (by linarith) h1), Real.logb_le_iff_le_rpow (by linarith) (by linarith)]
    have : (2 : ℝ) ^ (7 : ℝ) ≤ B ^ (7 : ℝ) := Real.rpow_le_rpow (by norm_num) hB (by norm_num)
    refine le_trans ?_ this
    rw [show (7 : ℝ) = ((7 : ℕ) : ℝ) by norm_num, Real.rpow_natCast]
    norm_num
    exact h2
  have db : ∀ t : ℝ, |20 * Real.logb 10 t| ≤ 140 → (1 + 2 ^ (-53 : ℤ)) * (1 + v) * (9 * (1 / 10 ^ 12 / (1 - 1 / 10 ^ 12))) +
      ((1 + 2 ^ (-53 : ℤ)) * (1 + v) - 1) * |20 * Real.logb 10 t| ≤ 1 / 10 ^ 10 := by
    intro t ht
    have c1 : (1 + 2 ^ (-53 : ℤ)) * (1 + v) ≤ 1 + 2 / 10 ^ 15 := by
      have : (1 + (2 : ℝ) ^ (-53 : ℤ)) * (1 + v) ≤ (1 + 2 ^ (-53 : ℤ)) * (1 + 1 / 10 ^ 15) := mul_le_mul_of_nonneg_left (by linarith) (by norm_num)
      exact this.trans (by norm_num)
    have c2 : (9 : ℝ) * (1 / 10 ^ 12 / (1 - 1 / 10 ^ 12)) ≤ 10 / 10 ^ 12 := by norm_num
    have c3 := mul_le_mul c1 c2 (by norm_num) (by norm_num)
    have c4 := mul_le_mul (sub_le_sub_right c1 1) ht (abs_nonneg _) (by norm_num)
    refine (add_le_add c3 c4).trans (by norm_num)
  refine ⟨snr, dr, x, y, z, x1, x2, y1, y2, z1, z2, x3.trans (db _ ?_), y3.trans ?_, z3.trans (db _ ?_)⟩
  · rw [abs_mul, abs_of_pos (show (0 : ℝ) < 20 by norm_num)]
    linarith [log 10 (by norm_num) (show 1 ≤ snr by linarith) (by linarith)]
  · have := log 2 le_rfl (show 1 ≤ snr by linarith) (by linarith)
    have c4 := mul_le_mul hv this (abs_nonneg _) (by norm_num)
    have c3 : (1 + v) * (3 / 2 * (1 / 10 ^ 12 / (1 - 1 / 10 ^ 12))) ≤ (1 + 1 / 10 ^ 15) * (3 / 2 * (1 / 10 ^ 12 / (1 - 1 / 10 ^ 12))) :=
      mul_le_mul_of_nonneg_right (by linarith) (by norm_num)
    refine (add_le_add c3 c4).trans (by norm_num)
  · rw [abs_mul, abs_of_pos (show (0 : ℝ) < 20 by norm_num)]
    linarith [log 10 (by norm_num) (show 1 ≤ dr by linarith) (by linarith)]

end Emva
