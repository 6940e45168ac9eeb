import Verif.Spec.Plausible
import Verif.Props.C77
import Verif.Props.C66
import Verif.Props.C29_C32

/-!
C100: implausible measurements are visible in the results.
-/
set_option autoImplicit false
namespace Emva
open Results Spec

/-- the results as expressions of gain, responsivity, dark noise and saturation irradiation -/
theorem results_table (q : LSQ ℝ) (r : Res ℝ) {k m s p : Fl ℝ} (hK : val (K q) r = .ok k) (hR : val (R q) r = .ok m)
    (hs : val (sigmaYDark q) r = .ok s) (hp : val uPSat r = .ok p) :
    val (inverseK q) r = .ok (.fin 1 / k) ∧ val (QE q) r = .ok (.fin 100 * m / k) ∧
    val (sigmaD q) r = .ok (Fl.sqrt (Fl.sq s - .fin (1 / 12)) / k) ∧
    val (uPMin q) r = .ok (.fin 100 / (.fin 100 * m / k) * (s / k + .fin (1 / 2))) ∧
    val (uEMin q) r = .ok (.fin 100 * m / k * (.fin 100 / (.fin 100 * m / k) * (s / k + .fin (1 / 2))) / .fin 100) ∧
    val (uESat q) r = .ok (.fin 100 * m / k * p / .fin 100) ∧
    val (SNRMax q) r = .ok (Fl.sqrt (.fin 100 * m / k * p / .fin 100)) ∧
    val (SNRMaxDB q) r = .ok (.fin 20 * Fl.logb 10 (Fl.sqrt (.fin 100 * m / k * p / .fin 100))) ∧
    val (SNRMaxBit q) r = .ok (Fl.logb 2 (Fl.sqrt (.fin 100 * m / k * p / .fin 100))) ∧
    val (inverseSNRMax q) r = .ok (.fin 100 / Fl.sqrt (.fin 100 * m / k * p / .fin 100)) ∧
    val (DR q) r = .ok (p / (.fin 100 / (.fin 100 * m / k) * (s / k + .fin (1 / 2)))) ∧
    val (DRDB q) r = .ok (.fin 20 * Fl.logb 10 (p / (.fin 100 / (.fin 100 * m / k) * (s / k + .fin (1 / 2))))) := by
  have sK := stable_K q
  have sR := stable_R q
  have sS := stable_sigmaYDark q
  have sP := stable_uPSat (F := ℝ)
  have sQ := stable_QE q
  have hQ : val (QE q) r = .ok (.fin 100 * m / k) := by
    unfold QE
    rw [val_bind_ok sR (by stab) hR, val_bind_ok sK (by stab) hK, val_pure]
  have sM := stable_uPMin q
  have hM : val (uPMin q) r = .ok (.fin 100 / (.fin 100 * m / k) * (s / k + .fin (1 / 2))) := by
    unfold uPMin
    rw [val_bind_ok sQ (by stab) hQ, val_bind_ok sS (by stab) hs, val_bind_ok sK (by stab) hK, val_pure]
  have sE := stable_uESat q
  have hE : val (uESat q) r = .ok (.fin 100 * m / k * p / .fin 100) := by
    unfold uESat
    rw [val_bind_ok sQ (by stab) hQ, val_bind_ok sP (by stab) hp, val_pure]
  have sN := stable_SNRMax q
  have hN : val (SNRMax q) r = .ok (Fl.sqrt (.fin 100 * m / k * p / .fin 100)) := by
    unfold SNRMax
    rw [val_bind_ok sE (by stab) hE, val_pure]
  have sD := stable_DR q
  have hD : val (DR q) r = .ok (p / (.fin 100 / (.fin 100 * m / k) * (s / k + .fin (1 / 2)))) := by
    unfold DR
    rw [val_bind_ok sP (by stab) hp, val_bind_ok sM (by stab) hM, val_pure]
  refine ⟨?_, hQ, ?_, hM, ?_, hE, hN, ?_, ?_, ?_, hD, ?_⟩
  · unfold inverseK
    rw [val_bind_ok sK (by stab) hK, val_pure]
  · unfold sigmaD
    rw [val_bind_ok sS (by stab) hs, val_bind_ok sK (by stab) hK, val_pure]
  · unfold uEMin
    rw [val_bind_ok sQ (by stab) hQ, val_bind_ok sM (by stab) hM, val_pure]
  · unfold SNRMaxDB
    rw [val_bind_ok sN (by stab) hN, val_pure]
  · unfold SNRMaxBit
    rw [val_bind_ok sN (by stab) hN, val_pure]
  · unfold inverseSNRMax
    rw [val_bind_ok sN (by stab) hN, val_pure]
  · unfold DRDB
    rw [val_bind_ok sD (by stab) hD, val_pure]

/-- C100: the figures of the datasheet are plausible exactly if gain, responsivity and saturation irradiation are positive. -/
theorem C100_plausible (q : LSQ ℝ) (hq : q.Good) (r : Res ℝ) (sd : List ℝ) (hsd : r.temporal.s2_ydark = sd.map .fin)
    (hl : r.temporal.texp.length = sd.length) (hne : sd ≠ []) (g m ps : ℝ) (hK : val (K q) r = .ok (.fin g))
    (hR : val (R q) r = .ok (.fin m)) (hP : val uPSat r = .ok (.fin ps)) :
    Plausible q r ↔ 0 < g ∧ 0 < m ∧ 0 < ps := by
  obtain ⟨v, σ, -, hs, hσ, -, h24, -⟩ := C31_lower_limit q hq r sd hsd hl hne
  have T := results_table q r hK hR hs hP
  constructor
  · intro h
    have hg : 0 < g := by
      obtain ⟨x, hx, h0⟩ := h.inverseK
      rw [T.1] at hx
      by_cases h1 : g = 0
      · rw [h1, Fl.fin_div_zero, if_neg one_ne_zero] at hx
        cases hx
      · rw [Fl.fin_div h1] at hx
        injection hx with hx; injection hx with hx
        rw [← hx] at h0
        exact one_div_pos.1 h0
    have hm : 0 < m := by
      obtain ⟨x, hx, h0⟩ := h.QE
      rw [T.2.1, Fl.fin_mul, Fl.fin_div hg.ne'] at hx
      injection hx with hx; injection hx with hx
      rw [← hx] at h0
      by_contra hc
      exact absurd h0 (not_lt.2 (div_nonpos_of_nonpos_of_nonneg (by linarith) hg.le))
    obtain ⟨x, hx, h0⟩ := h.uPSat
    rw [hP] at hx
    injection hx with hx; injection hx with hx
    exact ⟨hg, hm, hx ▸ h0⟩
  · rintro ⟨hg, hm, hps⟩
    obtain ⟨-, d, em, -, hd, hem, hd0, -, hem0⟩ := C31_consequences q hq r sd hsd hl hne g m hg hm hK hR
    obtain ⟨qe, pm, em', es, dr, snr, h1, h2, h3, h4, h5, h6, -, h7, h8, h9, -, h10, h11, -, h12, h13, h14, h15⟩ :=
      C30_consistency q r g m σ ps hg hm hσ.le hps.le hK hR hs hP
    obtain ⟨h16, h17, h18, h19⟩ := h15 hps
    have hes : 0 < es := by rw [h10]; positivity
    have hsnr : 0 < snr := by
      rcases h12.lt_or_eq with h | h
      · exact h
      · rw [← h] at h13; norm_num at h13; linarith
    have hem2 : 0 < em' := by rw [h9]; positivity
    exact ⟨⟨_, h14, by positivity⟩, ⟨_, h1, h7⟩, ⟨_, hs, hσ⟩, ⟨_, hd, hd0⟩, ⟨_, h2, h8⟩, ⟨_, h3, hem2⟩, ⟨_, hP, hps⟩,
      ⟨_, h4, hes⟩, ⟨_, h6, hsnr⟩, ⟨_, h16, by positivity⟩, ⟨_, h5, by rw [h11]; positivity⟩, ⟨_, h17⟩, ⟨_, h18⟩, ⟨_, h19⟩⟩

/-- C100: a measurement without response to light. -/
theorem C100_no_response (q : LSQ ℝ) (r : Res ℝ) (g s ps : ℝ) (hg : 0 < g) (hs0 : 0 ≤ s) (hps : 0 < ps)
    (hK : val (K q) r = .ok (.fin g)) (hR : val (R q) r = .ok (.fin 0)) (hs : val (sigmaYDark q) r = .ok (.fin s))
    (hP : val uPSat r = .ok (.fin ps)) :
    val (QE q) r = .ok (.fin 0) ∧ val (uPMin q) r = .ok (.inf false) ∧ val (uEMin q) r = .ok .nan ∧
    val (uESat q) r = .ok (.fin 0) ∧ val (SNRMax q) r = .ok (.fin 0) ∧ val (SNRMaxDB q) r = .ok (.inf true) ∧
    val (SNRMaxBit q) r = .ok (.inf true) ∧ val (inverseSNRMax q) r = .ok (.inf false) ∧ val (DR q) r = .ok (.fin 0) ∧
    val (DRDB q) r = .ok (.inf true) := by
  obtain ⟨-, h1, -, h2, h3, h4, h5, h6, h7, h8, h9, h10⟩ := results_table q r hK hR hs hP
  have e0 : (.fin 100 * .fin 0 / .fin g : Fl ℝ) = .fin 0 := by simp [Fl.fin_div hg.ne']
  have e1 : (.fin s / .fin g + .fin (1 / 2) : Fl ℝ) = .fin (s / g + 1 / 2) := by rw [Fl.fin_div hg.ne', Fl.fin_add]
  have hpos : 0 < s / g + 1 / 2 := by positivity
  have e2 : (.fin 100 / .fin 0 : Fl ℝ) = .inf false := by rw [Fl.fin_div_zero]; norm_num
  have e3 : (.inf false * .fin (s / g + 1 / 2) : Fl ℝ) = .inf false := by
    show (if s / g + 1 / 2 = 0 then Fl.nan else Fl.inf (xor false (decide (s / g + 1 / 2 < 0)))) = _
    rw [if_neg hpos.ne', decide_eq_false (not_lt.2 hpos.le)]; rfl
  have e4 : (.fin 0 * .fin ps / .fin 100 : Fl ℝ) = .fin 0 := by
    rw [Fl.fin_mul, Fl.fin_div (by norm_num)]; norm_num
  have e5 : Fl.sqrt (.fin 0) = .fin 0 := by rw [Fl.sqrt_fin le_rfl, Real.sqrt_zero]
  have e6 : ∀ b, Fl.logb b (.fin 0) = .inf true := fun b => by simp [Fl.logb]
  have e7 : (.fin 20 * .inf true : Fl ℝ) = .inf true := by
    show (if (20 : ℝ) = 0 then Fl.nan else Fl.inf (xor true (decide ((20 : ℝ) < 0)))) = _
    norm_num
  have e8 : (.fin ps / .inf false : Fl ℝ) = .fin 0 := rfl
  have e9 : (.fin 0 * .inf false : Fl ℝ) = .nan := by
    show (if (0 : ℝ) = 0 then Fl.nan else _) = _
    rw [if_pos rfl]
  rw [e0] at h1 h2 h3 h4 h5 h6 h7 h8 h9 h10
  rw [e1, e2, e3] at h2 h3 h9 h10
  rw [e4] at h4 h5 h6 h7 h8
  rw [e5] at h5 h6 h7 h8
  rw [e6] at h6 h7
  rw [e8] at h9 h10
  rw [e6] at h10
  exact ⟨h1, h2, by rw [h3, e9, Fl.nan_div], h4, h5, by rw [h6, e7], h7, by rw [h8, e2], h9, by rw [h10, e7]⟩

/-- C100: a measurement whose noise does not depend on the signal, although there is a signal. -/
theorem C100_no_gain (q : LSQ ℝ) (r : Res ℝ) (m s ps : ℝ) (hm : 0 < m) (hs0 : 24 / 100 ≤ s ^ 2) (hs1 : 0 < s) (hps : 0 < ps)
    (hK : val (K q) r = .ok (.fin 0)) (hR : val (R q) r = .ok (.fin m)) (hs : val (sigmaYDark q) r = .ok (.fin s))
    (hP : val uPSat r = .ok (.fin ps)) :
    val (inverseK q) r = .ok (.inf false) ∧ val (QE q) r = .ok (.inf false) ∧ val (sigmaD q) r = .ok (.inf false) ∧
    val (uPMin q) r = .ok .nan ∧ val (uEMin q) r = .ok .nan ∧ val (uESat q) r = .ok (.inf false) ∧
    val (SNRMax q) r = .ok (.inf false) ∧ val (SNRMaxDB q) r = .ok (.inf false) ∧ val (SNRMaxBit q) r = .ok (.inf false) ∧
    val (inverseSNRMax q) r = .ok (.fin 0) ∧ val (DR q) r = .ok .nan ∧ val (DRDB q) r = .ok .nan := by
  obtain ⟨h0, h1, hd, h2, h3, h4, h5, h6, h7, h8, h9, h10⟩ := results_table q r hK hR hs hP
  have div0 : ∀ x : ℝ, 0 < x → (.fin x / .fin 0 : Fl ℝ) = .inf false := fun x hx => by
    rw [Fl.fin_div_zero, if_neg hx.ne', decide_eq_false (not_lt.2 hx.le)]
  have e0 : (.fin 100 * .fin m / .fin 0 : Fl ℝ) = .inf false := by rw [Fl.fin_mul, div0 _ (by positivity)]
  have e2 : (.fin 100 / .inf false : Fl ℝ) = .fin 0 := rfl
  have e3 : (.fin s / .fin 0 + .fin (1 / 2) : Fl ℝ) = .inf false := by rw [div0 s hs1]; rfl
  have e4 : (.fin 0 * .inf false : Fl ℝ) = .nan := by
    show (if (0 : ℝ) = 0 then Fl.nan else _) = _
    rw [if_pos rfl]
  have e5 : (.inf false * .fin ps / .fin 100 : Fl ℝ) = .inf false := by
    have : (.inf false * .fin ps : Fl ℝ) = .inf false := by
      show (if ps = 0 then Fl.nan else Fl.inf (xor false (decide (ps < 0)))) = _
      rw [if_neg hps.ne', decide_eq_false (not_lt.2 hps.le)]; rfl
    rw [this]
    show Fl.inf (xor false (decide ((100 : ℝ) < 0))) = _
    norm_num
  have e6 : (.fin 20 * .inf false : Fl ℝ) = .inf false := by
    show (if (20 : ℝ) = 0 then Fl.nan else Fl.inf (xor false (decide ((20 : ℝ) < 0)))) = _
    norm_num
  have hv : (0 : ℝ) < s * s - 1 / 12 := by nlinarith
  rw [e0] at h1 h2 h3 h4 h5 h6 h7 h8 h9 h10
  rw [e2, e3, e4] at h2 h3 h9 h10
  rw [e5] at h4 h5 h6 h7 h8
  refine ⟨by rw [h0, div0 _ one_pos], h1, ?_, h2, ?_, h4, h5, ?_, h7, h8, ?_, ?_⟩
  · rw [hd, Fl.sq_fin, Fl.fin_sub, Fl.sqrt_fin hv.le, div0 _ (Real.sqrt_pos.2 hv)]
  · rw [h3, Fl.mul_nan, Fl.nan_div]
  · rw [h6]; exact congrArg _ e6
  · rw [h9, Fl.div_nan]
  · rw [h10, Fl.div_nan]; rfl

/-- C100: with a negative gain and a signal the SNR is `nan`, and the number of electrons at saturation is negative. -/
theorem C100_negative_gain (q : LSQ ℝ) (r : Res ℝ) (g m s ps : ℝ) (hg : g < 0) (hm : 0 < m) (hs0 : 24 / 100 ≤ s ^ 2) (hps : 0 < ps)
    (hK : val (K q) r = .ok (.fin g)) (hR : val (R q) r = .ok (.fin m)) (hs : val (sigmaYDark q) r = .ok (.fin s))
    (hP : val uPSat r = .ok (.fin ps)) :
    (∃ qe d es : ℝ, val (QE q) r = .ok (.fin qe) ∧ qe < 0 ∧ val (sigmaD q) r = .ok (.fin d) ∧ d < 0 ∧
      val (uESat q) r = .ok (.fin es) ∧ es < 0) ∧
    ∀ x ∈ [SNRMax q, SNRMaxDB q, SNRMaxBit q, inverseSNRMax q], val x r = .ok .nan := by
  obtain ⟨h0, h1, hd, -, -, h4, h5, h6, h7, h8, -, -⟩ := results_table q r hK hR hs hP
  have e0 : (.fin 100 * .fin m / .fin g : Fl ℝ) = .fin (100 * m / g) := by rw [Fl.fin_mul, Fl.fin_div hg.ne]
  have n0 : 100 * m / g < 0 := div_neg_of_pos_of_neg (by positivity) hg
  have n1 : 100 * m / g * ps / 100 < 0 := div_neg_of_neg_of_pos (mul_neg_of_neg_of_pos n0 hps) (by norm_num)
  have e1 : (.fin (100 * m / g) * .fin ps / .fin 100 : Fl ℝ) = .fin (100 * m / g * ps / 100) := by
    rw [Fl.fin_mul, Fl.fin_div (by norm_num)]
  have e2 : Fl.sqrt (.fin (100 * m / g * ps / 100)) = .nan := by
    show (if _ then _ else _) = _
    rw [if_pos n1]
  have hv : (0 : ℝ) < s * s - 1 / 12 := by nlinarith
  rw [e0] at h1 h4 h5 h6 h7 h8
  rw [e1] at h4 h5 h6 h7 h8
  rw [e2] at h5 h6 h7 h8
  refine ⟨⟨_, _, _, h1, n0, by rw [hd, Fl.sq_fin, Fl.fin_sub, Fl.sqrt_fin hv.le, Fl.fin_div hg.ne],
    div_neg_of_pos_of_neg (Real.sqrt_pos.2 hv) hg, h4, n1⟩, ?_⟩
  intro x hx
  simp only [List.mem_cons, List.not_mem_nil, or_false] at hx
  rcases hx with rfl | rfl | rfl | rfl
  · exact h5
  · rw [h6]; rfl
  · rw [h7]; rfl
  · rw [h8, Fl.div_nan]

/-- the squares of the errors of a line through zero over abscissas that are all zero -/
theorem residB0_zero (m : ℝ) (X Y : List ℝ) (hX : ∀ x ∈ X, x = 0) : residB0 m X Y = residB0 0 X Y := by
  unfold residB0
  induction X generalizing Y with
  | nil => rfl
  | cons x X ih =>
    cases Y with
    | nil => rfl
    | cons y Y =>
      simp only [List.zipWith_cons_cons]
      rw [ih Y fun z hz => hX z (by simp [hz]), hX x (by simp)]
      simp

/-- the exact solver with another value where every slope is as good as any other -/
noncomputable def biased (g : ℝ) : LSQ ℝ where
  b0 := fun X Y => if ∀ x ∈ X, x = .fin 0 then .fin g else (exactLSQ ℝ).b0 X Y
  b := (exactLSQ ℝ).b

theorem biased_good (g : ℝ) : (biased g).Good where
  b0 := by
    intro X Y h1 h2
    by_cases hX : ∀ x ∈ X, x = 0
    · refine ⟨g, if_pos (by simpa using hX), fun m' => ?_⟩
      rw [residB0_zero g X Y hX, residB0_zero m' X Y hX]
    · obtain ⟨m, e, hm⟩ := Fit.exactLSQ_good.b0 X Y h1 h2
      exact ⟨m, (if_neg (by simpa using hX)).trans e, hm⟩
  b := Fit.exactLSQ_good.b

theorem biased_keeps : KeepsStart (biased 1) := by
  intro X Y _ _ hX
  exact if_pos (by simpa using hX)

/-- a measurement without any signal: the fits use all the points -/
theorem capped_fits (q : LSQ ℝ) (r : Res ℝ) (uy sy sd : List ℝ) (h : DataOk r uy uy sy sd) (hne : uy ≠ []) (k : ℤ)
    (hk : val indexUysat r = .ok k) (hi : HasIndex uy k) :
    val (K q) r = .ok (q.b0 ((List.replicate uy.length (0 : ℝ)).map .fin) ((diff sy sd).map .fin)) ∧
    val (R q) r = .ok (q.b0 (r.temporal.u_p.map .fin) ((List.replicate uy.length (0 : ℝ)).map .fin)) := by
  have hd : diff uy uy = List.replicate uy.length 0 := by
    refine List.ext_getElem (by simp [diff]) fun i h1 h2 => ?_
    simp [diff]
  have hlen := List.length_pos_of_ne_nil hne
  have hys : AtIndex (diff uy uy) k 0 := by
    rw [hd]
    obtain ⟨h1, h2⟩ := hi
    by_cases h0 : 0 ≤ k
    · exact .inl ⟨h0, by rw [List.getElem?_replicate, if_pos (by omega)]⟩
    · exact .inr ⟨by omega, by rw [List.length_replicate]; omega, by
        rw [List.getElem?_replicate, if_pos (by rw [List.length_replicate]; omega)]⟩
  have hj : val indexSensitivityMax r = .ok (uy.length - 1) := by
    refine (((C25_sensitivity_max r uy uy h.u_y h.u_ydark rfl k hk).1 0 hys).1 _).2 ?_
    rw [hd]
    refine ⟨⟨0, by rw [List.getElem?_replicate, if_pos (by omega)], by norm_num⟩, fun j x hj hx => ?_⟩
    rw [List.getElem?_replicate, if_neg (by omega)] at hx
    cases hx
  have fit : ∀ X Y : List ℝ, X.length = uy.length → Y.length = uy.length →
      linearB0 q (X.map .fin) (Y.map .fin) = .ok (q.b0 (X.map .fin) (Y.map .fin)) := by
    intro X Y h1 h2
    simp only [linearB0, Np.bin, List.length_map, h1, h2, if_true, List.length_zipWith, min_self]
    rw [if_neg (by omega)]
  have e : uy.length - 1 + 1 = uy.length := by omega
  constructor
  · rw [val_K, signal_fin r uy uy h.u_y h.u_ydark rfl, h.s2_y, h.s2_ydark, bin_sub_fin sy sd (h.var.trans h.vard.symm), hj]
    simp only [except_bind_ok, Np.slice_zero, ← List.map_take, e]
    have l1 : (diff sy sd).length = uy.length := by simp [diff, h.var, h.vard]
    rw [hd, List.take_of_length_le (by simp), List.take_of_length_le l1.le, fit _ _ (by simp) l1]
  · rw [val_R, signal_fin r uy uy h.u_y h.u_ydark rfl, hj]
    simp only [except_bind_ok, Np.slice_zero, ← List.map_take, e]
    rw [hd, List.take_of_length_le h.photons.le, List.take_of_length_le (by simp), fit _ _ h.photons (by simp)]

/-- C100: if bright and dark images have the same means (a camera that delivers constant images, or a closed lens), the data do
not determine the gain: every number is the result of some solver of the fit. -/
theorem C100_undetermined (r : Res ℝ) (uy sy sd : List ℝ) (h : DataOk r uy uy sy sd) (hne : uy ≠ []) (k : ℤ)
    (hk : val indexUysat r = .ok k) (hi : HasIndex uy k) (g : ℝ) : ∃ q : LSQ ℝ, q.Good ∧ val (K q) r = .ok (.fin g) := by
  refine ⟨biased g, biased_good g, ?_⟩
  rw [(capped_fits (biased g) r uy sy sd h hne k hk hi).1]
  exact congrArg _ (if_pos (by simp))

/-- C100: what the datasheet says in that case, with a solver that begins at 1: gain 1, quantum efficiency 0, a dark noise that
looks like a measured one, and infinite or undefined thresholds. -/
theorem C100_capped (q : LSQ ℝ) (hq : q.Good) (hst : KeepsStart q) (r : Res ℝ) (uy sy sd : List ℝ) (h : DataOk r uy uy sy sd)
    (hne : uy ≠ []) (k : ℤ) (hk : val indexUysat r = .ok k) (ps : ℝ) (hps : AtIndex r.temporal.u_p k ps) (h0 : 0 < ps) :
    val (K q) r = .ok (.fin 1) ∧ val (inverseK q) r = .ok (.fin 1) ∧ val (R q) r = .ok (.fin 0) ∧
    (∃ v σ d, DarkVariance r.temporal.texp sd v ∧ val (sigmaYDark q) r = .ok (.fin σ) ∧ σ ^ 2 = max v 0.24 ∧ 0 < σ ∧
      val (sigmaD q) r = .ok (.fin d) ∧ 0 < d ∧ d ^ 2 = σ ^ 2 - 1 / 12) ∧
    val (QE q) r = .ok (.fin 0) ∧ val (uPMin q) r = .ok (.inf false) ∧ val (uEMin q) r = .ok .nan ∧
    val uPSat r = .ok (.fin ps) ∧ val (uESat q) r = .ok (.fin 0) ∧ val (SNRMax q) r = .ok (.fin 0) ∧
    val (SNRMaxDB q) r = .ok (.inf true) ∧ val (SNRMaxBit q) r = .ok (.inf true) ∧
    val (inverseSNRMax q) r = .ok (.inf false) ∧ val (DR q) r = .ok (.fin 0) ∧ val (DRDB q) r = .ok (.inf true) := by
  have hi : HasIndex uy k := by
    unfold HasIndex
    rw [← h.photons]
    rcases hps with ⟨h1, h2⟩ | ⟨h1, h2, h3⟩
    · have := (List.getElem?_eq_some_iff.1 h2).1
      omega
    · omega
  have hmem : ps ∈ r.temporal.u_p := by
    rcases hps with ⟨-, h2⟩ | ⟨-, -, h2⟩ <;> exact List.mem_of_getElem? h2
  obtain ⟨fK, fR⟩ := capped_fits q r uy sy sd h hne k hk hi
  have hl1 : (diff sy sd).length = uy.length := by simp [diff, h.var, h.vard]
  have hK : val (K q) r = .ok (.fin 1) := by
    rw [fK, hst _ _ (by simp [hl1]) (by simpa using hne) (by simp)]
  have hR : val (R q) r = .ok (.fin 0) := by
    obtain ⟨m, e1, -, e2⟩ := Fit.linearB0_fin hq r.temporal.u_p (List.replicate uy.length 0) (by simp [h.photons]) ⟨ps, hmem, h0.ne'⟩
    have hz : Fit.Sxy (r.temporal.u_p.zip (List.replicate uy.length (0 : ℝ))) = 0 := by
      unfold Fit.Sxy
      refine List.sum_eq_zero fun x hx => ?_
      rw [List.mem_map] at hx
      obtain ⟨p, hp, rfl⟩ := hx
      rw [List.eq_of_mem_replicate (List.of_mem_zip hp).2, mul_zero]
    rw [hz, zero_div] at e2
    rw [e2] at e1
    simp only [linearB0, Np.bin, List.length_map, h.photons, List.length_replicate, if_true, List.length_zipWith, min_self] at e1
    have hlen := List.length_pos_of_ne_nil hne
    rw [if_neg (by omega)] at e1
    rw [fR, e1]
  have hP : val uPSat r = .ok (.fin ps) := by
    unfold uPSat
    rw [val_bind_ok stable_temporal (by stab) rfl, val_bind_ok Stable.indexUysat (by stab) hk, (Np.idx_ok_iff _ _ _).2 hps]
    rfl
  have hsd : sd ≠ [] := fun e => hne (List.length_eq_zero_iff.1 (by rw [← h.vard, e]; rfl))
  obtain ⟨v, σ, hv, hs, hσ, hmax, h24, -⟩ := C31_lower_limit q hq r sd h.s2_ydark (h.texp.trans h.vard.symm) hsd
  obtain ⟨t0, -, td, -⟩ := results_table q r hK hR hs hP
  have hpos : (0 : ℝ) < σ * σ - 1 / 12 := by nlinarith
  obtain ⟨a1, a2, a3, a4, a5, a6, a7, a8, a9, a10⟩ := C100_no_response q r 1 σ ps one_pos hσ.le h0 hK hR hs hP
  refine ⟨hK, by rw [t0, Fl.fin_div one_ne_zero, div_one], hR, ⟨v, σ, Real.sqrt (σ * σ - 1 / 12), hv, hs, hmax, hσ, ?_,
    Real.sqrt_pos.2 hpos, by rw [Real.sq_sqrt hpos.le]; ring⟩, a1, a2, a3, hP, a4, a5, a6, a7, a8, a9, a10⟩
  rw [td, Fl.sq_fin, Fl.fin_sub, Fl.sqrt_fin hpos.le, Fl.fin_div one_ne_zero, div_one]

end Emva
