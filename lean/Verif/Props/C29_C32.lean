import Verif.Props.C21_C25_C26
import Verif.Props.C27_C28
import Mathlib.Analysis.SpecialFunctions.Pow.Real

/-!
C29-C32: gain, responsivity, quantum efficiency and the derived sensitivity figures.
-/
set_option autoImplicit false
set_option linter.unusedSectionVars false
namespace Emva
open Spec Data Results Fit
variable {F : Type} [Field F] [LinearOrder F] [IsStrictOrderedRing F]

theorem linearB0_exact {q : LSQ F} (hq : q.Good) (X Y : List F) (hl : X.length = Y.length) (m : F)
    (hx : ∃ x ∈ X, x ≠ 0) (h : ∀ p ∈ X.zip Y, p.2 = m * p.1) :
    linearB0 q (X.map .fin) (Y.map .fin) = .ok (.fin m) := by
  have : Y = X.map fun x => m * x := by
    clear hx
    induction X generalizing Y with
    | nil => cases Y with
      | nil => rfl
      | cons y Y => simp at hl
    | cons x X ih =>
      cases Y with
      | nil => simp at hl
      | cons y Y =>
        rw [List.map_cons, ← ih Y (by simpa using hl) fun p hp => h p (List.mem_cons_of_mem _ hp)]
        congr 1
        exact h (x, y) (List.mem_cons_self ..)
  rw [this]
  exact C27_exact q hq X m hx

theorem mem_zip_take {X Y : List F} {j : ℕ} {p : F × F} (h : p ∈ (X.take (j + 1)).zip (Y.take (j + 1))) :
    ∃ i ≤ j, X[i]? = some p.1 ∧ Y[i]? = some p.2 := by
  obtain ⟨i, hi⟩ := List.mem_iff_getElem?.1 h
  rw [List.getElem?_zip_eq_some] at hi
  have hlt : i < j + 1 := by
    by_contra hc
    rw [List.getElem?_take_eq_none (not_lt.1 hc)] at hi
    exact absurd hi.1 (by simp)
  rw [List.getElem?_take_of_lt hlt, List.getElem?_take_of_lt hlt] at hi
  exact ⟨i, by omega, hi⟩

theorem diff_length (a b : List F) (h : a.length = b.length) : (diff a b).length = a.length := by
  simp [diff, h]

theorem bin_sub_fin (a b : List F) (h : a.length = b.length) :
    Np.bin (· - ·) (a.map Fl.fin) (b.map Fl.fin) = .ok ((diff a b).map .fin) := by
  rw [Np.bin_eq_len _ _ _ (by simpa using h), diff]
  simp [List.zipWith_map, List.map_zipWith]

/-- C29: if up to `index_sensitivity_max` the dark-corrected signal is `K*η*photons`, the dark-corrected
variance is `K*signal`, `K > 0`, and some point of the range has a signal, then the results report
exactly `K`, `R = K*η` and `QE = 100*η`. -/
theorem C29_recovery (q : LSQ F) (hq : q.Good) (r : Res F) (uy ud sy sd : List F)
    (hu : r.temporal.u_y = uy.map .fin) (hd : r.temporal.u_ydark = ud.map .fin)
    (hsy : r.temporal.s2_y = sy.map .fin) (hsd : r.temporal.s2_ydark = sd.map .fin)
    (h1 : uy.length = ud.length) (h2 : sy.length = uy.length) (h3 : sd.length = uy.length)
    (h4 : r.temporal.u_p.length = uy.length)
    (j : ℕ) (hj : val indexSensitivityMax r = .ok j) (gain eta : F) (hgain : 0 < gain)
    (hsig : ∀ i ≤ j, ∀ y p, (diff uy ud)[i]? = some y → r.temporal.u_p[i]? = some p →
      y = gain * eta * p)
    (hvar : ∀ i ≤ j, ∀ y v, (diff uy ud)[i]? = some y → (diff sy sd)[i]? = some v → v = gain * y)
    (hpos : ∃ i ≤ j, ∃ y, (diff uy ud)[i]? = some y ∧ y ≠ 0) :
    val (K q) r = .ok (.fin gain) ∧ val (R q) r = .ok (.fin (gain * eta)) ∧
      val (QE q) r = .ok (.fin (100 * eta)) := by
  obtain ⟨i, hi, y, hy, hy0⟩ := hpos
  have hK : val (K q) r = .ok (.fin gain) := by
    rw [val_K, signal_fin r uy ud hu hd h1, hsy, hsd, bin_sub_fin sy sd (by omega), hj]
    simp only [except_bind_ok, Np.slice_zero, ← List.map_take]
    refine linearB0_exact hq _ _ ?_ gain ⟨y, ?_, hy0⟩ ?_
    · simp [diff_length _ _ h1, diff_length sy sd (by omega), h2]
    · exact List.mem_of_getElem? (i := i) (by rw [List.getElem?_take_of_lt (by omega)]; exact hy)
    · intro p hp
      obtain ⟨i, hi, e1, e2⟩ := mem_zip_take hp
      exact hvar i hi _ _ e1 e2
  have hR : val (R q) r = .ok (.fin (gain * eta)) := by
    rw [val_R, signal_fin r uy ud hu hd h1, hj]
    simp only [except_bind_ok, Np.slice_zero, ← List.map_take]
    have hlt : i < r.temporal.u_p.length := by
      have := (List.getElem?_eq_some_iff.1 hy).1
      rw [diff_length _ _ h1] at this; omega
    have hp := List.getElem?_eq_getElem hlt
    refine linearB0_exact hq _ _ ?_ (gain * eta) ⟨r.temporal.u_p[i], ?_, ?_⟩ ?_
    · simp [diff_length _ _ h1, h4]
    · exact List.mem_of_getElem? (i := i) (by rw [List.getElem?_take_of_lt (by omega)]; exact hp)
    · intro h0
      have := hsig i hi y _ hy hp
      rw [h0, mul_zero] at this
      exact hy0 this
    · intro p hp
      obtain ⟨i, hi, e1, e2⟩ := mem_zip_take hp
      exact hsig i hi _ _ e2 e1
  refine ⟨hK, hR, ?_⟩
  unfold QE
  rw [val_bind (stable_R q) (by have := stable_K q; stab), hR]
  simp only [except_bind_ok]
  rw [val_bind (stable_K q) (by stab), hK]
  simp only [except_bind_ok, val_pure, Fl.fin_mul]
  rw [Fl.fin_div hgain.ne']
  congr 2
  field_simp

/-! ### C30, C31 -/

theorem val_QE (q : LSQ F) (r : Res F) {k m : F} (hk : k ≠ 0) (hK : val (K q) r = .ok (.fin k))
    (hR : val (R q) r = .ok (.fin m)) : val (QE q) r = .ok (.fin (100 * m / k)) := by
  unfold QE
  rw [val_bind (stable_R q) (by have := stable_K q; stab), hR]
  simp only [except_bind_ok]
  rw [val_bind (stable_K q) (by stab), hK]
  simp only [except_bind_ok, val_pure, Fl.fin_mul]
  rw [Fl.fin_div hk]

theorem val_bind_ok {α β : Type} {x : M F α} {f : α → M F β} (hx : Stable x)
    (hf : ∀ a, Stable (f a)) {r : Res F} {a : α} (h : val x r = .ok a) :
    val (x >>= f) r = val (f a) r := by
  rw [val_bind hx hf, h]; rfl

/-- C30: for positive gain and responsivity the derived figures are mutually consistent. -/
theorem C30_consistency (q : LSQ ℝ) (r : Res ℝ) (k m σ ps : ℝ) (hk : 0 < k) (hm : 0 < m)
    (hσ : 0 ≤ σ) (hps : 0 ≤ ps) (hK : val (K q) r = .ok (.fin k)) (hR : val (R q) r = .ok (.fin m))
    (hs : val (sigmaYDark q) r = .ok (.fin σ)) (hp : val uPSat r = .ok (.fin ps)) :
    ∃ qe pm em es dr snr : ℝ,
      val (QE q) r = .ok (.fin qe) ∧ val (uPMin q) r = .ok (.fin pm) ∧
      val (uEMin q) r = .ok (.fin em) ∧ val (uESat q) r = .ok (.fin es) ∧
      val (DR q) r = .ok (.fin dr) ∧ val (SNRMax q) r = .ok (.fin snr) ∧
      qe = 100 * m / k ∧ 0 < qe ∧ 0 < pm ∧ em = σ / k + 1 / 2 ∧ em = qe / 100 * pm ∧
      es = qe / 100 * ps ∧ dr = ps / pm ∧ dr = es / em ∧ 0 ≤ snr ∧ snr ^ 2 = es ∧
      val (inverseK q) r = .ok (.fin (1 / k)) ∧
      (0 < ps →
        val (inverseSNRMax q) r = .ok (.fin (100 / snr)) ∧
        val (SNRMaxDB q) r = .ok (.fin (10 * Real.logb 10 es)) ∧
        val (SNRMaxBit q) r = .ok (.fin (Real.logb 2 es / 2)) ∧
        val (DRDB q) r = .ok (.fin (20 * Real.logb 10 dr))) := by
  have sQ := stable_QE q
  have sK := stable_K q
  have sS := stable_sigmaYDark q
  have sP := stable_uPMin q
  have sPs := stable_uPSat (F := ℝ)
  have sE := stable_uESat q
  have sN := stable_SNRMax q
  have hqe := val_QE q r hk.ne' hK hR
  have hqe0 : 0 < 100 * m / k := by positivity
  have hpm : val (uPMin q) r = .ok (.fin (100 / (100 * m / k) * (σ / k + 1 / 2))) := by
    unfold uPMin
    rw [val_bind_ok sQ (by stab) hqe, val_bind_ok sS (by stab) hs, val_bind_ok sK (by stab) hK,
      val_pure, Fl.fin_div hqe0.ne', Fl.fin_div hk.ne', Fl.fin_add, Fl.fin_mul]
  have hpm0 : 0 < 100 / (100 * m / k) * (σ / k + 1 / 2) := by positivity
  have hem : val (uEMin q) r = .ok (.fin (σ / k + 1 / 2)) := by
    unfold uEMin
    rw [val_bind_ok sQ (by stab) hqe, val_bind_ok sP (by stab) hpm, val_pure, Fl.fin_mul,
      Fl.fin_div (by norm_num)]
    congr 2; field_simp
  have hes : val (uESat q) r = .ok (.fin (100 * m / k * ps / 100)) := by
    unfold uESat
    rw [val_bind_ok sQ (by stab) hqe, val_bind_ok sPs (by stab) hp, val_pure, Fl.fin_mul,
      Fl.fin_div (by norm_num)]
  have hes0 : 0 ≤ 100 * m / k * ps / 100 := by positivity
  have hdr : val (DR q) r = .ok (.fin (ps / (100 / (100 * m / k) * (σ / k + 1 / 2)))) := by
    unfold DR
    rw [val_bind_ok sPs (by stab) hp, val_bind_ok sP (by stab) hpm, val_pure, Fl.fin_div hpm0.ne']
  have hsnr : val (SNRMax q) r = .ok (.fin (Real.sqrt (100 * m / k * ps / 100))) := by
    unfold SNRMax
    rw [val_bind_ok sE (by stab) hes, val_pure, Fl.sqrt_fin hes0]
  have hik : val (inverseK q) r = .ok (.fin (1 / k)) := by
    unfold inverseK
    rw [val_bind_ok sK (by stab) hK, val_pure, Fl.fin_div hk.ne']
  refine ⟨_, _, _, _, _, _, hqe, hpm, hem, hes, hdr, hsnr, rfl, hqe0, hpm0, rfl, ?_, ?_, rfl, ?_,
    Real.sqrt_nonneg _, Real.sq_sqrt hes0, hik, ?_⟩
  · field_simp
  · ring
  · field_simp
  · intro hps
    have hes0 : 0 < 100 * m / k * ps / 100 := by positivity
    have hsq0 := Real.sqrt_pos.2 hes0
    have hlog : ∀ b : ℝ, Real.logb b (Real.sqrt (100 * m / k * ps / 100))
        = Real.logb b (100 * m / k * ps / 100) / 2 := by
      intro b
      rw [Real.logb, Real.log_sqrt hes0.le, Real.logb]; ring
    refine ⟨?_, ?_, ?_, ?_⟩
    · unfold inverseSNRMax
      rw [val_bind_ok sN (by stab) hsnr, val_pure, Fl.fin_div hsq0.ne']
    · unfold SNRMaxDB
      rw [val_bind_ok sN (by stab) hsnr, val_pure, Fl.logb_fin _ hsq0, Fl.fin_mul, hlog]
      congr 2; ring
    · unfold SNRMaxBit
      rw [val_bind_ok sN (by stab) hsnr, val_pure, Fl.logb_fin _ hsq0, hlog]
    · unfold DRDB
      rw [val_bind_ok (stable_DR q) (by stab) hdr, val_pure,
        Fl.logb_fin _ (by positivity), Fl.fin_mul]

/-- The dark variance the standard prescribes: with at most two different exposure times the value of
the first point, otherwise the offset of the best line through dark variance against exposure. -/
def Spec.DarkVariance (texp sd : List F) (v : F) : Prop :=
  (texp.toFinset.card ≤ 2 ∧ sd[0]? = some v) ∨
  (2 < texp.toFinset.card ∧ ∃ m, BestLine (texp.zip sd) m v)

theorem nUnique_eq (l : List F) : Np.nUnique l = l.toFinset.card := (List.card_toFinset l).symm

theorem two_distinct {l : List F} (h : 2 < l.toFinset.card) : ∃ x ∈ l, ∃ x' ∈ l, x ≠ x' := by
  obtain ⟨x, hx, y, hy, hne⟩ := Finset.one_lt_card.1 (by omega : 1 < l.toFinset.card)
  exact ⟨x, by simpa using hx, y, by simpa using hy, hne⟩

theorem val_s2YDark (q : LSQ F) (hq : q.Good) (r : Res F) (sd : List F)
    (hsd : r.temporal.s2_ydark = sd.map .fin) (hl : r.temporal.texp.length = sd.length)
    (hne : sd ≠ []) :
    ∃ v, DarkVariance r.temporal.texp sd v ∧ val (s2YDark q) r = .ok (.fin (max v (24 / 100))) := by
  have key : ∀ v, val (rawDark q) r = .ok (.fin v) →
      val (s2YDark q) r = .ok (.fin (max v (24 / 100))) := by
    intro v hv
    unfold s2YDark
    rw [val_bind_ok (stable_rawDark q) (by stab) hv, val_pure]
    by_cases h : v < 24 / 100
    · rw [if_pos (by simpa using h), max_eq_right h.le]
    · rw [if_neg (by simpa using h), max_eq_left (not_lt.1 h)]
  by_cases hfew : Np.nUnique r.temporal.texp ≤ 2
  · obtain ⟨x, t, rfl⟩ := List.exists_cons_of_ne_nil hne
    refine ⟨x, .inl ⟨by rw [← nUnique_eq]; exact hfew, rfl⟩, key x ?_⟩
    unfold rawDark
    rw [val_bind_ok stable_few (by stab) rfl, val_bind_ok stable_temporal (by stab) rfl,
      if_pos (decide_eq_true hfew), val_lift, hsd]
    rfl
  · have h2 : 2 < r.temporal.texp.toFinset.card := by rw [← nUnique_eq]; omega
    obtain ⟨m, b, h1, hb⟩ := C28_best_line q hq r.temporal.texp sd hl (two_distinct h2)
    refine ⟨b, .inr ⟨h2, m, hb⟩, key b ?_⟩
    unfold rawDark
    rw [val_bind_ok stable_few (by stab) rfl, val_bind_ok stable_temporal (by stab) rfl,
      if_neg (by simpa using hfew), hsd, h1]
    rfl

/-- C31: the square of `sigma_y_dark` is the dark variance raised to at least 0.24; it is 0.24 exactly
when the measured dark variance is at most 0.24. -/
theorem C31_lower_limit (q : LSQ ℝ) (hq : q.Good) (r : Res ℝ) (sd : List ℝ)
    (hsd : r.temporal.s2_ydark = sd.map .fin) (hl : r.temporal.texp.length = sd.length)
    (hne : sd ≠ []) :
    ∃ v σ, DarkVariance r.temporal.texp sd v ∧ val (sigmaYDark q) r = .ok (.fin σ) ∧ 0 < σ ∧
      σ ^ 2 = max v 0.24 ∧ 0.24 ≤ σ ^ 2 ∧ (σ ^ 2 = 0.24 ↔ v ≤ 0.24) := by
  obtain ⟨v, hv, h⟩ := val_s2YDark q hq r sd hsd hl hne
  have e : (24 / 100 : ℝ) = 0.24 := by norm_num
  rw [e] at h
  have hpos : (0 : ℝ) < max v 0.24 := lt_of_lt_of_le (by norm_num) (le_max_right _ _)
  have hsq : Real.sqrt (max v 0.24) ^ 2 = max v 0.24 := Real.sq_sqrt hpos.le
  refine ⟨v, Real.sqrt (max v 0.24), hv, ?_, Real.sqrt_pos.2 hpos, hsq, ?_, ?_⟩
  · unfold sigmaYDark
    rw [val_bind_ok (stable_s2YDark q) (by stab) h, val_pure, Fl.sqrt_fin hpos.le]
  · rw [hsq]; exact le_max_right _ _
  · rw [hsq]; exact max_eq_right_iff

/-- C31: hence for positive gain `sigma_d` is a positive real number, the square root of
`sigma_y_dark^2 - 1/12` over the gain, and `u_e_min` exceeds one half. -/
theorem C31_consequences (q : LSQ ℝ) (hq : q.Good) (r : Res ℝ) (sd : List ℝ)
    (hsd : r.temporal.s2_ydark = sd.map .fin) (hl : r.temporal.texp.length = sd.length)
    (hne : sd ≠ []) (k m : ℝ) (hk : 0 < k) (hm : 0 < m) (hK : val (K q) r = .ok (.fin k))
    (hR : val (R q) r = .ok (.fin m)) :
    ∃ σ d em, val (sigmaYDark q) r = .ok (.fin σ) ∧ val (sigmaD q) r = .ok (.fin d) ∧
      val (uEMin q) r = .ok (.fin em) ∧ 0 < d ∧ (k * d) ^ 2 = σ ^ 2 - 1 / 12 ∧ 1 / 2 < em := by
  obtain ⟨v, σ, -, hs, hσ, -, h24, -⟩ := C31_lower_limit q hq r sd hsd hl hne
  have hpos : 0 < σ * σ - 1 / 12 := by nlinarith
  have sQ := stable_QE q
  have sK := stable_K q
  have sS := stable_sigmaYDark q
  have hqe := val_QE q r hk.ne' hK hR
  have hqe0 : 0 < 100 * m / k := by positivity
  have hpm : val (uPMin q) r = .ok (.fin (100 / (100 * m / k) * (σ / k + 1 / 2))) := by
    unfold uPMin
    rw [val_bind_ok sQ (by stab) hqe, val_bind_ok sS (by stab) hs, val_bind_ok sK (by stab) hK,
      val_pure, Fl.fin_div hqe0.ne', Fl.fin_div hk.ne', Fl.fin_add, Fl.fin_mul]
  have hem : val (uEMin q) r = .ok (.fin (σ / k + 1 / 2)) := by
    unfold uEMin
    rw [val_bind_ok sQ (by have := stable_uPMin q; stab) hqe,
      val_bind_ok (stable_uPMin q) (by stab) hpm, val_pure, Fl.fin_mul,
      Fl.fin_div (by norm_num)]
    congr 2; field_simp
  refine ⟨σ, Real.sqrt (σ * σ - 1 / 12) / k, _, hs, ?_, hem, ?_, ?_, ?_⟩
  · unfold sigmaD
    rw [val_bind_ok sS (by stab) hs, val_bind_ok sK (by stab) hK, val_pure, Fl.sq_fin, Fl.fin_sub,
      Fl.sqrt_fin hpos.le, Fl.fin_div hk.ne']
  · exact div_pos (Real.sqrt_pos.2 hpos) hk
  · rw [mul_div_cancel₀ _ hk.ne', Real.sq_sqrt hpos.le]; ring
  · have : 0 < σ / k := by positivity
    linarith

/-! ### C32 -/

theorem val_perArea (x : M F (Fl F)) (hx : Stable x) (r : Res F) :
    (r.pixel_area = none → val (perArea x) r = .ok .none) ∧
    (r.pixel_area = some 0 → val (perArea x) r = .ok .none) ∧
    (∀ a, r.pixel_area = some a → a ≠ 0 →
      val (perArea x) r = (val x r).map fun v => .num (v / .fin a)) := by
  have h : val (perArea x) r = val (match r.pixel_area with
      | none => pure .none
      | some a => if a = 0 then pure .none else do
        let v ← x
        pure (.num (v / .fin a))) r := by
    unfold perArea
    rw [val_bind_ok stable_area (by stab) rfl]
    rfl
  refine ⟨fun e => by rw [h, e]; rfl, fun e => by rw [h, e]; simp only [if_true]; rfl,
    fun a e ha => ?_⟩
  rw [h, e]
  simp only [if_neg ha]
  rw [val_bind hx (by stab)]
  simp only [val_pure]
  cases val x r <;> rfl

/-- C32: each of the four figures per area is `None` when no pixel area (or 0) is given, and the plain
figure divided by the pixel area otherwise (an exception of the plain figure is passed on). -/
theorem C32_area (q : LSQ ℝ) (r : Res ℝ) :
    (r.pixel_area = none ∨ r.pixel_area = some 0 →
      val (uPMinArea q) r = .ok .none ∧ val (uEMinArea q) r = .ok .none ∧
      val uPSatArea r = .ok .none ∧ val (uESatArea q) r = .ok .none) ∧
    (∀ a, r.pixel_area = some a → a ≠ 0 →
      (∀ v, val (uPMin q) r = .ok v → val (uPMinArea q) r = .ok (.num (v / .fin a))) ∧
      (∀ v, val (uEMin q) r = .ok v → val (uEMinArea q) r = .ok (.num (v / .fin a))) ∧
      (∀ v, val uPSat r = .ok v → val uPSatArea r = .ok (.num (v / .fin a))) ∧
      (∀ v, val (uESat q) r = .ok v → val (uESatArea q) r = .ok (.num (v / .fin a))) ∧
      val (uPMinArea q) r ≠ .ok .none ∧ val (uEMinArea q) r ≠ .ok .none ∧
      val uPSatArea r ≠ .ok .none ∧ val (uESatArea q) r ≠ .ok .none) := by
  have A := val_perArea (uPMin q) (stable_uPMin q) r
  have B := val_perArea (uEMin q) (stable_uEMin q) r
  have C := val_perArea uPSat stable_uPSat r
  have D := val_perArea (uESat q) (stable_uESat q) r
  constructor
  · rintro (h | h)
    · exact ⟨A.1 h, B.1 h, C.1 h, D.1 h⟩
    · exact ⟨A.2.1 h, B.2.1 h, C.2.1 h, D.2.1 h⟩
  · intro a ha h0
    have A := A.2.2 a ha h0
    have B := B.2.2 a ha h0
    have C := C.2.2 a ha h0
    have D := D.2.2 a ha h0
    refine ⟨fun v h => ?_, fun v h => ?_, fun v h => ?_, fun v h => ?_, ?_, ?_, ?_, ?_⟩
    · rw [uPMinArea, A, h]; rfl
    · rw [uEMinArea, B, h]; rfl
    · rw [uPSatArea, C, h]; rfl
    · rw [uESatArea, D, h]; rfl
    · rw [uPMinArea, A]; cases val (uPMin q) r <;> simp [Except.map]
    · rw [uEMinArea, B]; cases val (uEMin q) r <;> simp [Except.map]
    · rw [uPSatArea, C]; cases val uPSat r <;> simp [Except.map]
    · rw [uESatArea, D]; cases val (uESat q) r <;> simp [Except.map]

/-! ### cases meeting the hypotheses -/

/-- ideal data with gain 1/10 and quantum efficiency 1/2 -/
def sampleIdeal (F : Type) [Field F] [LinearOrder F] : Res F where
  temporal := ⟨[1, 2, 3, 4, 5], [0, 100, 200, 300, 400],
    [10, 15, 20, 25, 27].map .fin, [1, 1 + 1 / 2, 2, 2 + 1 / 2, 1].map .fin,
    [10, 10, 10, 10, 10].map .fin, [1, 1, 1, 1, 1].map .fin⟩
  spatial := ⟨1, 30, ⟨3, 4, fun _ _ => 10, .fin 2, 4, 3, 4, .fin 5, .fin 10, .fin 1, .fin (1/2)⟩,
    ⟨3, 4, fun _ _ => 10, .fin 4, 4, 3, 4, .fin 9, .fin 50, .fin 3, .fin 2⟩⟩
  pixel_area := some 4
  index_u_ysat := none

example : val indexUysat (sampleIdeal ℚ) = .ok 3 ∧ val indexSensitivityMax (sampleIdeal ℚ) = .ok 2 ∧
    val (K (exactLSQ ℚ)) (sampleIdeal ℚ) = .ok (.fin (1 / 10)) ∧
    val (R (exactLSQ ℚ)) (sampleIdeal ℚ) = .ok (.fin (1 / 10 * (1 / 2))) ∧
    val (QE (exactLSQ ℚ)) (sampleIdeal ℚ) = .ok (.fin 50) := by decide +kernel

example : val uPSatArea (sampleIdeal ℚ) = .ok (.num (.fin 75)) := by decide +kernel
example : val (s2YDark (exactLSQ ℚ)) (sampleIdeal ℚ) = .ok (.fin 1) := by decide +kernel

end Emva
