import Verif.Props.C97
import Mathlib.Analysis.Complex.ExponentialBounds

/-!
C97: the results in decibel and bit in floating point arithmetic.
-/
set_option autoImplicit false
namespace Emva
open Spec Data Results Fit

/-- logarithms of numbers with a relative error -/
theorem log_near {s s' e : ℝ} (hs : 0 < s) (he : e < 1) (h : |s' - s| ≤ e * s) :
    0 < s' ∧ |Real.log s' - Real.log s| ≤ e / (1 - e) := by
  obtain ⟨h1, h2⟩ := abs_le.1 h
  have he0 : 0 ≤ e := by
    by_contra hc
    exact absurd ((abs_nonneg _).trans h) (not_le.2 (mul_neg_of_neg_of_pos (not_le.1 hc) hs))
  have hq : 0 < 1 - e := by linarith
  have hlow : (1 - e) * s ≤ s' := by linarith
  have hs' : 0 < s' := lt_of_lt_of_le (mul_pos hq hs) hlow
  refine ⟨hs', ?_⟩
  have a1 := Real.log_le_sub_one_of_pos (div_pos hs' hs)
  have a2 := Real.log_le_sub_one_of_pos (div_pos hs hs')
  rw [Real.log_div hs'.ne' hs.ne'] at a1
  rw [Real.log_div hs.ne' hs'.ne'] at a2
  have b1 : s' / s - 1 ≤ e := by
    rw [sub_le_iff_le_add, div_le_iff₀ hs]; linarith
  have b2 : s / s' - 1 ≤ e / (1 - e) := by
    have e1 : e / (1 - e) = 1 / (1 - e) - 1 := by field_simp; ring
    rw [e1]
    refine sub_le_sub_right ?_ 1
    rw [div_le_div_iff₀ hs' hq]; linarith
  have b3 : e ≤ e / (1 - e) := by
    rw [le_div_iff₀ hq]
    have := mul_nonneg he0 he0
    linarith
  rw [abs_le]
  constructor <;> linarith

theorem log10_gt : (20 : ℝ) / 9 < Real.log 10 := by
  have h : (2 : ℝ) ^ 33 ≤ 10 ^ 10 := by norm_num
  have h1 := Real.log_le_log (by norm_num) h
  rw [Real.log_pow, Real.log_pow] at h1
  have h2 := Real.log_two_gt_d9
  norm_num at h1 h2
  linarith

section
variable {u : ℝ} (R : Rounding u) {w : ℝ} (lg : RLog w)

/-- the computed logarithm -/
theorem flog_near (B c : ℝ) (hB : 1 < B) (hc : 1 ≤ c * Real.log B) {s s' e : ℝ} (hs : 0 < s) (he : e < 1) (h : |s' - s| ≤ e * s)
    (hw : 0 ≤ w) :
    Rounded.flog lg B (.fin s') = .fin (lg.log B s') ∧ Fl.logb B (.fin s) = .fin (Real.logb B s) ∧
      |lg.log B s' - Real.logb B s| ≤ (1 + w) * (c * (e / (1 - e))) + w * |Real.logb B s| := by
  obtain ⟨hs', hl⟩ := log_near hs he h
  refine ⟨by simp only [Rounded.flog]; rw [if_pos hs'], Fl.logb_fin B hs, ?_⟩
  have hL : 0 < Real.log B := Real.log_pos hB
  have h1 : |Real.logb B s' - Real.logb B s| ≤ c * (e / (1 - e)) := by
    rw [Real.logb, Real.logb, ← sub_div, abs_div, abs_of_pos hL, div_le_iff₀ hL]
    have h0 := (abs_nonneg _).trans hl
    have := mul_le_mul_of_nonneg_right hc h0
    linarith
  have h2 := lg.err B s' hs'
  have h3 := abs_add_le (lg.log B s' - Real.logb B s') (Real.logb B s' - Real.logb B s)
  rw [sub_add_sub_cancel] at h3
  have h4 := abs_add_le (Real.logb B s' - Real.logb B s) (Real.logb B s)
  rw [sub_add_cancel] at h4
  have h5 := mul_le_mul_of_nonneg_left (h4.trans (by linarith : _ ≤ c * (e / (1 - e)) + |Real.logb B s|)) hw
  linarith

/-- twenty times the computed logarithm -/
theorem db_near {s s' e : ℝ} (hs : 0 < s) (he : e < 1) (h : |s' - s| ≤ e * s) (hw : 0 ≤ w) :
    ∃ v, Rounded.rd R (.fin 20 * Rounded.flog lg 10 (.fin s')) = .fin v ∧
      |v - 20 * Real.logb 10 s| ≤ (1 + u) * (1 + w) * (9 * (e / (1 - e))) + ((1 + u) * (1 + w) - 1) * |20 * Real.logb 10 s| := by
  obtain ⟨e1, -, h1⟩ := flog_near lg 10 (9 / 20) (by norm_num) (by linarith [log10_gt]) hs he h hw
  refine ⟨R.rnd (20 * lg.log 10 s'), by rw [e1]; rfl, ?_⟩
  have h0 := R.u_nonneg
  have h2 := R.err (20 * lg.log 10 s')
  generalize Real.logb 10 s = x at *
  generalize lg.log 10 s' = L at *
  generalize e / (1 - e) = d at *
  have h3 := abs_add_le (R.rnd (20 * L) - 20 * L) (20 * L - 20 * x)
  rw [sub_add_sub_cancel, ← mul_sub, abs_mul 20 (L - x)] at h3
  rw [abs_mul 20 L] at h2
  have h4 := abs_add_le (L - x) x
  rw [sub_add_cancel] at h4
  rw [abs_mul 20 x]
  have a20 : |(20 : ℝ)| = 20 := abs_of_pos (by norm_num)
  rw [a20] at h2 h3 ⊢
  have h5 : u * (20 * |L|) ≤ u * (20 * ((1 + w) * (9 / 20 * d) + w * |x| + |x|)) :=
    mul_le_mul_of_nonneg_left (by linarith) h0
  linarith

variable (q' q : LSQ ℝ)

/-- C97: `SNR_max_dB` in floating point, from the relative error `e` of `SNR_max` (C95). -/
theorem C97_snr_db (r : Res ℝ) (e : ℝ) (h : RelError e (val (Rounded.SNRMax R q') r) (val (SNRMax q) r)) (he : e < 1) (s : ℝ)
    (hs : val (SNRMax q) r = .ok (.fin s)) (hs0 : 0 < s) (hw : 0 ≤ w) :
    ∃ v', val (SNRMaxDB q) r = .ok (.fin (20 * Real.logb 10 s)) ∧ val (Rounded.SNRMaxDB R q' lg) r = .ok (.fin v') ∧
      |v' - 20 * Real.logb 10 s| ≤ (1 + u) * (1 + w) * (9 * (e / (1 - e))) + ((1 + u) * (1 + w) - 1) * |20 * Real.logb 10 s| := by
  obtain ⟨s', s0, e1, e2, -, e3⟩ := h
  rw [hs] at e2
  cases e2
  obtain ⟨v, ev, hv⟩ := db_near R lg hs0 he e3 hw
  refine ⟨v, ?_, ?_, hv⟩
  · unfold SNRMaxDB
    rw [val_bind_ok (stable_SNRMax q) (by stab) hs, val_pure, Fl.logb_fin 10 hs0]
    rfl
  · unfold Rounded.SNRMaxDB
    rw [val_bind_ok (Rounded.stable_SNRMax R q') (by stab) e1, val_pure, ev]

/-- C97: `SNR_max_bit` in floating point. -/
theorem C97_snr_bit (r : Res ℝ) (e : ℝ) (h : RelError e (val (Rounded.SNRMax R q') r) (val (SNRMax q) r)) (he : e < 1) (s : ℝ)
    (hs : val (SNRMax q) r = .ok (.fin s)) (hs0 : 0 < s) (hw : 0 ≤ w) :
    ∃ v', val (SNRMaxBit q) r = .ok (.fin (Real.logb 2 s)) ∧ val (Rounded.SNRMaxBit R q' lg) r = .ok (.fin v') ∧
      |v' - Real.logb 2 s| ≤ (1 + w) * (3 / 2 * (e / (1 - e))) + w * |Real.logb 2 s| := by
  obtain ⟨s', s0, e1, e2, -, e3⟩ := h
  rw [hs] at e2
  cases e2
  obtain ⟨f1, f2, hv⟩ := flog_near lg 2 (3 / 2) (by norm_num) (by
    have := Real.log_two_gt_d9
    norm_num at this
    linarith) hs0 he e3 hw
  refine ⟨_, ?_, ?_, hv⟩
  · unfold SNRMaxBit
    rw [val_bind_ok (stable_SNRMax q) (by stab) hs, val_pure, f2]
  · unfold Rounded.SNRMaxBit
    rw [val_bind_ok (Rounded.stable_SNRMax R q') (by stab) e1, val_pure, f1]

/-- C97: `DR_dB` in floating point. -/
theorem C97_dr_db (r : Res ℝ) (e : ℝ) (h : RelError e (val (Rounded.DR R q') r) (val (DR q) r)) (he : e < 1) (s : ℝ)
    (hs : val (DR q) r = .ok (.fin s)) (hs0 : 0 < s) (hw : 0 ≤ w) :
    ∃ v', val (DRDB q) r = .ok (.fin (20 * Real.logb 10 s)) ∧ val (Rounded.DRDB R q' lg) r = .ok (.fin v') ∧
      |v' - 20 * Real.logb 10 s| ≤ (1 + u) * (1 + w) * (9 * (e / (1 - e))) + ((1 + u) * (1 + w) - 1) * |20 * Real.logb 10 s| := by
  obtain ⟨s', s0, e1, e2, -, e3⟩ := h
  rw [hs] at e2
  cases e2
  obtain ⟨v, ev, hv⟩ := db_near R lg hs0 he e3 hw
  refine ⟨v, ?_, ?_, hv⟩
  · unfold DRDB
    rw [val_bind_ok (stable_DR q) (by stab) hs, val_pure, Fl.logb_fin 10 hs0]
    rfl
  · unfold Rounded.DRDB
    rw [val_bind_ok (show Stable (Rounded.DR R q') by have := Rounded.stable_uPMin R q'; have := stable_uPSat (F := ℝ); unfold Rounded.DR; stab) (by stab) e1, val_pure, ev]

end
end Emva
