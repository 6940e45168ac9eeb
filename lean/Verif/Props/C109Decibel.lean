import Verif.Props.C109Fit
import Verif.Props.C97Decibel

/-!
C109: the logarithmic results in float64 with its limits.
-/
set_option autoImplicit false
namespace Emva
open Spec Data Results Rounding

/-- a float is 1 or not next to 1 -/
theorem float_gap {x : ℝ} (hx : ∃ y, x = b64 y) (h0 : 0 < x) : x = 1 ∨ (2 : ℝ) ^ (-54 : ℤ) ≤ |x - 1| := by
  rcases le_or_gt x (1 / 2) with h | h
  · right
    rw [abs_of_nonpos (by linarith)]
    exact le_trans (by norm_num : (2 : ℝ) ^ (-54 : ℤ) ≤ 1 / 2) (by linarith)
  obtain ⟨y, rfl⟩ := hx
  have e : |b64 y - y| ≤ 1 / 100 * |y| :=
    (binary64.err y).trans (mul_le_mul_of_nonneg_right (by norm_num) (abs_nonneg _))
  have hy : (2 : ℝ) ^ (-2 : ℤ) ≤ |y| := by
    have h1 : (2 : ℝ) ^ (-2 : ℤ) = 1 / 4 := by norm_num
    rw [h1]
    have := abs_add_le (b64 y - y) y
    rw [sub_add_cancel, abs_of_pos h0] at this
    linarith [abs_nonneg y]
  obtain ⟨m, hm⟩ : ∃ m : ℤ, |y| ≤ 2 ^ m := by
    obtain ⟨n, hn⟩ := pow_unbounded_of_one_lt |y| (by norm_num : (1 : ℝ) < 2)
    exact ⟨n, by rw [zpow_natCast]; exact hn.le⟩
  obtain ⟨⟨n, hn⟩, -⟩ := tame_b64 (k := 2) (.inr hy) hm
  rw [show (-(2 + 52) : ℤ) = -54 by norm_num] at hn
  have e1 : b64 y - 1 = ((n - 2 ^ 54 : ℤ) : ℝ) * 2 ^ (-54 : ℤ) := by
    rw [hn]; push_cast; rw [sub_mul]; norm_num
  rcases eq_or_ne (n - 2 ^ 54) 0 with hz | hz
  · left
    rw [hz, Int.cast_zero, zero_mul] at e1
    linarith
  · right
    rw [e1, abs_mul, abs_of_pos (two_pos_zpow (-54))]
    have : (1 : ℝ) ≤ |((n - 2 ^ 54 : ℤ) : ℝ)| := by
      rw [← Int.cast_abs]
      exact_mod_cast Int.one_le_abs hz
    exact le_mul_of_one_le_left (two_pos_zpow _).le this

theorem log_low {x δ : ℝ} (h0 : 0 < x) (hδ : 0 ≤ δ) (hδ1 : δ ≤ 1) (h : δ ≤ |x - 1|) : δ / 2 ≤ |Real.log x| := by
  rcases le_or_gt 1 x with h1 | h1
  · rw [abs_of_nonneg (by linarith)] at h
    have a := Real.one_sub_inv_le_log_of_pos h0
    have b : x⁻¹ ≤ 1 - δ / 2 := by
      rw [inv_le_comm₀ h0 (by linarith)]
      refine le_trans ?_ (show 1 + δ ≤ x by linarith)
      rw [inv_le_iff_one_le_mul₀ (by linarith)]
      nlinarith
    exact le_trans (by linarith) (le_abs_self _)
  · rw [abs_of_neg (by linarith)] at h
    have a := Real.log_le_sub_one_of_pos h0
    exact le_trans (by linarith) (neg_le_abs _)

theorem log_high {a : ℕ} {x : ℝ} (h : Mag a x) : |Real.log x| ≤ a := by
  have h2 : Real.log 2 ≤ 1 := by
    have := Real.log_le_sub_one_of_pos (show (0 : ℝ) < 2 by norm_num)
    linarith
  have up : ∀ {y : ℝ}, 0 < y → y ≤ 2 ^ (a : ℤ) → Real.log y ≤ a := by
    intro y hy hle
    have := Real.log_le_log hy hle
    rw [Real.log_zpow] at this
    have h3 := mul_le_mul_of_nonneg_left h2 (Nat.cast_nonneg (α := ℝ) a)
    push_cast at this
    linarith
  have u1 := up h.pos h.le
  have u2 := up h.inv.pos h.inv.le
  rw [Real.log_inv] at u2
  exact _root_.abs_le.2 ⟨by linarith, u1⟩

/-- twenty times the logarithm of a float -/
theorem db_same {w : ℝ} (lg : RLog w) (hw : w ≤ 1 / 2) {x : ℝ} (hx : ∃ y, x = b64 y) (h : Mag (800 : ℕ) x) :
    rounded (.fin 20 * Rounded.flog lg 10 (.fin x)) = Rounded.rd binary64 (.fin 20 * Rounded.flog lg 10 (.fin x)) := by
  have e : Rounded.flog lg 10 (.fin x) = .fin (lg.log 10 x) := if_pos h.pos
  rw [e, Fl.fin_mul]
  have err := lg.err 10 x h.pos
  have t1 : (1 : ℝ) ≤ Real.log 10 := by linarith [log10_gt]
  have t2 : Real.log 10 ≤ 9 := by
    have := Real.log_le_sub_one_of_pos (show (0 : ℝ) < 10 by norm_num)
    linarith
  have hl : |Real.logb 10 x| = |Real.log x| / Real.log 10 := by
    rw [Real.logb, abs_div, abs_of_pos (show 0 < Real.log 10 by linarith)]
  have hi : |Real.logb 10 x| ≤ 800 := by
    rw [hl, div_le_iff₀ (by linarith)]
    have := log_high h
    push_cast at this
    linarith
  have hL1 : |lg.log 10 x| ≤ 1200 := by
    have := abs_add_le (lg.log 10 x - Real.logb 10 x) (Real.logb 10 x)
    rw [sub_add_cancel] at this
    have h3 := mul_le_mul_of_nonneg_right hw (abs_nonneg (Real.logb 10 x))
    linarith
  refine f64_eq ?_ ?_
  · rcases float_gap hx h.pos with rfl | hg
    · left
      rw [Real.logb_one, abs_zero, mul_zero, sub_zero] at err
      rw [abs_eq_zero.1 (le_antisymm err (abs_nonneg _)), mul_zero]
    · right
      have lo := log_low h.pos (two_pos_zpow (-54)).le (by norm_num) hg
      have lo2 : (2 : ℝ) ^ (-54 : ℤ) / 18 ≤ |Real.logb 10 x| := by
        rw [hl, le_div_iff₀ (by linarith)]
        refine le_trans ?_ lo
        have := mul_le_mul_of_nonneg_left t2 (show (0 : ℝ) ≤ 2 ^ (-54 : ℤ) / 18 by have := two_pos_zpow (-54); positivity)
        linarith
      have h3 := mul_le_mul_of_nonneg_right hw (abs_nonneg (Real.logb 10 x))
      have h4 := abs_add_le (Real.logb 10 x - lg.log 10 x) (lg.log 10 x)
      rw [sub_add_cancel, abs_sub_comm] at h4
      have h5 : (2 : ℝ) ^ (-54 : ℤ) / 36 ≤ |lg.log 10 x| := by linarith
      rw [abs_mul, abs_of_pos (show (0 : ℝ) < 20 by norm_num)]
      refine (two_zpow_mono (show (-1022 : ℤ) ≤ -55 by norm_num)).trans ?_
      have : (2 : ℝ) ^ (-55 : ℤ) = 2 ^ (-54 : ℤ) / 2 := by norm_num
      rw [this]
      linarith [two_pos_zpow (-54)]
  · rw [abs_mul, abs_of_pos (show (0 : ℝ) < 20 by norm_num)]
    refine le_trans ?_ (two_zpow_mono (show (15 : ℤ) ≤ 1023 by norm_num))
    have : (2 : ℝ) ^ (15 : ℤ) = 32768 := by norm_num
    rw [this]
    linarith

/-- a result of float64 that is not tiny is rounded as without limits -/
theorem rounded_float {X : Fl ℝ} {z : ℝ} (h : rounded X = .fin z) (hz : (2 : ℝ) ^ (-1021 : ℤ) ≤ z) : ∃ y, z = b64 y := by
  cases X with
  | nan => cases h
  | inf s => cases h
  | fin x =>
    refine ⟨x, ?_⟩
    have h' : f64 x = .fin z := h
    unfold f64 at h'
    split at h'
    · cases h'
    have e := Fl.fin_injective h'
    have z0 : 0 < z := (two_pos_zpow _).trans_le hz
    have x0 : x ≠ 0 := by
      rintro rfl
      rw [zero_div, show nearestEven 0 = 0 by simpa using nearestEven_int 0, Int.cast_zero, zero_mul] at e
      exact z0.ne e
    rcases le_or_gt ((2 : ℝ) ^ (-1074 : ℤ)) (ulp x) with hu | hu
    · have : ulp64 x = ulp x := max_eq_left hu
      rw [← e, this, b64, if_neg x0]
    · exfalso
      have : ulp64 x = 2 ^ (-1074 : ℤ) := max_eq_right hu.le
      rw [this] at e
      have hlog : Int.log 2 |x| < -1022 := by
        unfold ulp at hu
        have := (zpow_lt_zpow_iff_right₀ (by norm_num : (1 : ℝ) < 2)).1 hu
        omega
      have hx : |x| < 2 ^ (-1022 : ℤ) := by
        have := Int.lt_zpow_succ_log_self (b := 2) one_lt_two |x|
        push_cast at this
        exact this.trans_le (two_zpow_mono (by omega))
      have hn := nearestEven_err (x / 2 ^ (-1074 : ℤ))
      have p0 := two_pos_zpow (-1074)
      have h1 : |z - x| ≤ 1 / 2 * 2 ^ (-1074 : ℤ) := by
        have : z - x = (nearestEven (x / 2 ^ (-1074 : ℤ)) - x / 2 ^ (-1074 : ℤ)) * 2 ^ (-1074 : ℤ) := by
          rw [sub_mul, e, div_mul_cancel₀ _ p0.ne']
        rw [this, abs_mul, abs_of_pos p0]
        exact mul_le_mul_of_nonneg_right hn p0.le
      have h2 := abs_add_le (z - x) x
      rw [sub_add_cancel, abs_of_pos z0] at h2
      have h3 : (2 : ℝ) ^ (-1021 : ℤ) = 2 ^ (-1022 : ℤ) * 2 := by
        rw [← zpow_add_one₀ (by norm_num)]; norm_num
      have h4 : (2 : ℝ) ^ (-1074 : ℤ) ≤ 2 ^ (-1022 : ℤ) := two_zpow_mono (by norm_num)
      rw [h3] at hz
      clear h3 hn e hu this hlog h' h
      generalize (2 : ℝ) ^ (-1022 : ℤ) = A at *
      generalize (2 : ℝ) ^ (-1074 : ℤ) = C at *
      linarith only [hz, h1, h2, h4, hx, abs_nonneg x]

theorem mag_close {s s' e : ℝ} (s1 : 1 / 2 ^ 700 ≤ s) (s2 : s ≤ 2 ^ 700) (he : e ≤ 1 / 2) (h : |s' - s| ≤ e * s) : Mag (800 : ℕ) s' := by
  have hs : 0 ≤ s := le_trans (by positivity) s1
  have h' := _root_.abs_le.1 (h.trans (mul_le_mul_of_nonneg_right he hs))
  have m : Mag (701 : ℕ) s' := Mag.ofBounds 701 (by rw [pow_succ (2 : ℝ) 700, ← div_div]; linarith only [h'.1, s1])
    (by rw [pow_succ]; clear s1; generalize (2 : ℝ) ^ 700 = A at *; linarith only [h'.2, s2, hs])
  exact m.weaken (by norm_num)

section
variable {v : ℝ} (lg : RLog v) (hv0 : 0 ≤ v) (hv : v ≤ 1 / 2) (q' q : LSQ ℝ) (r r' : Res ℝ) (e : ℝ) (he : e ≤ 1 / 2) (s : ℝ)
  (s1 : 1 / 2 ^ 700 ≤ s) (s2 : s ≤ 2 ^ 700)
include hv0 he s1 s2

include hv in
/-- C109: `SNR_max_dB` in float64 with its limits, from the relative error `e` of `SNR_max` (C106, C108). -/
theorem C109_snr_db (h : RelError e (val (Ieee.SNRMax q') r') (val (SNRMax q) r)) (hs : val (SNRMax q) r = .ok (.fin s)) :
    ∃ x', val (SNRMaxDB q) r = .ok (.fin (20 * Real.logb 10 s)) ∧ val (Ieee.SNRMaxDB q' lg) r' = .ok (.fin x') ∧
      |x' - 20 * Real.logb 10 s| ≤ (1 + 2 ^ (-53 : ℤ)) * (1 + v) * (9 * (e / (1 - e))) +
        ((1 + 2 ^ (-53 : ℤ)) * (1 + v) - 1) * |20 * Real.logb 10 s| := by
  obtain ⟨s', s0, e1, e2, -, e3⟩ := h
  rw [hs] at e2
  cases e2
  have hs0 : 0 < s := lt_of_lt_of_le (by positivity) s1
  have ms := mag_close s1 s2 he e3
  obtain ⟨x, ev, hx⟩ := db_near binary64 lg hs0 (by linarith) e3 hv0
  have sf : ∃ y, s' = b64 y := by
    have e4 := e1
    unfold Ieee.SNRMax at e4
    rw [val_bind (Ieee.stable_uESat q') (by stab)] at e4
    cases hu : val (Ieee.uESat q') r' with
    | error _ => rw [hu] at e4; cases e4
    | ok _ => rw [hu] at e4; exact rounded_float (Except.ok.inj e4) ((two_zpow_mono (by norm_num)).trans ms.ge)
  refine ⟨x, ?_, ?_, hx⟩
  · unfold SNRMaxDB
    rw [val_bind_ok (stable_SNRMax q) (by stab) hs, val_pure, Fl.logb_fin 10 hs0]
    rfl
  · unfold Ieee.SNRMaxDB
    rw [val_bind_ok (Ieee.stable_SNRMax q') (by stab) e1, val_pure, db_same lg hv sf ms, ev]

omit s2 in
/-- C109: `SNR_max_bit` in float64 with its limits. -/
theorem C109_snr_bit (h : RelError e (val (Ieee.SNRMax q') r') (val (SNRMax q) r)) (hs : val (SNRMax q) r = .ok (.fin s)) :
    ∃ x', val (SNRMaxBit q) r = .ok (.fin (Real.logb 2 s)) ∧ val (Ieee.SNRMaxBit q' lg) r' = .ok (.fin x') ∧
      |x' - Real.logb 2 s| ≤ (1 + v) * (3 / 2 * (e / (1 - e))) + v * |Real.logb 2 s| := by
  obtain ⟨s', s0, e1, e2, -, e3⟩ := h
  rw [hs] at e2
  cases e2
  have hs0 : 0 < s := lt_of_lt_of_le (by positivity) s1
  obtain ⟨f1, f2, hx⟩ := flog_near lg 2 (3 / 2) (by norm_num) (by
    have := Real.log_two_gt_d9
    norm_num at this
    linarith) hs0 (by linarith) e3 hv0
  refine ⟨_, ?_, ?_, hx⟩
  · unfold SNRMaxBit
    rw [val_bind_ok (stable_SNRMax q) (by stab) hs, val_pure, f2]
  · unfold Ieee.SNRMaxBit
    rw [val_bind_ok (Ieee.stable_SNRMax q') (by stab) e1, val_pure, f1]

include hv in
/-- C109: `DR_dB` in float64 with its limits. -/
theorem C109_dr_db (h : RelError e (val (Ieee.DR q') r') (val (DR q) r)) (hs : val (DR q) r = .ok (.fin s)) :
    ∃ x', val (DRDB q) r = .ok (.fin (20 * Real.logb 10 s)) ∧ val (Ieee.DRDB q' lg) r' = .ok (.fin x') ∧
      |x' - 20 * Real.logb 10 s| ≤ (1 + 2 ^ (-53 : ℤ)) * (1 + v) * (9 * (e / (1 - e))) +
        ((1 + 2 ^ (-53 : ℤ)) * (1 + v) - 1) * |20 * Real.logb 10 s| := by
  obtain ⟨s', s0, e1, e2, -, e3⟩ := h
  rw [hs] at e2
  cases e2
  have hs0 : 0 < s := lt_of_lt_of_le (by positivity) s1
  have ms := mag_close s1 s2 he e3
  obtain ⟨x, ev, hx⟩ := db_near binary64 lg hs0 (by linarith) e3 hv0
  have pm := Ieee.stable_uPMin q'
  have ps := stable_uPSat (F := ℝ)
  have sf : ∃ y, s' = b64 y := by
    have e4 := e1
    unfold Ieee.DR at e4
    rw [val_bind ps (by stab)] at e4
    cases hp : val (uPSat : M ℝ (Fl ℝ)) r' with
    | error _ => rw [hp] at e4; cases e4
    | ok _ =>
      rw [hp, except_bind_ok, val_bind pm (by stab)] at e4
      cases hu : val (Ieee.uPMin q') r' with
      | error _ => rw [hu] at e4; cases e4
      | ok _ => rw [hu] at e4; exact rounded_float (Except.ok.inj e4) ((two_zpow_mono (by norm_num)).trans ms.ge)
  have sd : Stable (Ieee.DR q') := by unfold Ieee.DR; stab
  refine ⟨x, ?_, ?_, hx⟩
  · unfold DRDB
    rw [val_bind_ok (stable_DR q) (by stab) hs, val_pure, Fl.logb_fin 10 hs0]
    rfl
  · unfold Ieee.DRDB
    rw [val_bind_ok sd (by stab) e1, val_pure, db_same lg hv sf ms, ev]

end
end Emva
