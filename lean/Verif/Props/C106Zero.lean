import Verif.Props.C106
import Verif.Props.C102Example

/-!
C106: a camera whose noise does not grow with the signal has the gain zero.
-/
set_option autoImplicit false
namespace Emva
open Spec Data Results Fit Rounding

/-- C106, a gain of zero is not hidden: the results that divide by the gain are infinite or nan (and the inverse of the infinite
signal to noise ratio is zero), none of them is a number that could be taken for a measurement. -/
theorem C106_zero_gain (q : LSQ ℝ) (r : Res ℝ) (ρ p s : ℝ) (hk : val (Ieee.gain q) r = .ok (.fin 0)) (hr : val (Ieee.resp q) r = .ok (.fin ρ))
    (r0 : (2 : ℝ) ^ (-1000 : ℤ) ≤ ρ) (r1 : ρ ≤ 2 ^ (1000 : ℤ)) (hp : val uPSat r = .ok (.fin p)) (p0 : 0 < p)
    (hs : val (Ieee.sigmaYDark q) r = .ok (.fin s)) (s0 : 0 < s) :
    val (Ieee.inverseK q) r = .ok (.inf false) ∧ val (Ieee.QE q) r = .ok (.inf false) ∧ val (Ieee.uPMin q) r = .ok .nan ∧
    val (Ieee.uEMin q) r = .ok .nan ∧ val (Ieee.DR q) r = .ok .nan ∧ val (Ieee.uESat q) r = .ok (.inf false) ∧
    val (Ieee.SNRMax q) r = .ok (.inf false) ∧ val (Ieee.inverseSNRMax q) r = .ok (.fin 0) := by
  have s1 := Ieee.stable_gain q
  have s2 := Ieee.stable_resp q
  have s3 := Ieee.stable_QE q
  have s4 := Ieee.stable_sigmaYDark q
  have s5 := Ieee.stable_uPMin q
  have s6 := Ieee.stable_uESat q
  have s7 := Ieee.stable_SNRMax q
  have s8 := stable_uPSat (F := ℝ)
  have z : f64 0 = .fin 0 := by simpa using f64_nat 0 (by norm_num)
  have ρ0 : 0 < ρ := (two_pos_zpow _).trans_le r0
  have hR : ∃ x, 0 < x ∧ rounded ((.fin 100 : Fl ℝ) * .fin ρ) = .fin x := by
    have m : Mag (7 + 1000) (100 * ρ) := Mag.mul (Mag.ofBounds 7 (by norm_num) (by norm_num)) ⟨r0, r1⟩
    exact ⟨_, (m.rnd).pos, m.f64_eq (by norm_num)⟩
  obtain ⟨x, x0, hx⟩ := hR
  have dz : ∀ x : ℝ, 0 < x → (.fin x / .fin 0 : Fl ℝ) = .inf false := fun x h => by
    show Fl.div _ _ = _
    simp [Fl.div, h.ne', not_lt.2 h.le]
  have e1 : val (Ieee.inverseK q) r = .ok (.inf false) := by
    unfold Ieee.inverseK
    rw [val_bind_ok s1 (by stab) hk, val_pure, dz 1 one_pos]
    rfl
  have e2 : val (Ieee.QE q) r = .ok (.inf false) := by
    unfold Ieee.QE
    rw [val_bind_ok s2 (by stab) hr, val_bind_ok s1 (by stab) hk, val_pure, hx, dz x x0]
    rfl
  have e3 : val (Ieee.uPMin q) r = .ok .nan := by
    unfold Ieee.uPMin
    rw [val_bind_ok s3 (by stab) e2, val_bind_ok s4 (by stab) hs, val_bind_ok s1 (by stab) hk, val_pure, dz s s0]
    show Except.ok (rounded (f64 0 * _)) = _
    rw [z]
    show Except.ok (rounded (Fl.mul (.fin 0) (.inf false))) = _
    simp [Fl.mul, rounded]
  have e4 : val (Ieee.uESat q) r = .ok (.inf false) := by
    unfold Ieee.uESat
    rw [val_bind_ok s3 (by stab) e2, val_bind_ok s8 (by stab) hp, val_pure]
    show Except.ok (rounded (rounded (Fl.mul (.inf false) (.fin p)) / .fin 100)) = _
    simp only [Fl.mul, if_neg p0.ne', decide_eq_false (not_lt.2 p0.le), rounded, Bool.xor_false]
    show Except.ok (rounded (Fl.div (.inf false) (.fin 100))) = _
    simp only [Fl.div, rounded, decide_eq_false (not_lt.2 (by norm_num : (0 : ℝ) ≤ 100)), Bool.xor_false]
  have e5 : val (Ieee.SNRMax q) r = .ok (.inf false) := by
    unfold Ieee.SNRMax
    rw [val_bind_ok s6 (by stab) e4, val_pure]
    rfl
  refine ⟨e1, e2, e3, ?_, ?_, e4, e5, ?_⟩
  · unfold Ieee.uEMin
    rw [val_bind_ok s3 (by stab) e2, val_bind_ok s5 (by stab) e3, val_pure]
    rfl
  · unfold Ieee.DR
    rw [val_bind_ok s8 (by stab) hp, val_bind_ok s5 (by stab) e3, val_pure]
    rfl
  · unfold Ieee.inverseSNRMax
    rw [val_bind_ok s7 (by stab) e5, val_pure]
    show Except.ok (f64 0) = _
    rw [z]

/-- four points whose noise is that of the dark images -/
def noiseless : Temporal ℝ where
  texp := [1, 1, 1, 1]
  u_p := [100, 500, 1000, 1100]
  u_y := [.fin 2, .fin 10, .fin 20, .fin 21]
  s2_y := [.fin 1, .fin 1, .fin 4, .fin 3]
  u_ydark := [.fin 0, .fin 0, .fin 0, .fin 0]
  s2_ydark := [.fin 1, .fin 1, .fin 4, .fin 3]

/-- the hypotheses of `C106_zero_gain`: the points of `noiseless` and an exact solver -/
theorem noiseless_computed (sp : Spatial ℝ) :
    let r : Res ℝ := ⟨noiseless, sp, none, none⟩
    val (Ieee.QE (exactLSQ ℝ)) r = .ok (.inf false) ∧ val (Ieee.DR (exactLSQ ℝ)) r = .ok .nan ∧
    val (Ieee.inverseSNRMax (exactLSQ ℝ)) r = .ok (.fin 0) := by
  intro r
  have n : ∀ k : ℕ, k ≤ 2 ^ 53 → f64 (k : ℝ) = .fin (k : ℝ) := f64_nat
  have n0 : f64 0 = .fin 0 := by simpa using n 0 (by norm_num)
  have n2 : f64 2 = .fin 2 := by simpa using n 2 (by norm_num)
  have n10 : f64 10 = .fin 10 := by simpa using n 10 (by norm_num)
  have n20 : f64 20 = .fin 20 := by simpa using n 20 (by norm_num)
  have n21 : f64 21 = .fin 21 := by simpa using n 21 (by norm_num)
  have hS : val Ieee.signal r = .ok [.fin 2, .fin 10, .fin 20, .fin 21] := by
    unfold Ieee.signal
    rw [val_bind_ok stable_temporal (by stab) rfl, val_lift]
    show Except.ok [f64 (2 + -0), f64 (10 + -0), f64 (20 + -0), f64 (21 + -0)] = _
    simp only [neg_zero, add_zero, n2, n10, n20, n21]
  have hI : val (indexUysat (F := ℝ)) r = .ok 2 := by
    rw [Nearby.val_indexUysat]
    show Except.map _ (satLoop ([1, 1, 4, 3].map Fl.fin : List (Fl ℝ)) 4 (.fin 0) 0) = _
    rw [sat_take 3 (a := 3) rfl (by norm_num), sat_take 2 (a := 4) rfl (by norm_num),
      sat_stop 1 (a := 1) (b := 1) rfl rfl (by norm_num) (by norm_num)]
    rfl
  have hJ : val Ieee.indexSensitivityMax r = .ok 1 := by
    have s1 := Ieee.stable_signal
    have m7 : Mag 1 (7 / 10 : ℝ) := Mag.ofBounds 1 (by norm_num) (by norm_num)
    have b7 := b64_near (x := 7 / 10) (by norm_num)
    have m14 : Mag (1 + 1 + 5) (b64 (7 / 10) * 20) := m7.rnd.mul (Mag.ofBounds 5 (by norm_num) (by norm_num))
    have b14 := b64_near m14.pos.le
    have e : rounded (rounded (.fin (7 / 10 : ℝ)) * .fin 20) = .fin (b64 (b64 (7 / 10) * 20)) := by
      show rounded (f64 (7 / 10) * .fin 20) = _
      rw [m7.f64_eq (by norm_num)]
      exact m14.f64_eq (by norm_num)
    unfold Ieee.indexSensitivityMax Ieee.lastBelow
    rw [val_bind_ok s1 (by stab) hS, val_bind_ok Stable.indexUysat (by stab) hI]
    rw [val_bind_ok (a := Fl.fin (20 : ℝ)) (Stable.lift (Np.idx [Fl.fin 2, .fin 10, .fin 20, .fin 21] 2)) (by stab) rfl]
    rw [e, val_lift]
    have l : ∀ a b : ℝ, Fl.le (.fin a) (.fin b) = decide (a ≤ b) := fun _ _ => rfl
    have d1 : (2 : ℝ) ≤ b64 (b64 (7 / 10) * 20) := by linarith
    have d2 : (10 : ℝ) ≤ b64 (b64 (7 / 10) * 20) := by linarith
    have d3 : ¬ (20 : ℝ) ≤ b64 (b64 (7 / 10) * 20) := by linarith
    have d4 : ¬ (21 : ℝ) ≤ b64 (b64 (7 / 10) * 20) := by linarith
    generalize b64 (b64 (7 / 10) * 20) = z at *
    have : Np.argwhere (fun y => Fl.le y (.fin z)) [.fin 2, .fin 10, .fin 20, .fin 21] = [0, 1] := by
      simp [Np.argwhere, List.range_succ, l, d1, d2, d3, d4]
    rw [this]; rfl
  have s1 := Ieee.stable_signal
  have s3 := Ieee.stable_smax
  have n1 : f64 1 = .fin 1 := by simpa using n 1 (by norm_num)
  have hk : val (Ieee.gain (exactLSQ ℝ)) r = .ok (.fin 0) := by
    unfold Ieee.gain
    rw [val_bind_ok s1 (by stab) hS, val_bind_ok stable_temporal (by stab) rfl]
    have : Np.bin (fun a b => rounded (a - b)) noiseless.s2_y noiseless.s2_ydark = .ok ([.fin 0, .fin 0, .fin 0, .fin 0] : List (Fl ℝ)) := by
      show Except.ok [f64 (1 + -1), f64 (1 + -1), f64 (4 + -4), f64 (3 + -3)] = _
      simp only [add_neg_cancel, n0]
    rw [val_bind_ok (a := [.fin 0, .fin 0, .fin 0, .fin 0]) (Stable.lift _) (by stab) (by rw [val_lift]; exact this),
      val_bind_ok (a := 0) stable_smin (by stab) rfl, val_bind_ok s3 (by stab) hJ, val_lift]
    show Except.ok (Fl.fin ((2 * 0 + (10 * 0 + 0)) / (2 * 2 + (10 * 10 + 0)) : ℝ)) = _
    norm_num
  have hr : val (Ieee.resp (exactLSQ ℝ)) r = .ok (.fin (1 / 50)) := by
    unfold Ieee.resp
    rw [val_bind_ok s1 (by stab) hS, val_bind_ok stable_photons (by stab) rfl, val_bind_ok (a := 0) stable_smin (by stab) rfl,
      val_bind_ok s3 (by stab) hJ, val_lift]
    show Except.ok (Fl.fin ((100 * 2 + (500 * 10 + 0)) / (100 * 100 + (500 * 500 + 0)) : ℝ)) = _
    norm_num
  have hp : val (uPSat (F := ℝ)) r = .ok (.fin 1000) := by
    unfold uPSat
    rw [val_bind_ok stable_temporal (by stab) rfl, val_bind_ok Stable.indexUysat (by stab) hI]
    rfl
  have hs : val (Ieee.sigmaYDark (exactLSQ ℝ)) r = .ok (.fin 1) := by
    unfold Ieee.sigmaYDark
    have hv : val (rawDark (exactLSQ ℝ)) r = .ok (.fin 1) := by
      unfold rawDark
      rw [val_bind_ok (a := true) stable_few (by stab) ?_, val_bind_ok stable_temporal (by stab) rfl]
      · rfl
      · show Except.ok (decide (Np.nUnique ([1, 1, 1, 1] : List ℝ) ≤ 2)) = _
        simp [Np.nUnique]
    rw [val_bind_ok (stable_rawDark _) (by stab) hv, val_pure]
    have m24 : Mag 3 (24 / 100 : ℝ) := Mag.ofBounds 3 (by norm_num) (by norm_num)
    have b24 := b64_near (x := 24 / 100) (by norm_num)
    have e : rounded (.fin (24 / 100 : ℝ)) = .fin (b64 (24 / 100)) := m24.f64_eq (by norm_num)
    have c : Fl.lt (.fin (1 : ℝ)) (.fin (b64 (24 / 100))) = false := decide_eq_false (by linarith)
    rw [e]
    simp only [c]
    show Except.ok (rounded (Fl.sqrt (.fin 1))) = _
    have : Fl.sqrt (.fin (1 : ℝ)) = .fin 1 := by
      simp [Fl.sqrt]
    rw [this]
    exact congrArg _ n1
  have main := C106_zero_gain (exactLSQ ℝ) r (1 / 50) 1000 1 hk hr ?_ ?_ hp (by norm_num) hs one_pos
  · exact ⟨main.2.1, main.2.2.2.2.1, main.2.2.2.2.2.2.2⟩
  · exact (two_zpow_mono (by norm_num : (-1000 : ℤ) ≤ -6)).trans (by norm_num)
  · exact le_trans (by norm_num : (1 / 50 : ℝ) ≤ 2 ^ (0 : ℤ)) (two_zpow_mono (by norm_num))

end Emva
