import Verif.Props.C29_C32

/-!
C66: which points decide the responsivity and the gain.
-/
set_option autoImplicit false
set_option linter.unusedSectionVars false
namespace Emva
open Spec Data Results Fit
variable {F : Type} [Field F] [LinearOrder F] [IsStrictOrderedRing F]

/-- C66: `R` is the least squares slope of the dark-corrected signal over the photon counts, over
exactly the points `0 .. index_sensitivity_max` (both included). -/
theorem C66_responsivity (q : LSQ F) (hq : q.Good) (r : Res F) (uy ud : List F)
    (hu : r.temporal.u_y = uy.map .fin) (hd : r.temporal.u_ydark = ud.map .fin)
    (h1 : uy.length = ud.length) (h4 : r.temporal.u_p.length = uy.length)
    (j : ℕ) (hj : val indexSensitivityMax r = .ok j)
    (hx : ∃ i ≤ j, ∃ p, r.temporal.u_p[i]? = some p ∧ p ≠ 0) :
    ∃ m, val (R q) r = .ok (.fin m) ∧
      BestSlope ((r.temporal.u_p.zip (diff uy ud)).take (j + 1)) m := by
  rw [val_R, signal_fin r uy ud hu hd h1, hj]
  simp only [except_bind_ok, Np.slice_zero, ← List.map_take]
  obtain ⟨i, hi, p, hp, h0⟩ := hx
  obtain ⟨m, e1, e2, -⟩ := linearB0_fin hq (r.temporal.u_p.take (j + 1)) ((diff uy ud).take (j + 1))
    (by simp [diff_length _ _ h1, h4])
    ⟨p, List.mem_of_getElem? (i := i) (by rw [List.getElem?_take_of_lt (by omega)]; exact hp), h0⟩
  refine ⟨m, e1, ?_⟩
  rw [List.zip, ← List.take_zipWith] at e2
  exact e2

/-- C66: `K` is the least squares slope of the dark-corrected variance over the dark-corrected signal,
over exactly the points `0 .. index_sensitivity_max`. -/
theorem C66_gain (q : LSQ F) (hq : q.Good) (r : Res F) (uy ud sy sd : List F)
    (hu : r.temporal.u_y = uy.map .fin) (hd : r.temporal.u_ydark = ud.map .fin)
    (hsy : r.temporal.s2_y = sy.map .fin) (hsd : r.temporal.s2_ydark = sd.map .fin)
    (h1 : uy.length = ud.length) (h2 : sy.length = uy.length) (h3 : sd.length = uy.length)
    (j : ℕ) (hj : val indexSensitivityMax r = .ok j)
    (hx : ∃ i ≤ j, ∃ y, (diff uy ud)[i]? = some y ∧ y ≠ 0) :
    ∃ m, val (K q) r = .ok (.fin m) ∧
      BestSlope (((diff uy ud).zip (diff sy sd)).take (j + 1)) m := by
  rw [val_K, signal_fin r uy ud hu hd h1, hsy, hsd, bin_sub_fin sy sd (by omega), hj]
  simp only [except_bind_ok, Np.slice_zero, ← List.map_take]
  obtain ⟨i, hi, p, hp, h0⟩ := hx
  obtain ⟨m, e1, e2, -⟩ := linearB0_fin hq ((diff uy ud).take (j + 1)) ((diff sy sd).take (j + 1))
    (by simp [diff_length _ _ h1, diff_length sy sd (by omega), h2])
    ⟨p, List.mem_of_getElem? (i := i) (by rw [List.getElem?_take_of_lt (by omega)]; exact hp), h0⟩
  refine ⟨m, e1, ?_⟩
  rw [List.zip, ← List.take_zipWith] at e2
  exact e2

/-! ### a case meeting the hypotheses -/

/-- noisy data: the slope is not met exactly by any point -/
def sampleNoisy : Res ℚ := { sampleIdeal ℚ with
  temporal := { (sampleIdeal ℚ).temporal with u_y := [10, 16, 20, 26, 28].map .fin } }

example : val indexSensitivityMax sampleNoisy = .ok 2 ∧
    val (R (exactLSQ ℚ)) sampleNoisy = .ok (.fin (26 / 500)) ∧
    val (K (exactLSQ ℚ)) sampleNoisy = .ok (.fin (13 / 136)) := by decide +kernel

end Emva
