import Verif.Lemmas.Results

/-!
Every attribute of `Results1288` is stable, and its value in terms of the values it uses.
-/
set_option autoImplicit false
set_option linter.unusedSectionVars false
namespace Emva
namespace Results
open Data Spec
variable {F : Type} [Field F] [LinearOrder F] {α β : Type}

theorem stable_temporal : Stable (ask Res.temporal : M F _) := Stable.ask _ fun _ _ => rfl
theorem stable_signal : Stable (signal : M F _) :=
  stable_temporal.bind fun _ => Stable.lift _
theorem stable_photons : Stable (photons : M F _) := Stable.ask _ fun _ _ => rfl
theorem stable_area : Stable (ask Res.pixel_area : M F _) := Stable.ask _ fun _ _ => rfl
theorem stable_few : Stable (fewExposures : M F _) := Stable.ask _ fun _ _ => rfl
theorem stable_spat (d : Bool) : Stable (spat d : M F _) := Stable.ask _ fun _ _ => rfl

/-- proves stability goals from the attribute lemmas -/
syntax "stab" : tactic
macro_rules
  | `(tactic| stab) => `(tactic| (
      intros
      repeat' (first
        | assumption
        | exact stable_temporal
        | exact stable_signal
        | exact stable_photons
        | exact stable_area
        | exact stable_few
        | exact stable_spat _
        | exact Stable.indexUysat
        | exact Stable.pure _
        | exact Stable.lift _
        | (refine Stable.bind ?_ (fun _ => ?_))
        | (refine Stable.ite ?_ ?_)
        | (split))))

theorem stable_lastBelow (c : F) : Stable (lastBelow c) := by unfold lastBelow; stab
theorem stable_smax : Stable (indexSensitivityMax : M F _) := stable_lastBelow _
theorem stable_smin : Stable (indexSensitivityMin : M F _) := Stable.pure _

macro_rules
  | `(tactic| stab) => `(tactic| (
      intros
      repeat' (first
        | assumption
        | exact stable_temporal
        | exact stable_signal
        | exact stable_photons
        | exact stable_area
        | exact stable_few
        | exact stable_spat _
        | exact Stable.indexUysat
        | exact stable_lastBelow _
        | exact stable_smax
        | exact stable_smin
        | exact Stable.pure _
        | exact Stable.lift _
        | (refine Stable.bind ?_ (fun _ => ?_))
        | (refine Stable.ite ?_ ?_)
        | (split))))

variable (q : LSQ F)

theorem stable_R : Stable (R q) := by unfold R; stab
theorem stable_K : Stable (K q) := by unfold K; stab
theorem stable_inverseK : Stable (inverseK q) := (stable_K q).bind fun _ => Stable.pure _
theorem stable_QE : Stable (QE q) := by
  have := stable_R q; have := stable_K q; unfold QE; stab
theorem stable_rawDark : Stable (rawDark q) := by unfold rawDark; stab
theorem stable_s2YDark : Stable (s2YDark q) := (stable_rawDark q).bind fun _ => Stable.pure _
theorem stable_uPSat : Stable (uPSat : M F _) := by unfold uPSat; stab
theorem stable_uESat : Stable (uESat q) := by
  have := stable_QE q; have := stable_uPSat (F := F); unfold uESat; stab
theorem stable_perArea {x : M F (Fl F)} (h : Stable x) : Stable (perArea x) := by
  unfold perArea; stab
theorem stable_linMin : Stable (indexLinearityMin : M F _) := by unfold indexLinearityMin; stab
theorem stable_linMax : Stable (indexLinearityMax : M F _) := stable_lastBelow _
theorem stable_linearity : Stable (linearity : M F _) := by
  have := stable_linMin (F := F); have := stable_linMax (F := F); unfold linearity; stab
theorem stable_LEMin : Stable (LEMin : M F _) := stable_linearity.bind fun _ => Stable.pure _
theorem stable_LEMax : Stable (LEMax : M F _) := stable_linearity.bind fun _ => Stable.pure _
theorem stable_uIVarDN : Stable (uIVarDN q) := by have := stable_K q; unfold uIVarDN; stab
theorem stable_overK {x : M F (PyNum F)} (h : Stable x) : Stable (overK q x) := by
  have := stable_K q; unfold overK; stab
theorem stable_uIVar : Stable (uIVar q) := stable_overK q (stable_uIVarDN q)
theorem stable_uIMeanDN : Stable (uIMeanDN q) := by unfold uIMeanDN; stab
theorem stable_uIMean : Stable (uIMean q) := stable_overK q (stable_uIMeanDN q)
theorem stable_sigma2YStack (d) : Stable (sigma2YStack d : M F _) := by unfold sigma2YStack; stab
theorem stable_s2YMeasured (d) : Stable (s2YMeasured d : M F _) := by unfold s2YMeasured; stab
theorem stable_s2Y (d) : Stable (s2Y d : M F _) := by
  have := stable_sigma2YStack (F := F) d; have := stable_s2YMeasured (F := F) d
  unfold s2Y; stab
theorem stable_s2YCav (d) : Stable (s2YCav d : M F _) := by unfold s2YCav; stab
theorem stable_s2YRav (d) : Stable (s2YRav d : M F _) := by unfold s2YRav; stab
theorem stable_s2YCol (d) : Stable (s2YCol d : M F _) := by
  have := stable_s2Y (F := F) d; have := stable_s2YCav (F := F) d
  have := stable_s2YRav (F := F) d
  unfold s2YCol; stab
theorem stable_s2YRow (d) : Stable (s2YRow d : M F _) := by
  have := stable_s2Y (F := F) d; have := stable_s2YCav (F := F) d
  have := stable_s2YRav (F := F) d
  unfold s2YRow; stab
theorem stable_s2YPixel (d) : Stable (s2YPixel d : M F _) := by
  have := stable_s2Y (F := F) d; have := stable_s2YCav (F := F) d
  have := stable_s2YRav (F := F) d
  unfold s2YPixel; stab

section Real
variable (q : LSQ ℝ)
theorem stable_sigmaYDark : Stable (sigmaYDark q) :=
  (stable_s2YDark q).bind fun _ => Stable.pure _
theorem stable_sigmaD : Stable (sigmaD q) := by
  have := stable_sigmaYDark q; have := stable_K q; unfold sigmaD; stab
theorem stable_uPMin : Stable (uPMin q) := by
  have := stable_sigmaYDark q; have := stable_K q; have := stable_QE q; unfold uPMin; stab
theorem stable_uEMin : Stable (uEMin q) := by
  have := stable_uPMin q; have := stable_QE q; unfold uEMin; stab
theorem stable_SNRMax : Stable (SNRMax q) := (stable_uESat q).bind fun _ => Stable.pure _
theorem stable_SNRMaxDB : Stable (SNRMaxDB q) := (stable_SNRMax q).bind fun _ => Stable.pure _
theorem stable_SNRMaxBit : Stable (SNRMaxBit q) := (stable_SNRMax q).bind fun _ => Stable.pure _
theorem stable_inverseSNRMax : Stable (inverseSNRMax q) :=
  (stable_SNRMax q).bind fun _ => Stable.pure _
theorem stable_DR : Stable (DR q) := by
  have := stable_uPMin q; have := stable_uPSat (F := ℝ); unfold DR; stab
theorem stable_DRDB : Stable (DRDB q) := (stable_DR q).bind fun _ => Stable.pure _
theorem stable_dsnu {x : M ℝ (Fl ℝ)} (h : Stable x) : Stable (dsnu q x) := by
  have := stable_K q; unfold dsnu; stab
theorem stable_DSNU1288DN : Stable DSNU1288DN := by
  have := stable_s2Y (F := ℝ) true; unfold DSNU1288DN; stab
theorem stable_prnu {x : Bool → M ℝ (Fl ℝ)} (h : ∀ d, Stable (x d)) : Stable (prnu x) := by
  have h1 := h true; have h2 := h false; unfold prnu; stab
end Real

/-! ### values -/

theorem val_signal (r : Res F) : val signal r = Np.bin (· - ·) r.temporal.u_y r.temporal.u_ydark := rfl

theorem val_photons (r : Res F) : val photons r = .ok (r.temporal.u_p.map .fin) := rfl

theorem except_bind_ok (a : α) (f : α → Except PyErr β) : ((Except.ok a : Except PyErr α) >>= f) = f a :=
  rfl
theorem except_bind_error (e : PyErr) (f : α → Except PyErr β) :
    ((Except.error e : Except PyErr α) >>= f) = .error e := rfl

theorem val_lastBelow (c : F) (r : Res F) : val (lastBelow c) r =
    (do
      let Y ← Np.bin (· - ·) r.temporal.u_y r.temporal.u_ydark
      let k ← val indexUysat r
      let ys ← Np.idx Y k
      Np.maxI (Np.argwhere (fun y => Fl.le y (.fin c * ys)) Y)) := by
  unfold lastBelow
  simp (disch := stab) only [val_bind, val_signal, val_lift]

theorem val_linMin (r : Res F) : val indexLinearityMin r =
    (do
      let Y ← Np.bin (· - ·) r.temporal.u_y r.temporal.u_ydark
      let k ← val indexUysat r
      let ys ← Np.idx Y k
      Np.minI (Np.argwhere (fun y => Fl.le (.fin (5 / 100) * ys) y) Y)) := by
  unfold indexLinearityMin
  simp (disch := stab) only [val_bind, val_signal, val_lift]

theorem val_R (r : Res F) : val (R q) r =
    (do
      let Y ← Np.bin (· - ·) r.temporal.u_y r.temporal.u_ydark
      let j ← val indexSensitivityMax r
      linearB0 q (Np.slice (r.temporal.u_p.map .fin) 0 (j + 1)) (Np.slice Y 0 (j + 1))) := by
  unfold R
  simp (disch := stab) only [val_bind, val_signal, val_lift, val_photons, except_bind_ok,
    indexSensitivityMin, val_pure]

theorem val_K (r : Res F) : val (K q) r =
    (do
      let X ← Np.bin (· - ·) r.temporal.u_y r.temporal.u_ydark
      let Y ← Np.bin (· - ·) r.temporal.s2_y r.temporal.s2_ydark
      let j ← val indexSensitivityMax r
      linearB0 q (Np.slice X 0 (j + 1)) (Np.slice Y 0 (j + 1))) := by
  unfold K
  simp (disch := stab) only [val_bind, val_signal, val_lift, val_ask, except_bind_ok,
    indexSensitivityMin, val_pure]

end Results
end Emva
