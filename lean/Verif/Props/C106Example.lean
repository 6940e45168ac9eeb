import Verif.Props.C106
import Verif.Props.C102Example

/-!
C106: the four pairs of images of C102 in float64 with its limits.
-/
set_option autoImplicit false
namespace Emva
open Spec Data Results Fit Rounding

/-- the hypotheses of `C106_measurement` hold for the four points with an exact solver and sums from left to right: the results of the
computer are finite and right to one part in 10¹². -/
theorem shots_computed (sp sp' : Spatial ℝ) :
    let r := fromShots sp
    let r' : Res ℝ := ⟨Ieee.temporal ISum.left 1 2 shots, sp', none, none⟩
    RelError (1 / 10 ^ 12) (val (Ieee.gain (exactLSQ ℝ)) r') (val (K (exactLSQ ℝ)) r) ∧
    RelError (1 / 10 ^ 12) (val (Ieee.QE (exactLSQ ℝ)) r') (val (QE (exactLSQ ℝ)) r) ∧
    RelError (1 / 10 ^ 12) (val (Ieee.sigmaYDark (exactLSQ ℝ)) r') (val (sigmaYDark (exactLSQ ℝ)) r) ∧
    RelError (1 / 10 ^ 12) (val (Ieee.uPMin (exactLSQ ℝ)) r') (val (uPMin (exactLSQ ℝ)) r) ∧
    RelError (1 / 10 ^ 12) (val (Ieee.DR (exactLSQ ℝ)) r') (val (DR (exactLSQ ℝ)) r) ∧
    RelError (1 / 10 ^ 12) (val (Ieee.SNRMax (exactLSQ ℝ)) r') (val (SNRMax (exactLSQ ℝ)) r) := by
  intro r r'
  have hq : (exactLSQ ℝ).Good := exactLSQ_good
  obtain ⟨hK, hR⟩ := fromShots_KR sp (exactLSQ ℝ) hq
  have hsig : ∀ m d : ℤ, ∀ p, (shot m d p).photons = p := fun _ _ _ => rfl
  have main := C106_measurement ISum.left (exactLSQ ℝ) (exactLSQ ℝ) hq 0 0 0 (1 / 10 ^ 14) ((C94_exact _).2 hq) le_rfl
    le_rfl (by norm_num) (by norm_num) (by norm_num) (by norm_num) shots_ok (by norm_num [ISum.left]) r r' rfl rfl rfl ?_ (.inr ⟨?_, ?_⟩) 2
    (fromShots_sat sp) (shot 20 4 400) (.inl ⟨by norm_num, rfl⟩) ?_ 1 (fromShots_sens sp) ?_ ?_ (by norm_num [hsig]) (by norm_num [hsig]) ?_
    _ _ hK (by norm_num) (by norm_num) hR (by norm_num) (by norm_num) ?_ (1 / 10 ^ 12) (by norm_num) (by norm_num)
  · exact ⟨main.1, main.2.2.2.1, main.2.2.2.2.1, main.2.2.2.2.2.2.1, main.2.2.2.2.2.2.2.2.2.2.2, main.2.2.2.2.2.2.2.2.2.1⟩
  · simp [shots, shot]
  · simp only [shots, shot, List.pairwise_cons, List.mem_cons, List.not_mem_nil, or_false, forall_eq_or_imp, forall_eq, pair_var, pair_err,
      Apart]
    norm_num
  · intro s hs
    simp only [shots, List.mem_cons, List.not_mem_nil, or_false] at hs
    rcases hs with rfl | rfl | rfl | rfl <;> simp only [shot, pair_var, pair_err, Apart] <;> norm_num
  · intro s hs
    simp only [shots, List.mem_cons, List.not_mem_nil, or_false] at hs
    rcases hs with rfl | rfl | rfl | rfl <;> simp only [shot_signal, shot_signalErr] <;> norm_num
  · exact ⟨shot 8 2 100, by simp [shots], by rw [shot_signal]; norm_num⟩
  · exact ⟨shot 8 2 100, by simp [shots], by norm_num [hsig]⟩
  · refine ⟨⟨?_, ?_, ?_⟩, ?_⟩
    · simp only [shots, List.take_succ_cons, List.take_zero, List.map_cons, List.map_nil, shot_signal, shot_noise, shot_signalErr, shot_noiseErr]
      norm_num
    · simp only [shots, List.take_succ_cons, List.take_zero, List.map_cons, List.map_nil, shot_signal, shot_noise, shot_signalErr, shot_noiseErr]
      norm_num
    · simp only [shots, List.take_succ_cons, List.take_zero, List.map_cons, List.map_nil, shot_signal, shot_noise, shot_signalErr, hsig]
      norm_num
    · intro s hs
      simp only [shots, List.take_succ_cons, List.head?_cons, Option.mem_def, Option.some.injEq] at hs
      subst hs
      simp only [shot, pair_var, pair_err]
      norm_num
  · constructor <;> simp

/-- a solver that answers `2^-1025` to everything -/
noncomputable def tinyLSQ : LSQ ℝ := ⟨fun _ _ => .fin (2 ^ (-1025 : ℤ)), fun _ _ => (.fin 0, .fin 0)⟩

/-- the hypotheses of `C106_overflow`: a gain that is too small -/
example (sp sp' : Spatial ℝ) : val (Ieee.inverseK tinyLSQ) ⟨Ieee.temporal ISum.left 1 2 shots, sp', none, none⟩ = .ok (.inf false) := by
  refine C106_overflow _ _ (2 ^ (-1025 : ℤ)) ?_ (two_pos_zpow _) le_rfl
  obtain ⟨a, -, h, -⟩ := (shots_computed sp sp').1
  have s1 := Ieee.stable_signal
  have s3 := Ieee.stable_smax
  have lin : ∀ X Y a, linearB0 (exactLSQ ℝ) X Y = .ok a → linearB0 tinyLSQ X Y = .ok (.fin (2 ^ (-1025 : ℤ))) := by
    intro X Y a h
    unfold linearB0 at h ⊢
    split at h
    · cases h
    · split at h
      · cases h
      · rename_i h1
        rw [if_neg h1]
        rfl
  unfold Ieee.gain at h ⊢
  rw [val_bind s1 (by stab)] at h ⊢
  cases hX : val Ieee.signal ⟨Ieee.temporal ISum.left 1 2 shots, sp', none, none⟩ with
  | error e => rw [hX] at h; cases h
  | ok X =>
    rw [hX] at h
    replace h : val _ _ = _ := h
    show val _ _ = _
    rw [val_bind_ok stable_temporal (by stab) rfl] at h ⊢
    rw [val_bind (Stable.lift _) (by stab), val_lift] at h ⊢
    cases hY : Np.bin (fun a b => rounded (a - b)) (Ieee.temporal ISum.left 1 2 shots).s2_y (Ieee.temporal ISum.left 1 2 shots).s2_ydark with
    | error e => rw [hY] at h; cases h
    | ok Y =>
      rw [hY] at h
      replace h : val _ _ = _ := h
      show val _ _ = _
      rw [val_bind_ok (a := 0) stable_smin (by stab) rfl] at h ⊢
      rw [val_bind s3 (by stab)] at h ⊢
      cases hj : val Ieee.indexSensitivityMax ⟨Ieee.temporal ISum.left 1 2 shots, sp', none, none⟩ with
      | error e => rw [hj] at h; cases h
      | ok j =>
        rw [hj] at h
        exact lin _ _ (.fin a) h

end Emva
