import Verif.Lemmas.AffineHist
import Verif.Spec.Units

/-!
All attributes of `Results1288` for a dataset whose pixel values are `g * x + c`.
-/
set_option autoImplicit false
set_option linter.unusedSectionVars false
namespace Emva
open Spec Data Routines
namespace Results
variable {Q : Temporal ℝ → Spatial ℝ → Prop} {g c : ℤ} {d : ℝ} {α β : Type}

theorem Eqv.congr {s s' : α → β} {x : M ℝ α} {y : M ℝ β} (h : Eqv Q g c d s x y) (hs : ∀ a, s a = s' a) :
    Eqv Q g c d s' x y := by
  have : s = s' := funext hs
  rw [← this]; exact h

section
variable (hg : 0 < g) (q : LSQ ℝ)
include hg

theorem eqv_SNRMax (h : ∀ t s, Q t s → HB0 q g t) : Eqv Q g c d id (SNRMax q) (SNRMax q) := by
  unfold SNRMax
  exact (eqv_uESat hg q h).bind fun e => Eqv.pure rfl

theorem eqv_dsnu (h : ∀ t s, Q t s → HB0 q g t) {var : M ℝ (Fl ℝ)} (hv : Eqv Q g c d (scale ((g : ℝ) ^ 2)) var var) :
    Eqv Q g c d id (dsnu q var) (dsnu q var) := by
  have h0 := gF (F := ℝ) hg
  unfold dsnu
  refine hv.bind fun v => ?_
  refine Eqv.ite (by rw [lt_zero_scale hg (pow_pos h0 2)]) (fun _ => Eqv.pure rfl) fun _ => ?_
  refine hv.bind fun v => (eqv_K hg q h).bind fun k => Eqv.pure ?_
  rw [sqrt_scale h0, scale_div h0 h0, div_self h0.ne', scale_one]; rfl

theorem eqv_DSNU1288DN : Eqv Q g c d (scaleNum (g : ℝ)) DSNU1288DN DSNU1288DN := by
  have h0 := gF (F := ℝ) hg
  unfold DSNU1288DN
  refine (eqv_s2Y hg true).bind fun v => ?_
  refine Eqv.ite (by rw [lt_zero_scale hg (pow_pos h0 2)]) (fun _ => Eqv.pure rfl) fun _ => ?_
  refine (eqv_s2Y hg true).bind fun v => Eqv.pure ?_
  rw [sqrt_scale h0]; rfl

theorem eqv_prnu {var : Bool → M ℝ (Fl ℝ)} (hv : ∀ b, Eqv Q g c d (scale ((g : ℝ) ^ 2)) (var b) (var b)) :
    Eqv Q g c d id (prnu var) (prnu var) := by
  have h0 := gF (F := ℝ) hg
  unfold prnu
  refine (hv false).bind fun b => (hv true).bind fun e => (eqv_spat false).bind fun sb => (eqv_spat true).bind fun sd =>
    Eqv.pure ?_
  simp only [affSpatialData]
  rw [aff_sub_aff, scale_sub, sqrt_scale h0, scale_mul_fin' h0, scale_div h0 h0, div_self h0.ne', scale_one]; rfl

end

section
variable (q : LSQ ℝ)

theorem eqv_sigmaYDark (h : ∀ t s, Q t s → HB q 1 d t) : Eqv Q 1 c d id (sigmaYDark q) (sigmaYDark q) := by
  unfold sigmaYDark s2YDark
  refine Eqv.bind (s := id) ?_ fun v => Eqv.pure rfl
  refine (eqv_rawDark one_pos q h).bind fun v => Eqv.pure ?_
  simp only [Int.cast_one, one_pow, scale_one]; rfl

theorem eqv_sigmaD (h0 : ∀ t s, Q t s → HB0 q 1 t) (h : ∀ t s, Q t s → HB q 1 d t) :
    Eqv Q 1 c d id (sigmaD q) (sigmaD q) := by
  unfold sigmaD
  refine (eqv_sigmaYDark q h).bind fun v => (eqv_K one_pos q h0).bind fun k => Eqv.pure ?_
  simp only [Int.cast_one, scale_one]; rfl

theorem eqv_uPMin (h0 : ∀ t s, Q t s → HB0 q 1 t) (h : ∀ t s, Q t s → HB q 1 d t) :
    Eqv Q 1 c d id (uPMin q) (uPMin q) := by
  unfold uPMin
  refine (eqv_QE one_pos q h0).bind fun e => (eqv_sigmaYDark q h).bind fun v => (eqv_K one_pos q h0).bind fun k => Eqv.pure ?_
  simp only [Int.cast_one, scale_one]; rfl

theorem eqv_uEMin (h0 : ∀ t s, Q t s → HB0 q 1 t) (h : ∀ t s, Q t s → HB q 1 d t) :
    Eqv Q 1 c d id (uEMin q) (uEMin q) := by
  unfold uEMin
  exact (eqv_QE one_pos q h0).bind fun e => (eqv_uPMin q h0 h).bind fun k => Eqv.pure rfl

theorem eqv_DR (h0 : ∀ t s, Q t s → HB0 q 1 t) (h : ∀ t s, Q t s → HB q 1 d t) :
    Eqv Q 1 c d id (DR q) (DR q) := by
  unfold DR
  exact (eqv_uPSat one_pos).bind fun e => (eqv_uPMin q h0 h).bind fun k => Eqv.pure rfl
end

theorem Eqv.as {s : α → α} {x : M ℝ α} {f : α → Value} (k : Value → Value) (h : Eqv Q g c d s x x)
    (hk : ∀ a, f (s a) = k (f a)) : Eqv Q g c d k (x.as f) (x.as f) := by
  unfold M.as
  exact h.bind fun a => Eqv.pure (hk a)

theorem eqv_post {s : α → α} {x : M ℝ α} {f : α → β} (h : Eqv Q g c d s x x) (hf : ∀ a, f (s a) = f a) :
    Eqv Q g c d id (x >>= fun a => Pure.pure (f a)) (x >>= fun a => Pure.pure (f a)) :=
  h.bind fun a => Eqv.pure (hf a)

theorem convert_one (v : Value) : convert 1 v = v := by
  match v with
  | .int _ | .num .none | .num .npnan | .hist _ => rfl
  | .num (.num x) => simp [convert]
  | .lin l => simp [convert]

/-- what the data must satisfy for the attribute -/
structure Needs (q : LSQ ℝ) (g c : ℤ) (d : ℝ) (a : Attr) (t : Temporal ℝ) (s : Spatial ℝ) : Prop where
  b0 : HB0 q g t
  b : HB q g d t
  L : s.dark.L ≠ 0
  nonneg : a = .histogram_DSNU_accumulated → DarkNonneg c s.dark

theorem eqv_read (hg : 0 < g) (q : LSQ ℝ) (a : Attr) (e : ℤ) (he : exponent a = some e ∨ (exponent a = none ∧ g = 1))
    (hQ : ∀ t s, Q t s → Needs q g c d a t s) :
    Eqv Q g c d (convert ((g : ℝ) ^ e)) (read q a) (read q a) := by
  have h0 := fun t s h => (hQ t s h).b0
  have h1 := fun t s h => (hQ t s h).b
  have hL := fun t s h => (hQ t s h).L
  have hN := fun t s h => (hQ t s h).nonneg
  rcases he with he | ⟨he, rfl⟩
  · cases a <;> cases he
    case inl.s2q.refl => exact Eqv.pure (by simp [convert])
    case inl.index_start.refl => exact (Eqv.pure (s := id) rfl).as _ fun a => rfl
    case inl.index_sensitivity_min.refl => exact (Eqv.pure (s := id) rfl).as _ fun a => rfl
    case inl.index_u_ysat.refl => exact (eqv_indexUysat hg).as _ fun a => rfl
    case inl.index_sensitivity_max.refl => exact (eqv_indexSensitivityMax hg).as _ fun a => rfl
    case inl.index_linearity_min.refl => exact (eqv_indexLinearityMin hg).as _ fun a => rfl
    case inl.index_linearity_max.refl => exact (eqv_indexLinearityMax hg).as _ fun a => rfl
    case inl.R.refl => exact (eqv_R hg q h0).as _ fun a => by simp [convert]
    case inl.K.refl => exact (eqv_K hg q h0).as _ fun a => by simp [convert]
    case inl.inverse_K.refl => exact (eqv_inverseK hg q h0).as _ fun a => by simp [convert]
    case inl.QE.refl => exact (eqv_QE hg q h0).as _ fun a => by simp [convert]
    case inl.u_p_sat.refl => exact (eqv_uPSat hg).as _ fun a => by simp [convert]
    case inl.u_p_sat_area.refl => exact (eqv_perArea (eqv_uPSat hg)).as _ fun a => by cases a <;> simp [convert]
    case inl.u_e_sat.refl => exact (eqv_uESat hg q h0).as _ fun a => by simp [convert]
    case inl.u_e_sat_area.refl => exact (eqv_perArea (eqv_uESat hg q h0)).as _ fun a => by cases a <;> simp [convert]
    case inl.SNR_max.refl => exact (eqv_SNRMax hg q h0).as _ fun a => by simp [convert]
    case inl.SNR_max_dB.refl =>
      exact (show Eqv Q _ c d id (SNRMaxDB q) (SNRMaxDB q) from eqv_post (eqv_SNRMax hg q h0) (fun _ => rfl)).as _ fun a => by simp [convert]
    case inl.SNR_max_bit.refl =>
      exact (show Eqv Q _ c d id (SNRMaxBit q) (SNRMaxBit q) from eqv_post (eqv_SNRMax hg q h0) (fun _ => rfl)).as _ fun a => by simp [convert]
    case inl.inverse_SNR_max.refl =>
      exact (show Eqv Q _ c d id (inverseSNRMax q) (inverseSNRMax q) from eqv_post (eqv_SNRMax hg q h0) (fun _ => rfl)).as _ fun a => by simp [convert]
    case inl.linearity.refl => exact (eqv_linearity hg).as _ fun a => by simp [convert, scaleLin]
    case inl.LE_min.refl =>
      exact (show Eqv Q _ c d id (LEMin) (LEMin) from eqv_post (eqv_linearity hg) (fun _ => rfl)).as _ fun a => by simp [convert]
    case inl.LE_max.refl =>
      exact (show Eqv Q _ c d id (LEMax) (LEMax) from eqv_post (eqv_linearity hg) (fun _ => rfl)).as _ fun a => by simp [convert]
    case inl.u_I_var_DN.refl => exact (eqv_uIVarDN hg q h0 h1).as _ fun a => by cases a <;> simp [convert, scaleNum]
    case inl.u_I_mean_DN.refl => exact (eqv_uIMeanDN hg q h1).as _ fun a => by cases a <;> simp [convert, scaleNum]
    case inl.u_I_var.refl => exact (eqv_overK hg q h0 (eqv_uIVarDN hg q h0 h1)).as _ fun a => by cases a <;> simp [convert]
    case inl.u_I_mean.refl => exact (eqv_overK hg q h0 (eqv_uIMeanDN hg q h1)).as _ fun a => by cases a <;> simp [convert]
    case inl.sigma_2_y_stack.refl => exact (eqv_sigma2YStack false).as _ fun a => by simp [convert]
    case inl.sigma_2_y_stack_dark.refl => exact (eqv_sigma2YStack true).as _ fun a => by simp [convert]
    case inl.s_2_y_measured.refl => exact (eqv_s2YMeasured false).as _ fun a => by simp [convert]
    case inl.s_2_y_measured_dark.refl => exact (eqv_s2YMeasured true).as _ fun a => by simp [convert]
    case inl.s_2_y.refl => exact (eqv_s2Y hg false).as _ fun a => by simp [convert]
    case inl.s_2_y_dark.refl => exact (eqv_s2Y hg true).as _ fun a => by simp [convert]
    case inl.s_2_y_cav.refl => exact (eqv_s2YCav false).as _ fun a => by simp [convert]
    case inl.s_2_y_cav_dark.refl => exact (eqv_s2YCav true).as _ fun a => by simp [convert]
    case inl.s_2_y_rav.refl => exact (eqv_s2YRav false).as _ fun a => by simp [convert]
    case inl.s_2_y_rav_dark.refl => exact (eqv_s2YRav true).as _ fun a => by simp [convert]
    case inl.s_2_y_col.refl => exact (eqv_s2YCol hg false).as _ fun a => by simp [convert]
    case inl.s_2_y_col_dark.refl => exact (eqv_s2YCol hg true).as _ fun a => by simp [convert]
    case inl.s_2_y_row.refl => exact (eqv_s2YRow hg false).as _ fun a => by simp [convert]
    case inl.s_2_y_row_dark.refl => exact (eqv_s2YRow hg true).as _ fun a => by simp [convert]
    case inl.s_2_y_pixel.refl => exact (eqv_s2YPixel hg false).as _ fun a => by simp [convert]
    case inl.s_2_y_pixel_dark.refl => exact (eqv_s2YPixel hg true).as _ fun a => by simp [convert]
    case inl.DSNU1288.refl => exact (eqv_dsnu hg q h0 (eqv_s2Y hg true)).as _ fun a => by cases a <;> simp [convert]
    case inl.DSNU1288_row.refl => exact (eqv_dsnu hg q h0 (eqv_s2YRow hg true)).as _ fun a => by cases a <;> simp [convert]
    case inl.DSNU1288_col.refl => exact (eqv_dsnu hg q h0 (eqv_s2YCol hg true)).as _ fun a => by cases a <;> simp [convert]
    case inl.DSNU1288_pixel.refl => exact (eqv_dsnu hg q h0 (eqv_s2YPixel hg true)).as _ fun a => by cases a <;> simp [convert]
    case inl.DSNU1288_DN.refl => exact (eqv_DSNU1288DN hg).as _ fun a => by cases a <;> simp [convert, scaleNum]
    case inl.PRNU1288.refl => exact (eqv_prnu hg (eqv_s2Y hg)).as _ fun a => by simp [convert]
    case inl.PRNU1288_row.refl => exact (eqv_prnu hg (eqv_s2YRow hg)).as _ fun a => by simp [convert]
    case inl.PRNU1288_col.refl => exact (eqv_prnu hg (eqv_s2YCol hg)).as _ fun a => by simp [convert]
    case inl.PRNU1288_pixel.refl => exact (eqv_prnu hg (eqv_s2YPixel hg)).as _ fun a => by simp [convert]
  · rw [Int.cast_one, one_zpow]
    cases a <;> cases he
    case inr.sigma_y_dark.refl => exact (eqv_sigmaYDark q h1).as _ fun a => (convert_one _).symm
    case inr.sigma_d.refl => exact (eqv_sigmaD q h0 h1).as _ fun a => (convert_one _).symm
    case inr.u_p_min.refl => exact (eqv_uPMin q h0 h1).as _ fun a => (convert_one _).symm
    case inr.u_p_min_area.refl => exact (eqv_perArea (eqv_uPMin q h0 h1)).as _ fun a => (convert_one _).symm
    case inr.u_e_min.refl => exact (eqv_uEMin q h0 h1).as _ fun a => (convert_one _).symm
    case inr.u_e_min_area.refl => exact (eqv_perArea (eqv_uEMin q h0 h1)).as _ fun a => (convert_one _).symm
    case inr.DR.refl => exact (eqv_DR q h0 h1).as _ fun a => (convert_one _).symm
    case inr.DR_dB.refl =>
      exact (show Eqv Q _ c d id (DRDB q) (DRDB q) from eqv_post (eqv_DR q h0 h1) (fun _ => rfl)).as _ fun a => (convert_one _).symm
    case inr.histogram_PRNU.refl => exact eqv_histogramPRNU.as _ fun a => (convert_one _).symm
    case inr.histogram_PRNU_accumulated.refl => exact eqv_histogramPRNUAccumulated.as _ fun a => (convert_one _).symm
    case inr.histogram_DSNU.refl => exact (eqv_histogramDSNU hL).as _ fun a => (convert_one _).symm
    case inr.histogram_DSNU_accumulated.refl =>
      exact (eqv_histogramDSNUAccumulated fun t s h => hN t s h rfl).as _ fun a => (convert_one _).symm

end Results
end Emva
