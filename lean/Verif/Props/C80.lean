import Verif.Lemmas.CalibData
import Verif.Props.C62Example
import Verif.Props.C79Example

/-!
C80: the results in other units of light, time and area.
-/
set_option autoImplicit false
set_option linter.unusedSectionVars false
namespace Emva
open Spec Data Results Py Loader Parser Pipeline
namespace Results
variable {a b c : ℝ} {r : Res ℝ}

theorem rescale_one (v : Value) : rescale 1 v = v := by
  match v with
  | .int _ | .num .none | .num .npnan | .hist _ => rfl
  | .num (.num x) => simp [rescale]
  | .lin l => simp [rescale]

theorem rescale_num (k : ℝ) (v : PyNum ℝ) : Value.num (scaleNum k v) = rescale k (.num v) := by
  cases v <;> rfl

end Results

/-- C80. With photon counts in units of `1 / a` photons, exposure times in units of `1 / b` nanoseconds and the pixel
area in units of `1 / c` square micrometres every result is the same quantity in the new units: it is multiplied by the
powers of `a`, `b` and `c` in its unit (or raises the same error). -/
theorem C80_units (q : LSQ ℝ) (hq : q.Good) (a b c : ℝ) (ha : 0 < a) (hb : 0 < b) (hc : 0 < c) (r : Res ℝ)
    (h1 : Regular r.temporal) (h2 : DarkRegular r.temporal) (x : Attr) :
    val (Results.read q x) (inUnits a b c r) = (val (Results.read q x) r).map (rescale (factor a b c x)) := by
  have h : UnitsOK q r := ⟨hq, h1, h2⟩
  have same : factor a b c x = 1 → .u_p ∉ needs x → .texp ∉ needs x → .area ∉ needs x →
      val (Results.read q x) (inUnits a b c r) = (val (Results.read q x) r).map (rescale (factor a b c x)) := by
    intro hf i1 i2 i3
    rw [hf, ← (frame_read q x).mk (agree_inUnits a b c r i1 i2 i3)]
    cases val (Results.read q x) r with
    | error e => rfl
    | ok v => simp [Except.map, rescale_one]
  by_cases hs : units x = (0, 0, 0) ∧ .u_p ∉ needs x ∧ .texp ∉ needs x ∧ .area ∉ needs x
  · exact same (by simp [factor, hs.1]) hs.2.1 hs.2.2.1 hs.2.2.2
  clear same
  have z : ∀ v, v = rescale (factor a b c x) v ∨ units x ≠ (0, 0, 0) := by
    intro v
    by_cases hu : units x = (0, 0, 0)
    · left; rw [show factor a b c x = 1 by simp [factor, hu], rescale_one]
    · exact .inr hu
  cases x
  all_goals try (exact absurd (by decide) hs)
  case R => exact (cor_R ha q h).as fun v => by simp [rescale, factor, units]
  case QE => exact (cor_QE ha q h).as fun v => by simp [rescale, factor, units]
  case sigma_y_dark => exact (cor_sigmaYDark hb q h).as fun v => (z _).resolve_right (by decide)
  case sigma_d => exact (cor_sigmaD hb q h).as fun v => (z _).resolve_right (by decide)
  case u_p_min => exact (cor_uPMin ha hb q h).as fun v => by simp [rescale, factor, units]
  case u_p_min_area =>
    exact (cor_perArea hc ha (cor_uPMin ha hb q h)).as fun v => by
      rw [rescale_num]; simp [factor, units, div_eq_mul_inv]
  case u_e_min => exact (cor_uEMin ha hb q h).as fun v => (z _).resolve_right (by decide)
  case u_e_min_area =>
    exact (cor_perArea hc one_pos (by
      have := cor_uEMin (r := r) (c := c) ha hb q h
      rwa [show (id : Fl ℝ → Fl ℝ) = scale 1 from funext fun v => (scale_one v).symm] at this)).as fun v => by
      rw [rescale_num]; simp [factor, units]
  case u_p_sat => exact cor_uPSat.as fun v => by simp [rescale, factor, units]
  case u_p_sat_area =>
    exact (cor_perArea hc ha cor_uPSat).as fun v => by rw [rescale_num]; simp [factor, units, div_eq_mul_inv]
  case u_e_sat => exact (cor_uESat ha q h).as fun v => (z _).resolve_right (by decide)
  case u_e_sat_area =>
    exact (cor_perArea hc one_pos (by
      have := cor_uESat (r := r) (b := b) (c := c) ha q h
      rwa [show (id : Fl ℝ → Fl ℝ) = scale 1 from funext fun v => (scale_one v).symm] at this)).as fun v => by
      rw [rescale_num]; simp [factor, units]
  case SNR_max => exact (cor_SNRMax ha q h).as fun v => (z _).resolve_right (by decide)
  case SNR_max_dB =>
    have := (cor_SNRMax (b := b) (c := c) ha q h).bind1 (t := id) (f := fun s => .fin 20 * Fl.logb 10 s) fun _ => rfl
    exact this.as fun v => (z _).resolve_right (by decide)
  case SNR_max_bit =>
    have := (cor_SNRMax (b := b) (c := c) ha q h).bind1 (t := id) (f := fun s => Fl.logb 2 s) fun _ => rfl
    exact this.as fun v => (z _).resolve_right (by decide)
  case inverse_SNR_max =>
    have := (cor_SNRMax (b := b) (c := c) ha q h).bind1 (t := id) (f := fun s => .fin 100 / s) fun _ => rfl
    exact this.as fun v => (z _).resolve_right (by decide)
  case DR => exact (cor_DR ha hb q h).as fun v => (z _).resolve_right (by decide)
  case DR_dB =>
    have := (cor_DR (c := c) ha hb q h).bind1 (t := id) (f := fun s => .fin 20 * Fl.logb 10 s) fun _ => rfl
    exact this.as fun v => (z _).resolve_right (by decide)
  case linearity => exact (cor_linearity ha).as fun v => by simp [rescale, factor, units, slopeLin]
  case LE_min =>
    have := (cor_linearity (r := r) (b := b) (c := c) ha).bind1 (t := id) (f := fun l => l.linearity_error_min) fun _ => rfl
    exact this.as fun v => (z _).resolve_right (by decide)
  case LE_max =>
    have := (cor_linearity (r := r) (b := b) (c := c) ha).bind1 (t := id) (f := fun l => l.linearity_error_max) fun _ => rfl
    exact this.as fun v => (z _).resolve_right (by decide)
  case u_I_var_DN => exact (cor_uIVarDN hb q h).as fun v => by rw [rescale_num]; simp [factor, units]
  case u_I_var =>
    exact (cor_overK q (inv_pos.2 hb) (cor_uIVarDN hb q h)).as fun v => by rw [rescale_num]; simp [factor, units]
  case u_I_mean_DN => exact (cor_uIMeanDN hb q h).as fun v => by rw [rescale_num]; simp [factor, units]
  case u_I_mean =>
    exact (cor_overK q (inv_pos.2 hb) (cor_uIMeanDN hb q h)).as fun v => by rw [rescale_num]; simp [factor, units]


theorem relabelled_symm {V : Type} {a b : ℝ} (ha : 0 < a) (hb : 0 < b) {d d' : Dict ℝ (Dict ℝ V)}
    (h : Relabelled a b d d') : Relabelled a⁻¹ b⁻¹ d' d := by
  refine ⟨fun e => ?_, fun e p => ?_⟩
  · rw [h.keys, mul_inv_cancel_left₀ hb.ne']
  · have := h.files (b⁻¹ * e) (a⁻¹ * p)
    rw [mul_inv_cancel_left₀ hb.ne', mul_inv_cancel_left₀ ha.ne'] at this
    exact this.symm

/-- C80 for an evaluation: the images of a dataset listed under photon counts, exposure times and with a pixel area in
other units (`images'`, in any order) can be evaluated exactly if the original ones can, and then every result, after any
sequence of reads, is the original one in the new units. The sums are exact integers, or int64 within the envelope of C04;
the fits must be determined: at the first bright point the photon count is not zero and the mean differs from the dark
mean. -/
theorem C80_evaluate (q : LSQ ℝ) (hq : q.Good) (a b c : ℝ) (ha : 0 < a) (hb : 0 < b) (hc : 0 < c)
    (images images' : Kind → Images ℝ) (h : ∀ k, Relabelled a b (images k) (images' k))
    (hw : ∀ k, WF2 (images k)) (hw' : ∀ k, WF2 (images' k)) (wr : ℤ → ℤ)
    (fload : Str → Option (Except PyErr Img)) (path : Str) (ord ord' : List ℝ → List ℝ) (hord : ∀ l, (ord l).Perm l)
    (hord' : ∀ l, (ord' l).Perm l) (px : Option ℕ) (area : Option ℝ) (idx : Option ℤ)
    (hwr : wr = id ∨ wr = i64 ∧ ∃ P B, Envelope fload images P B) :
    ((∃ r, evaluate wr fload path ord images px area idx = .ok r) ↔
      ∃ r', evaluate wr fload path ord' images' px (area.map (c * ·)) idx = .ok r') ∧
    ∀ r r', evaluate wr fload path ord images px area idx = .ok r →
      evaluate wr fload path ord' images' px (area.map (c * ·)) idx = .ok r' →
      (∀ p, r.temporal.u_p.head? = some p → p ≠ 0) →
      (∀ y d, r.temporal.u_y.head? = some y → r.temporal.u_ydark.head? = some d → y ≠ d) →
      ∀ (l l' : List Attr) (x : Attr), (Results.read q x (Results.readAll q l' r')).1 =
        (Results.read q x (Results.readAll q l r)).1.map (rescale (factor a b c x)) := by
  refine ⟨⟨?_, ?_⟩, ?_⟩
  · rintro ⟨r, hr⟩
    exact ⟨_, evaluate_units ha hb h hw hw' wr fload path ord ord' hord hord' px area idx c r hr⟩
  · rintro ⟨r', hr'⟩
    have := evaluate_units (inv_pos.2 ha) (inv_pos.2 hb) (fun k => relabelled_symm ha hb (h k)) hw' hw wr fload path ord' ord hord' hord
      px (area.map (c * ·)) idx c⁻¹ r' hr'
    rw [Option.map_map] at this
    have e : (fun x : ℝ => c⁻¹ * x) ∘ (fun x => c * x) = id := by
      funext x
      simp [hc.ne']
    rw [e, Option.map_id] at this
    exact ⟨_, this⟩
  · intro r r' hr hr' hp hy l l' x
    have e := evaluate_units ha hb h hw hw' wr fload path ord ord' hord hord' px area idx c r hr
    rw [hr'] at e
    cases e
    have hid : evaluate id fload path ord images px area idx = .ok r := by
      rcases hwr with rfl | ⟨rfl, P, B, hE⟩
      · exact hr
      · rw [← C64_int64 fload path ord images px area idx P B hE]; exact hr
    obtain ⟨hf, -⟩ := evaluate_facts 0 fload path ord images px area idx r hid
    rw [(C24_reads_have_no_effect q l' x _).1, (C24_reads_have_no_effect q l x _).1]
    exact C80_units q hq a b c ha hb hc r
      ⟨hf.complete.len_p, hf.complete.len_s, hf.complete.len_sd, hf.bal, hf.complete.fin_y, hf.complete.fin_d,
        hf.complete.fin_s, hf.complete.fin_sd, hp, hy⟩
      ⟨hf.texp, hf.complete.len_sd, hf.complete.fin_d, hf.complete.fin_sd⟩ x

/-! ### examples -/

/-- the sample with the photon counts in units of half a photon (the bright pair has the count 2) -/
def halfPhotonImages : Kind → Images ℝ
  | .temporal => [(1, [(2, [['c'], ['d']]), (0, [['a'], ['b']])])]
  | .spatial => [(1, [(0, [['a'], ['b'], ['a']]), (2, [['c'], ['d'], ['c']])])]

theorem halfPhoton_relabelled : ∀ k, Relabelled 2 1 (unitImages ℝ k) (halfPhotonImages k) := by
  have key : ∀ p : ℝ, (2 * p = 2 ↔ p = 1) ∧ (2 * p = 0 ↔ p = 0) := fun p =>
    ⟨⟨fun h => by linarith, fun h => by linarith⟩, ⟨fun h => by linarith, fun h => by linarith⟩⟩
  rintro (_ | _) <;> refine ⟨fun e => by simp [unitImages, halfPhotonImages, Dict.keys], fun e p => ?_⟩ <;>
    · rw [one_mul]
      by_cases he : e = 1
      · subst he
        by_cases h1 : p = 1
        · subst h1; norm_num [unitImages, halfPhotonImages, get2, Dict.get?]
        · by_cases h0 : p = 0
          · subst h0; norm_num [unitImages, halfPhotonImages, get2, Dict.get?]
          · have h2 := fun x => h1 ((key p).1.1 x)
            simp [unitImages, halfPhotonImages, get2, Dict.get?, h0, h1, h2, eq_comm (b := p), eq_comm (b := 2 * p)]
      · simp [unitImages, halfPhotonImages, get2, Dict.get?, he, eq_comm (b := e)]

theorem wf_halfPhoton : ∀ k, WF2 (halfPhotonImages k) := by
  rintro (_ | _) <;> refine ⟨by simp [halfPhotonImages, Dict.WF, Dict.keys], fun e i h => ?_⟩ <;>
  · simp only [halfPhotonImages, Dict.get?] at h
    split_ifs at h
    cases h
    simp [Dict.WF, Dict.keys]

/-- On the sample: half the responsivity and quantum efficiency, twice the saturation irradiation, the same gain. -/
example : ∃ r r', evaluate id unitFs [] id (unitImages ℝ) none none none = .ok r ∧
    evaluate id unitFs [] id halfPhotonImages none none none = .ok r' ∧
    (Results.read (exactLSQ ℝ) .R r').1 = (Results.read (exactLSQ ℝ) .R r).1.map (rescale (1 / 2)) ∧
    (Results.read (exactLSQ ℝ) .u_p_sat r').1 = (Results.read (exactLSQ ℝ) .u_p_sat r).1.map (rescale 2) ∧
    (Results.read (exactLSQ ℝ) .K r').1 = (Results.read (exactLSQ ℝ) .K r).1 := by
  obtain ⟨r, h1, h2⟩ := unit_evaluate
  have h := C80_evaluate (exactLSQ ℝ) Fit.exactLSQ_good 2 1 1 (by norm_num) one_pos one_pos _ _ halfPhoton_relabelled
    wf_unit wf_halfPhoton id unitFs [] id id (fun _ => List.Perm.refl _) (fun _ => List.Perm.refl _) none none none (.inl rfl)
  obtain ⟨r', hr'⟩ := h.1.1 ⟨r, h1⟩
  have h := h.2 r r' h1 hr' (by rw [h2]; simp) (by rw [h2]; simp; norm_num) [] []
  refine ⟨r, r', h1, hr', ?_, ?_, ?_⟩
  · have := h .R
    simpa [Results.readAll, factor, units] using this
  · have := h .u_p_sat
    simpa [Results.readAll, factor, units] using this
  · have := h .K
    simp only [Results.readAll] at this
    rw [this, show factor 2 1 1 .K = 1 by simp [factor, units]]
    cases (Results.read (exactLSQ ℝ) .K r).1 with
    | error e => rfl
    | ok v => simp [Except.map, rescale_one]

end Emva
