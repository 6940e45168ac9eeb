import Verif.Lemmas.PlotUnits
import Verif.Lemmas.AffinePipeline
import Verif.Props.C37
import Verif.Props.C73
import Verif.Props.C62_C64

/-!
C104: the axes of the plots carry the units written at them.
-/
set_option autoImplicit false
set_option linter.unusedSectionVars false
namespace Emva
open Py Loader Spec Data Results Parser Pipeline Plots Routines

theorem evaluate_gain (g : ℤ) (hg : 0 < g) (fload : Str → Option (Except PyErr Img)) (path : Str) (ord : List ℝ → List ℝ)
    (images : Kind → Images ℝ) (pixels : Option ℕ) (pixel_area : Option ℝ) (index_u_ysat : Option ℤ) (N : ℕ)
    (hN : ∀ e ∈ images .temporal, ∀ p ∈ e.2, p.2.length = N) :
    evaluate id (affFiles g 0 fload) path ord images pixels pixel_area index_u_ysat =
      (evaluate id fload path ord images pixels pixel_area index_u_ysat).map (affRes g 0 0) := by
  unfold evaluate
  rw [load_aff g 0 hg fload path ord images N hN]
  cases (load id fload path 0 ord images : Except PyErr (Loaded ℝ ℝ)) with
  | error e => rfl
  | ok imgs =>
    simp only [Except.map, bind, Except.bind]
    rw [make_aff g hg 0 N imgs pixels]
    cases hm : Data.make imgs pixels with
    | error e => rfl
    | ok dat => simp [affData, affRes, Except.map]; rfl

variable (fload : Str → Option (Except PyErr Img)) (path : Str) (ord : List ℝ → List ℝ)
  (images : Kind → Images ℝ) (pixels : Option ℕ) (pixel_area : Option ℝ) (index_u_ysat : Option ℤ)

/-- the diagrams whose labels have the right units -/
def Spec.RightUnits : Diagram → Prop
  | .ptc | .sensitivity | .uyDark | .linearity | .deviation | .spectrogramDSNU _ => True
  | _ => False

/-- If all grey values become `g` times as large, everything that is drawn is multiplied by the power of `g` that belongs to the
unit written at the axis.  Missing: the diagrams whose labels are wrong, and the curves of the SNR plot (its points: `C104_snr_points`) and the
histograms, in which one grey value is the step of the digitisation. -/
theorem C104_units_partial (q : LSQ ℝ) (hq : q.Good) (g : ℤ) (hg : 0 < g) (N : ℕ)
    (hN : ∀ e ∈ images .temporal, ∀ p ∈ e.2, p.2.length = N) :
    SameOutcome (fun r r' =>
        (∀ p, r.temporal.u_p.head? = some p → p ≠ 0) →
        (∀ y d, r.temporal.u_y.head? = some y → r.temporal.u_ydark.head? = some d → y ≠ d) →
        ∀ k, RightUnits k → val (draw q k) r' = (val (draw q k) r).map (List.map
          (redrawn ((g : ℝ) ^ greyPower (unitOf (xlabel k))) ((g : ℝ) ^ greyPower (unitOf (ylabel k))))))
      (evaluate id fload path ord images pixels pixel_area index_u_ysat)
      (evaluate id (affFiles g 0 fload) path ord images pixels pixel_area index_u_ysat) := by
  rw [evaluate_gain g hg fload path ord images pixels pixel_area index_u_ysat N hN]
  cases h : evaluate id fload path ord images pixels pixel_area index_u_ysat with
  | error e => rfl
  | ok r =>
    intro hp hy k hk
    obtain ⟨hf, -⟩ := evaluate_facts 0 fload path ord images pixels pixel_area index_u_ysat r h
    have hB : ∀ t s, (t = r.temporal ∧ s = r.spatial) → HB0 q g t := by
      rintro t s ⟨rfl, rfl⟩
      exact .inr ⟨hq, hf.complete.len_p, hf.complete.len_s, hf.complete.len_sd, hf.bal, hf.complete.fin_y,
        hf.complete.fin_d, hf.complete.fin_s, hf.complete.fin_sd, hp, hy⟩
    have use : ∀ {α : Type} {s : α → α} {x : M ℝ α}, Eqv (fun t s => t = r.temporal ∧ s = r.spatial) g 0 0 s x x →
        val x (affRes g 0 0 r) = (val x r).map s := by
      intro α s x hx
      show (x (affRes g 0 0 r)).1 = _
      rw [(hx r ⟨rfl, rfl⟩).1]; rfl
    cases k with
    | ptc =>
      have e1 : greyPower (unitOf (xlabel .ptc)) = 1 := rfl
      have e2 : greyPower (unitOf (ylabel .ptc)) = 2 := rfl
      rw [e1, e2, pow_one]
      exact use (eqv_plotPTC hg q hB)
    | sensitivity =>
      have e1 : greyPower (unitOf (xlabel .sensitivity)) = 0 := rfl
      have e2 : greyPower (unitOf (ylabel .sensitivity)) = 1 := rfl
      rw [e1, e2, pow_one, pow_zero]
      exact use (eqv_plotSensitivity hg q hB)
    | uyDark =>
      have e1 : greyPower (unitOf (xlabel .uyDark)) = 0 := rfl
      have e2 : greyPower (unitOf (ylabel .uyDark)) = 1 := rfl
      rw [e1, e2, pow_one, pow_zero]
      exact use ((eqv_plotUyDark hg).bind fun a => Eqv.pure rfl)
    | linearity =>
      have e1 : greyPower (unitOf (xlabel .linearity)) = 0 := rfl
      have e2 : greyPower (unitOf (ylabel .linearity)) = 1 := rfl
      rw [e1, e2, pow_one, pow_zero]
      exact use (eqv_plotLinearity hg)
    | deviation =>
      have e1 : greyPower (unitOf (xlabel .deviation)) = 0 := rfl
      have e2 : greyPower (unitOf (ylabel .deviation)) = 0 := rfl
      rw [e1, e2, pow_zero]
      have : redrawn 1 1 = id := funext redrawn_one
      rw [this, List.map_id_fun]
      exact use (eqv_plotDeviation hg)
    | spectrogramDSNU v =>
      have e1 : greyPower (unitOf (xlabel (.spectrogramDSNU v))) = 0 := by cases v <;> rfl
      have e2 : greyPower (unitOf (ylabel (.spectrogramDSNU v))) = 1 := rfl
      rw [e1, e2, pow_one, pow_zero]
      exact use (eqv_spectrogramDSNU hg v)
    | snr => exact hk.elim
    | spectrogramPRNU v => exact hk.elim
    | histogramDSNU => exact hk.elim
    | histogramPRNU => exact hk.elim
    | accumulatedDSNU => exact hk.elim
    | accumulatedPRNU => exact hk.elim

/-- The bright spectrogram is labelled with percent, which do not change with the grey values.  What is drawn is multiplied by the
root of `g`, while the lines to compare it with stay where they are. -/
theorem C104_spectrogram_not_percent (q : LSQ ℝ) (g : ℤ) (hg : 0 < g) (N : ℕ)
    (hN : ∀ e ∈ images .temporal, ∀ p ∈ e.2, p.2.length = N) (v : Bool) :
    unitOf (ylabel (.spectrogramPRNU v)) = ['%'] ∧
    SameOutcome (fun r r' => val (draw q (.spectrogramPRNU v)) r' = (val (draw q (.spectrogramPRNU v)) r).map (rootFirst g))
      (evaluate id fload path ord images pixels pixel_area index_u_ysat)
      (evaluate id (affFiles g 0 fload) path ord images pixels pixel_area index_u_ysat) := by
  refine ⟨rfl, ?_⟩
  rw [evaluate_gain g hg fload path ord images pixels pixel_area index_u_ysat N hN]
  cases h : evaluate id fload path ord images pixels pixel_area index_u_ysat with
  | error e => rfl
  | ok r =>
    have := (eqv_spectrogramPRNU (Q := fun _ _ => True) (d := 0) hg v) r trivial
    show (spectrogramPRNU v (affRes g 0 0 r)).1 = _
    rw [this.1]; rfl

theorem val_accLine (x : M ℝ (HistF ℝ)) (r : Res ℝ) (h : HistF ℝ) (hx : val x r = .ok h) (hl : h.bins.length = h.values.length) :
    val (x >>= fun h => lift (axPlot h.bins h.values "Data") >>= fun d => pure [d]) r = .ok [.line h.bins h.values "Data"] := by
  show (M.bind x _ r).1 = _
  unfold M.bind
  have hx' : (x r).1 = .ok h := hx
  cases e : x r with
  | mk a r' =>
    rw [e] at hx'
    simp only at hx'
    subst hx'
    have hp : axPlot h.bins h.values "Data" = .ok (.line h.bins h.values "Data") := by rw [axPlot, if_pos hl]
    simp only
    rw [hp]; rfl

/-- the points of an accumulated histogram of `P`, against a label that tells numbers of pixels -/
theorem accumulated_points (P : List ℤ) (s : ℝ) (h : HistF ℝ) (hP : P ≠ []) (ha : IsAccumulated P s h.bins h.values) :
    0 < h.values.length ∧ h.bins.length = h.values.length ∧ ∃ (W : ℕ) (m : ℤ), ∀ k < h.values.length, ∃ (t : ℝ) (n : ℕ),
      h.bins[k]? = some (.fin (((m + k * W : ℤ) : ℝ) / s)) ∧ h.values[k]? = some (.fin t) ∧
      n = (deviations P).countP (fun d => decide (m + k * W ≤ d)) ∧ (t = n ↔ n = 0 ∨ P.length = 100) := by
  obtain ⟨W, m, -, -, h0, -, hl, -, hk, -⟩ := ha
  refine ⟨h0, hl, W, m, fun k hk' => ⟨_, _, (hk k hk').1, (hk k hk').2, rfl, ?_⟩⟩
  have hN : (0 : ℝ) < P.length := by exact_mod_cast List.length_pos_iff.2 hP
  rw [div_eq_iff hN.ne']
  generalize (deviations P).countP _ = n
  constructor
  · intro e
    by_cases h : n = 0
    · exact .inl h
    · right
      have hn : (n : ℝ) ≠ 0 := by exact_mod_cast h
      have : (100 : ℝ) = P.length := mul_left_cancel₀ hn (by linarith)
      exact_mod_cast this.symm
  · rintro (h | h)
    · simp [h]
    · rw [h]; push_cast; ring

/-- The accumulated dark histogram is labelled with numbers of pixels; what is drawn are percentages: a point is at the number of
pixels that deviate that much only if there is none of them or the image has 100 pixels. -/
theorem C104_accumulated_not_number (q : LSQ ℝ) (r : Res ℝ) (hpx : 0 < r.spatial.dark.h * r.spatial.dark.w)
    (hL : 0 < r.spatial.dark.L) :
    ylabel .accumulatedDSNU = "Number of pixels".toList ∧
    ∃ (x y : List (Fl ℝ)) (W : ℕ) (m : ℤ), val (draw q .accumulatedDSNU) r = .ok [.line x y "Data"] ∧ 0 < y.length ∧
      x.length = y.length ∧
      ∀ k < y.length, ∃ (t : ℝ) (n : ℕ), x[k]? = some (.fin (((m + k * W : ℤ) : ℝ) / r.spatial.dark.L)) ∧ y[k]? = some (.fin t) ∧
        n = (deviations (Spec.pixels r.spatial.dark.h r.spatial.dark.w r.spatial.dark.sum)).countP (fun d => decide (m + k * W ≤ d)) ∧
        (t = n ↔ n = 0 ∨ r.spatial.dark.h * r.spatial.dark.w = 100) := by
  refine ⟨by decide, ?_⟩
  obtain ⟨h, e, ha⟩ := C37_dsnu_accumulated r hpx hL
  have hP : Spec.pixels r.spatial.dark.h r.spatial.dark.w r.spatial.dark.sum ≠ [] := by
    rw [← List.length_pos_iff, pixels_length]; exact hpx
  obtain ⟨h0, hl, W, m, hk⟩ := accumulated_points _ _ h hP ha
  rw [pixels_length] at hk
  exact ⟨h.bins, h.values, W, m, val_accLine _ r h e hl, h0, hl, hk⟩

/-- The accumulated bright histogram is labelled with percent and numbers of pixels; the abscissas are grey values, and the
ordinates are percentages.  With a mean signal of `μ` grey values an abscissa is the percentage of the mean only if it is 0 or if
`μ` is 100. -/
theorem C104_accumulated_not_percent (q : LSQ ℝ) (r : Res ℝ) (h w : ℕ) (hb : r.spatial.bright.h = h ∧ r.spatial.bright.w = w)
    (hd : r.spatial.dark.h = h ∧ r.spatial.dark.w = w) (h5 : 5 ≤ h) (w5 : 5 ≤ w) (hL : 0 < r.spatial.bright.L)
    (μ : ℝ) (hμ : μ ≠ 0) :
    unitOf (xlabel .accumulatedPRNU) = ['%'] ∧ ylabel .accumulatedPRNU = "Number of pixels".toList ∧
    ∃ (x y : List (Fl ℝ)) (W : ℕ) (m : ℤ), val (draw q .accumulatedPRNU) r = .ok [.line x y "Data"] ∧ 0 < y.length ∧
      x.length = y.length ∧
      ∀ k < y.length, ∃ (s t : ℝ) (n : ℕ), x[k]? = some (.fin s) ∧ y[k]? = some (.fin t) ∧
        s = ((m + k * W : ℤ) : ℝ) / (r.spatial.bright.L * 25) ∧
        n = (deviations (Spec.pixels (h - 4) (w - 4) (hp5 fun i j => r.spatial.bright.sum i j - r.spatial.dark.sum i j))).countP
          (fun d => decide (m + k * W ≤ d)) ∧
        (t = n ↔ n = 0 ∨ (h - 4) * (w - 4) = 100) ∧
        (s = 100 * (((m + k * W : ℤ) : ℝ) / (r.spatial.bright.L * 25)) / μ ↔ m + k * W = 0 ∨ μ = 100) := by
  refine ⟨by decide, by decide, ?_⟩
  obtain ⟨hst, e, ha⟩ := C37_prnu_accumulated r h w hb hd h5 w5 hL
  have hP : Spec.pixels (h - 4) (w - 4) (hp5 fun i j => r.spatial.bright.sum i j - r.spatial.dark.sum i j) ≠ [] := by
    rw [← List.length_pos_iff, pixels_length]; exact Nat.mul_pos (by omega) (by omega)
  obtain ⟨h0, hl, W, m, hk⟩ := accumulated_points _ _ hst hP ha
  rw [pixels_length] at hk
  refine ⟨hst.bins, hst.values, W, m, val_accLine _ r hst e hl, h0, hl, fun k hk' => ?_⟩
  obtain ⟨t, n, e1, e2, e3, e4⟩ := hk k hk'
  refine ⟨_, t, n, e1, e2, rfl, e3, e4, ?_⟩
  have hs : (r.spatial.bright.L : ℝ) * 25 ≠ 0 := by
    have : (r.spatial.bright.L : ℝ) ≠ 0 := by exact_mod_cast hL.ne'
    positivity
  rw [eq_div_iff hμ]
  constructor
  · intro e
    by_cases h : m + k * W = 0
    · exact .inl h
    · right
      have hn : ((m + k * W : ℤ) : ℝ) / (r.spatial.bright.L * 25) ≠ 0 := div_ne_zero (by exact_mod_cast h) hs
      exact mul_left_cancel₀ hn (by linarith)
  · rintro (h | h)
    · rw [h]; simp
    · rw [h]; ring

/-- The dark histogram is labelled with dark values; what is drawn are the deviations from their mean. -/
theorem C104_not_dark_value (q : LSQ ℝ) (r : Res ℝ) (hpx : 0 < r.spatial.dark.h * r.spatial.dark.w) (hL : 0 < r.spatial.dark.L) :
    xlabel .histogramDSNU = "Dark value [DN]".toList ∧ ylabel .histogramDSNU = "Number of pixels".toList ∧
    ∃ (x y : List (Fl ℝ)) (rest : List Drawn) (W : ℕ) (m : ℤ), val (draw q .histogramDSNU) r = .ok (.line x y "Data" :: rest) ∧
      0 < y.length ∧ x.length = y.length ∧
      ∀ k < y.length, ∃ s : ℝ, x[k]? = some (.fin s) ∧
        y[k]? = some (.fin (((Spec.pixels r.spatial.dark.h r.spatial.dark.w r.spatial.dark.sum).countP
          fun v => decide (m + k * W ≤ v ∧ v < m + (k + 1) * W) : ℕ) : ℝ)) ∧
        (s = ((m + k * W : ℤ) : ℝ) / r.spatial.dark.L ↔ (Spec.pixels r.spatial.dark.h r.spatial.dark.w r.spatial.dark.sum).sum = 0) := by
  refine ⟨by decide, by decide, ?_⟩
  obtain ⟨out, e, bins, model, n, top, rfl, ⟨W, m, n', -, -, h0, -, hl, hv, -, hk⟩, -⟩ := C73_dsnu r hpx hL
  have hnn : n = n' := by
    have hi : Function.Injective (fun c : ℕ => (Fl.fin (c : ℝ) : Fl ℝ)) := fun a b h => by
      have := Fl.fin.inj h
      exact_mod_cast this
    exact List.map_injective_iff.2 hi hv
  subst hnn
  refine ⟨bins, n.map fun c : ℕ => (Fl.fin (c : ℝ) : Fl ℝ), [.line bins model "Model"], W, m, ?_, by simpa using h0, by simpa using hl, fun k hk' => ?_⟩
  · show (M.bind plotHistDSNU _ r).1 = _
    unfold M.bind
    have e' : (plotHistDSNU r).1 = _ := e
    cases e2 : plotHistDSNU r with
    | mk a r' =>
      rw [e2] at e'
      simp only at e'
      subst e'
      rfl
  · obtain ⟨e1, e2⟩ := hk k (by simpa using hk')
    refine ⟨_, e1, ?_, ?_⟩
    · rw [List.getElem?_map, e2]; rfl
    · have hLF : (r.spatial.dark.L : ℝ) ≠ 0 := by exact_mod_cast hL.ne'
      have hN : ((Spec.pixels r.spatial.dark.h r.spatial.dark.w r.spatial.dark.sum).length : ℝ) ≠ 0 := by
        rw [pixels_length]; exact_mod_cast hpx.ne'
      rw [div_left_inj' hLF, Spec.meanOf, sub_eq_self, div_eq_zero_iff, or_iff_left hN]
      exact_mod_cast Iff.rfl

/-- The labels of the bright histogram are right: at the deviation (of the mean of the `L` differences of bright and dark image from
the mean of the 25 pixels around, in grey values) the number of the pixels is drawn that deviate that much. -/
theorem C104_histogram (q : LSQ ℝ) (r : Res ℝ) (h w : ℕ) (hb : r.spatial.bright.h = h ∧ r.spatial.bright.w = w)
    (hd : r.spatial.dark.h = h ∧ r.spatial.dark.w = w) (h5 : 5 ≤ h) (w5 : 5 ≤ w) (hL : 0 < r.spatial.bright.L) :
    xlabel .histogramPRNU = "Deviation from the mean [DN]".toList ∧ ylabel .histogramPRNU = "Number of pixels".toList ∧
    ∃ (x y : List (Fl ℝ)) (rest : List Drawn) (W : ℕ) (m : ℤ), val (draw q .histogramPRNU) r = .ok (.line x y "Data" :: rest) ∧
      0 < y.length ∧ x.length = y.length ∧
      ∀ k < y.length, x[k]? = some (.fin (((m + k * W : ℤ) : ℝ) / (r.spatial.bright.L * 25))) ∧
        y[k]? = some (.fin (((Spec.pixels (h - 4) (w - 4) (hp5 fun i j => r.spatial.bright.sum i j - r.spatial.dark.sum i j)).countP
          fun v => decide (m + k * W ≤ v ∧ v < m + (k + 1) * W) : ℕ) : ℝ)) := by
  refine ⟨by decide, by decide, ?_⟩
  obtain ⟨out, e, bins, model, n, top, rfl, ⟨W, m, n', -, -, h0, -, hl, hv, -, hk⟩, -⟩ := C73_prnu r h w hb hd h5 w5 hL
  have hnn : n = n' := by
    have hi : Function.Injective (fun c : ℕ => (Fl.fin (c : ℝ) : Fl ℝ)) := fun a b h => by
      have := Fl.fin.inj h
      exact_mod_cast this
    exact List.map_injective_iff.2 hi hv
  subst hnn
  refine ⟨bins, n.map fun c : ℕ => (Fl.fin (c : ℝ) : Fl ℝ), [.line bins model "Model"], W, m, ?_, by simpa using h0, by simpa using hl, fun k hk' => ?_⟩
  · show (M.bind plotHistPRNU _ r).1 = _
    unfold M.bind
    have e' : (plotHistPRNU r).1 = _ := e
    cases e2 : plotHistPRNU r with
    | mk a r' =>
      rw [e2] at e'
      simp only at e'
      subst e'
      rfl
  · obtain ⟨e1, e2⟩ := hk k (by simpa using hk')
    refine ⟨by rw [e1]; simp only [sub_zero], ?_⟩
    rw [List.getElem?_map, e2]; rfl

end Emva
