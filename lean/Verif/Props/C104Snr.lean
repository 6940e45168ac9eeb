import Verif.Props.C104
import Verif.Props.C59
import Verif.Props.C62Example

/-!
C104: the points of the SNR plot, whose axis has no unit, stay where they are.
-/
set_option autoImplicit false
set_option linter.unusedSectionVars false
namespace Emva
open Py Loader Spec Data Results Parser Pipeline Plots Routines

theorem take_map {α β : Type} (f : α → β) (a : List α) (index : List ℕ) : Np.take (a.map f) index = (Np.take a index).map (List.map f) := by
  unfold Np.take
  induction index with
  | nil => rfl
  | cons i l ih =>
    rw [List.mapM_cons, List.mapM_cons, ih, Np.idx_map]
    cases Np.idx a i with
    | error e => rfl
    | ok x => cases List.mapM (fun i : ℕ => Np.idx a (i : ℤ)) l <;> rfl

theorem nonzero_scale {a : ℝ} (ha : 0 < a) (l : List (Fl ℝ)) : Np.nonzero (l.map (scale a)) = Np.nonzero l := by
  unfold Np.nonzero
  rw [Np.argwhere_map]
  congr 1
  funext x
  cases x with
  | fin x =>
    rw [scale_fin]
    show (!decide (a * x = 0)) = !decide (x = 0)
    simp [ha.ne']
  | nan => rfl
  | inf s => rfl

theorem eqv_snrData {Q : Temporal ℝ → Spatial ℝ → Prop} {g c : ℤ} {d : ℝ} (hg : 0 < g) : Eqv Q g c d id snrData snrData := by
  have h0 := gF (F := ℝ) hg
  unfold snrData
  refine Eqv.bind (s := affTemporal (g : ℝ) d) (Eqv.ask fun _ _ => rfl) fun t => ?_
  have e : Np.nonzero (affTemporal (g : ℝ) d t).s2_y = Np.nonzero t.s2_y := nonzero_scale (pow_pos h0 2) _
  simp only [e]
  refine eqv_photons.bind fun P => ?_
  refine Eqv.bind (s := id) (Eqv.lift map_id_except.symm) fun up => ?_
  refine (eqv_signal hg).bind fun Y => ?_
  refine Eqv.bind (s := List.map (scale (g : ℝ))) (Eqv.lift (take_map _ _ _)) fun ys => ?_
  refine Eqv.bind (s := List.map (scale ((g : ℝ) ^ 2))) (Eqv.lift (take_map _ _ _)) fun s2 => ?_
  refine Eqv.bind (s := id) (Eqv.lift ?_) fun snr => Eqv.lift map_id_except.symm
  have e2 : (s2.map (scale ((g : ℝ) ^ 2))).map Fl.sqrt = (s2.map Fl.sqrt).map (scale (g : ℝ)) := by
    rw [List.map_map, List.map_map]
    exact List.map_congr_left fun x _ => sqrt_scale h0 x
  rw [e2, Np.bin_map (· / ·) (· / ·) (scale (g : ℝ)) (scale (g : ℝ)) id]
  · rw [List.map_id_fun]
  · intro x y
    rw [scale_div h0 h0, div_self h0.ne', scale_one]
    rfl

theorem post_bind {α β : Type} {P : β → Prop} {x : M ℝ α} {f : α → M ℝ β} (h : ∀ a r d, (f a r).1 = .ok d → P d) (r : Res ℝ) (d : β)
    (hd : ((x >>= f) r).1 = .ok d) : P d := by
  have hd : (M.bind x f r).1 = .ok d := hd
  unfold M.bind at hd
  cases hx : x r with
  | mk a r' =>
    rw [hx] at hd
    cases a with
    | error e => cases hd
    | ok a => exact h a r' d hd

theorem snrData_line (r : Res ℝ) (d : Drawn) (h : val snrData r = .ok d) : ∃ x y, d = .line x y "Data" := by
  have h : (snrData r).1 = .ok d := h
  unfold snrData at h
  refine post_bind (P := fun d => ∃ x y, d = .line x y "Data") (fun t => post_bind fun P => post_bind fun up => post_bind fun Y =>
    post_bind fun ys => post_bind fun s2 => post_bind fun snr => ?_) r d h
  intro r d h
  have h : axPlot up snr "Data" = .ok d := h
  unfold axPlot at h
  split at h
  · cases h; exact ⟨_, _, rfl⟩
  · cases h

variable (fload : Str → Option (Except PyErr Img)) (path : Str) (ord : List ℝ → List ℝ)
  (images : Kind → Images ℝ) (pixels : Option ℕ) (pixel_area : Option ℝ) (index_u_ysat : Option ℤ)

/-- The SNR axis has no unit: the points of the SNR plot stay exactly where they are if all grey values become `g` times as large and
the black level rises by `c`.  They are the first thing drawn in the plot, whenever it is drawn. -/
theorem C104_snr_points (q : LSQ ℝ) (g c : ℤ) (hg : 0 < g) (N : ℕ) (hN : ∀ e ∈ images .temporal, ∀ p ∈ e.2, p.2.length = N) :
    unitOf (ylabel .snr) = [] ∧
    SameOutcome (fun r r' =>
        val snrData r' = val snrData r ∧
        ∀ D, val (draw q .snr) r = .ok D → ∃ x y, D.head? = some (.line x y "Data") ∧ val snrData r = .ok (.line x y "Data") ∧
          ∀ D', val (draw q .snr) r' = .ok D' → D'.head? = D.head?)
      (evaluate id fload path ord images pixels pixel_area index_u_ysat)
      (evaluate id (affFiles g c fload) path ord images pixels pixel_area index_u_ysat) := by
  refine ⟨rfl, ?_⟩
  obtain ⟨δ, h⟩ := evaluate_aff g c hg fload path ord images pixels pixel_area index_u_ysat N hN
  rw [h]
  cases evaluate id fload path ord images pixels pixel_area index_u_ysat with
  | error e => rfl
  | ok r =>
    have e : val snrData (affRes g c δ r) = val snrData r := by
      show (snrData (affRes g c δ r)).1 = _
      rw [((eqv_snrData (Q := fun _ _ => True) (d := δ) (c := c) hg) r trivial).1, map_id_except]
      rfl
    have head : ∀ r D, val (draw q .snr) r = .ok D → ∃ d, val snrData r = .ok d ∧ D.head? = some d := by
      intro r D hD
      have hD : val (plotSNR q) r = .ok D := hD
      rw [val_plotSNR] at hD
      cases h1 : val (uPMin q) r with
      | error e => rw [h1] at hD; cases hD
      | ok a =>
      cases h2 : val uPSat r with
      | error e => rw [h1, h2] at hD; cases hD
      | ok b =>
      cases h3 : Np.arange a b ((b - a) / .fin 100) with
      | error e => simp only [h1, h2, h3, bind, Except.bind] at hD; cases hD
      | ok X =>
      cases h4 : val snrData r with
      | error e => simp only [h1, h2, h3, h4, bind, Except.bind] at hD; cases hD
      | ok d =>
      cases h5 : val (snrTheoretical q X) r with
      | error e => simp only [h1, h2, h3, h4, h5, bind, Except.bind] at hD; cases hD
      | ok d2 =>
      cases h6 : snrIdeal X with
      | error e => simp only [h1, h2, h3, h4, h5, h6, bind, Except.bind] at hD; cases hD
      | ok d3 =>
      cases h7 : val (snrTotal q X) r with
      | error e => simp only [h1, h2, h3, h4, h5, h6, h7, bind, Except.bind] at hD; cases hD
      | ok d4 =>
        simp only [h1, h2, h3, h4, h5, h6, h7, bind, Except.bind] at hD
        cases hD
        exact ⟨d, rfl, rfl⟩
    refine ⟨e, fun D hD => ?_⟩
    obtain ⟨d, hd, hh⟩ := head r D hD
    obtain ⟨x, y, rfl⟩ := snrData_line r d hd
    refine ⟨x, y, hh, hd, fun D' hD' => ?_⟩
    obtain ⟨d', hd', hh'⟩ := head _ D' hD'
    rw [e, hd] at hd'
    cases hd'
    rw [hh, hh']

/-- the point of the dataset of C62: a signal of 85/2 and a variance of 2, also if the grey values are tripled and the black level is 5 -/
example : ∃ r r', evaluate id unitFs [] id (unitImages ℝ) none none none = .ok r ∧
    evaluate id (affFiles 3 5 unitFs) [] id (unitImages ℝ) none none none = .ok r' ∧
    val snrData r = .ok (.line [.fin 1] [.fin (85 / 2 / Real.sqrt 2)] "Data") ∧
    val snrData r' = .ok (.line [.fin 1] [.fin (85 / 2 / Real.sqrt 2)] "Data") := by
  obtain ⟨r, h1, h2⟩ := unit_evaluate
  have h := (C104_snr_points unitFs [] id (unitImages ℝ) none none none (exactLSQ ℝ) 3 5 (by norm_num) 2
    (by simp only [unitImages, List.mem_cons, List.not_mem_nil, or_false]; aesop)).2
  rw [h1] at h
  cases h' : evaluate id (affFiles 3 5 unitFs) [] id (unitImages ℝ) none none none with
  | error e => rw [h'] at h; exact h.elim
  | ok r' =>
    rw [h'] at h
    have e : val snrData r = .ok (.line [.fin 1] [.fin (85 / 2 / Real.sqrt 2)] "Data") := by
      have z : Real.sqrt 2 ≠ 0 := (Real.sqrt_pos.2 two_pos).ne'
      have nz : Np.nonzero ([.fin 2] : List (Fl ℝ)) = [0] := by
        simp [Np.nonzero, Np.argwhere, Fl.eqb]
      unfold snrData
      rw [val_bind_ok stable_temporal (by stab) rfl, h2]
      simp only [nz]
      rw [val_bind_ok (a := [.fin 1]) stable_photons (by stab) (by show Except.ok (r.temporal.u_p.map Fl.fin) = _; rw [h2]; rfl)]
      rw [val_bind_ok (a := [Fl.fin (1 : ℝ)]) (Stable.lift (Np.take [Fl.fin (1 : ℝ)] [0])) (by stab) rfl]
      rw [val_bind_ok (a := [.fin (107 / 2 + -11)]) Results.stable_signal (by stab) (by
        show (Np.bin (· - ·) r.temporal.u_y r.temporal.u_ydark) = _; rw [h2]; rfl)]
      rw [val_bind_ok (a := [Fl.fin (107 / 2 + -11 : ℝ)]) (Stable.lift (Np.take [Fl.fin (107 / 2 + -11 : ℝ)] [0])) (by stab) rfl]
      rw [val_bind_ok (a := [Fl.fin (2 : ℝ)]) (Stable.lift (Np.take [Fl.fin (2 : ℝ)] [0])) (by stab) rfl]
      rw [val_bind_ok (a := [Fl.fin ((107 / 2 + -11) / Real.sqrt 2)])
        (Stable.lift (Np.bin (· / ·) [Fl.fin (107 / 2 + -11 : ℝ)] (List.map Fl.sqrt [Fl.fin 2]))) (by stab) (by
        show Except.ok [Fl.fin (107 / 2 + -11) / Fl.sqrt (.fin 2)] = _
        have : Fl.sqrt (.fin (2 : ℝ)) = .fin (Real.sqrt 2) := by simp [Fl.sqrt]
        rw [this, Fl.fin_div z])]
      show Except.ok (Drawn.line [.fin 1] [.fin ((107 / 2 + -11) / Real.sqrt 2)] "Data") = _
      norm_num
    exact ⟨r, r', h1, rfl, e, h.1.trans e⟩

end Emva
