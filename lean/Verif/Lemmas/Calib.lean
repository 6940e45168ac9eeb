import Verif.Lemmas.AffineRead
import Verif.Spec.Calib
import Verif.Props.C79

/-!
The attributes of `Results1288` when photon counts, exposure times and the pixel area are given in other units.
-/
set_option autoImplicit false
set_option linter.unusedSectionVars false
namespace Emva
open Spec Data Fit
namespace Fit

theorem sqErr_scaleX (l : List (ℝ × ℝ)) (b m n : ℝ) (hb : b ≠ 0) :
    sqErr (l.map fun p => (b * p.1, p.2)) m n = sqErr l (b * m) n := by
  induction l with
  | nil => simp [sqErr]
  | cons p l ih =>
    simp only [sqErr, List.map_cons, List.sum_cons] at ih ⊢
    rw [ih]; ring

theorem bestLine_scaleX {l : List (ℝ × ℝ)} {b m n : ℝ} (hb : b ≠ 0) (h : BestLine l m n) :
    BestLine (l.map fun p => (b * p.1, p.2)) (b⁻¹ * m) n := by
  intro m' n' hne
  rw [sqErr_scaleX _ _ _ _ hb, sqErr_scaleX _ _ _ _ hb, mul_inv_cancel_left₀ hb]
  refine h _ _ ?_
  intro he
  apply hne
  simp only [Prod.mk.injEq] at he ⊢
  refine ⟨?_, he.2⟩
  rw [← he.1, inv_mul_cancel_left₀ hb]

end Fit

theorem linearB_scaleX {q : LSQ ℝ} (hq : q.Good) {b : ℝ} (hb : 0 < b) (X Y : List ℝ) (hl : X.length = Y.length)
    (h : ∃ x ∈ X, ∃ x' ∈ X, x ≠ x') :
    linearB q ((X.map (b * ·)).map .fin) (Y.map .fin) =
      (linearB q (X.map .fin) (Y.map .fin)).map fun p => (scale b⁻¹ p.1, p.2) := by
  obtain ⟨m, n, h1, h2⟩ := linearB_fin hq X Y hl h
  obtain ⟨x, hx, x', hx', hne⟩ := h
  obtain ⟨m', n', h1', h2'⟩ := linearB_fin hq (X.map (b * ·)) Y (by simpa using hl)
    ⟨b * x, List.mem_map_of_mem hx, b * x', List.mem_map_of_mem hx', fun e => hne (mul_left_cancel₀ hb.ne' e)⟩
  rw [h1, h1']
  show Except.ok _ = Except.ok (scale b⁻¹ (.fin m), Fl.fin n)
  rw [scale_fin]
  have h3 := bestLine_scaleX hb.ne' h2
  rw [← List.map_id Y, List.zip_map] at h2'
  have h4 : (m', n') = (b⁻¹ * m, n) := by
    by_contra hne
    exact lt_asymm (h3 _ _ hne) (h2' _ _ (Ne.symm hne))
  simp only [Prod.mk.injEq] at h4
  rw [h4.1, h4.2]

theorem nUnique_scale {b : ℝ} (hb : 0 < b) (l : List ℝ) : Np.nUnique (l.map (b * ·)) = Np.nUnique l := by
  unfold Np.nUnique
  rw [List.dedup_map_of_injective (fun x y h => mul_left_cancel₀ hb.ne' h), List.length_map]

namespace Results

/-- the values on two objects correspond -/
structure Cor (r r' : Res ℝ) {α β : Type} (s : α → β) (x : M ℝ α) (y : M ℝ β) : Prop where
  sx : Stable x
  sy : Stable y
  eq : val y r' = (val x r).map s

variable {r r' : Res ℝ} {α β γ δ : Type}

theorem val_lift_bind (x : Except PyErr α) (f : α → M ℝ β) (r : Res ℝ) :
    val (lift x >>= f) r = x >>= fun a => val (f a) r := by cases x <;> rfl

theorem M.bind_assoc (x : M ℝ α) (f : α → M ℝ β) (g : β → M ℝ γ) :
    x >>= f >>= g = x >>= fun a => f a >>= g := by
  funext r
  show M.bind (M.bind x f) g r = M.bind x (fun a => M.bind (f a) g) r
  unfold M.bind
  rcases x r with ⟨v, q⟩
  cases v <;> rfl

theorem Cor.pure {s : α → β} {a : α} {b : β} (h : b = s a) : Cor r r' s (pure a) (pure b) :=
  ⟨Stable.pure _, Stable.pure _, by rw [h]; rfl⟩

theorem Cor.bind {s : α → β} {t : γ → δ} {x : M ℝ α} {y : M ℝ β} {f : α → M ℝ γ} {h : β → M ℝ δ}
    (hx : Cor r r' s x y) (sf : ∀ a, Stable (f a)) (sh : ∀ a, Stable (h a))
    (hf : ∀ a, val x r = .ok a → val (h (s a)) r' = (val (f a) r).map t) :
    Cor r r' t (x >>= f) (y >>= h) := by
  refine ⟨hx.sx.bind sf, hx.sy.bind sh, ?_⟩
  rw [val_bind hx.sx sf, val_bind hx.sy sh, hx.eq]
  cases hv : val x r with
  | error e => rfl
  | ok a => exact hf a hv

theorem Cor.of_eq {s : α → β} {x : M ℝ α} {y : M ℝ β} (sx : Stable x) (sy : Stable y)
    (h : val y r' = (val x r).map s) : Cor r r' s x y := ⟨sx, sy, h⟩

/-- the objects agree on what the computation uses -/
theorem Cor.of_frame {t : List Inp} {x : M ℝ α} (h : Frame t x x) (hr : Agree t r r') (hs : Stable x) :
    Cor r r' id x x := ⟨hs, hs, by rw [map_id_except]; exact (h.mk hr).symm⟩

theorem Cor.bind1 {s : α → α} {t : γ → γ} {x : M ℝ α} {f : α → γ} (hx : Cor r r' s x x)
    (h : ∀ a, f (s a) = t (f a)) : Cor r r' t (x >>= fun a => Pure.pure (f a)) (x >>= fun a => Pure.pure (f a)) :=
  hx.bind (fun _ => Stable.pure _) (fun _ => Stable.pure _) fun a _ => by simp only [val_pure, h]; rfl

theorem Cor.bind2 {s : α → α} {u : β → β} {t : γ → γ} {x : M ℝ α} {y : M ℝ β} {f : α → β → γ} (hx : Cor r r' s x x)
    (hy : Cor r r' u y y) (h : ∀ a b, f (s a) (u b) = t (f a b)) :
    Cor r r' t (x >>= fun a => y >>= fun b => Pure.pure (f a b)) (x >>= fun a => y >>= fun b => Pure.pure (f a b)) :=
  hx.bind (fun _ => hy.sx.bind fun _ => Stable.pure _) (fun _ => hy.sx.bind fun _ => Stable.pure _) fun a _ => by
    rw [val_bind hy.sx fun _ => Stable.pure _, val_bind hy.sx fun _ => Stable.pure _, hy.eq]
    cases val y r with
    | error e => rfl
    | ok b => simp only [Except.map, except_bind_ok, val_pure, h]

theorem Cor.as {s : α → α} {x : M ℝ α} {f : α → Value} {k : Value → Value} (hx : Cor r r' s x x)
    (h : ∀ a, f (s a) = k (f a)) : val (x.as f) r' = (val (x.as f) r).map k := (hx.bind1 h).eq

variable {a b c : ℝ} (ha : 0 < a) (hb : 0 < b) (hc : 0 < c) (q : LSQ ℝ)

/-- what the change of units leaves as it is -/
theorem agree_inUnits (a b c : ℝ) (r : Res ℝ) {s : List Inp} (h1 : .u_p ∉ s) (h2 : .texp ∉ s) (h3 : .area ∉ s) :
    Agree s r (inUnits a b c r) := by
  intro i hi
  cases i <;> first | rfl | exact absurd hi ‹_›

/-- the hypotheses on the data -/
structure UnitsOK (q : LSQ ℝ) (r : Res ℝ) : Prop where
  good : q.Good
  reg : Regular r.temporal
  dark : DarkRegular r.temporal

theorem cor_frame {t : List Inp} {x : M ℝ α} (h : Frame t x x) (hs : Stable x)
    (h1 : .u_p ∉ t := by simp [gainIn, respIn, qeIn, rangeIn, satIn])
    (h2 : .texp ∉ t := by simp [gainIn, respIn, qeIn, rangeIn, satIn])
    (h3 : .area ∉ t := by simp [gainIn, respIn, qeIn, rangeIn, satIn]) :
    Cor r (inUnits a b c r) id x x := Cor.of_frame h (agree_inUnits a b c r h1 h2 h3) hs

theorem cor_K : Cor r (inUnits a b c r) id (K q) (K q) :=
  cor_frame (t := gainIn) (frame_K q fun _ h => h) (stable_K q)

theorem cor_index : Cor r (inUnits a b c r) id (indexUysat (F := ℝ)) indexUysat :=
  cor_frame (t := satIn) (frame_index (by inl) (by inl)) Stable.indexUysat

theorem cor_linMax : Cor r (inUnits a b c r) id (indexLinearityMax (F := ℝ)) indexLinearityMax :=
  cor_frame (t := rangeIn) (frame_linMax fun _ h => h) stable_linMax

theorem cor_linMin : Cor r (inUnits a b c r) id (indexLinearityMin (F := ℝ)) indexLinearityMin :=
  cor_frame (t := rangeIn) (frame_linMin fun _ h => h) stable_linMin

theorem cor_smax : Cor r (inUnits a b c r) id (indexSensitivityMax (F := ℝ)) indexSensitivityMax :=
  cor_frame (t := rangeIn) (frame_smax fun _ h => h) stable_smax

theorem map_fin_units (a : ℝ) (l : List ℝ) : (l.map (a * ·)).map Fl.fin = (l.map Fl.fin).map (scale a) := by
  simp [Function.comp_def]

include ha in
theorem cor_R (h : UnitsOK q r) : Cor r (inUnits a b c r) (scale a⁻¹) (R q) (R q) := by
  refine ⟨stable_R q, stable_R q, ?_⟩
  rw [val_R, val_R]
  have hj := (cor_smax (r := r) (a := a) (b := b) (c := c)).eq
  rw [map_id_except] at hj
  rw [hj]
  show (do
    let Y ← Np.bin (· - ·) r.temporal.u_y r.temporal.u_ydark
    let j ← val indexSensitivityMax r
    linearB0 q (Np.slice ((r.temporal.u_p.map (a * ·)).map .fin) 0 (j + 1)) (Np.slice Y 0 (j + 1))) = _
  cases hY : Np.bin (· - ·) r.temporal.u_y r.temporal.u_ydark with
  | error e => rfl
  | ok Y =>
    cases val indexSensitivityMax r with
    | error e => rfl
    | ok j =>
      simp only [except_bind_ok]
      obtain ⟨ys, rfl, hl, -⟩ := h.reg.signal hY
      have := linearB0_scale h.good ha one_pos (Np.slice r.temporal.u_p 0 (j + 1)) (Np.slice ys 0 (j + 1))
        (by simp [Np.slice, hl]) (slice0_head h.reg.photons0 j)
      have e1 : (scale (1 : ℝ)) = id := funext fun x => scale_one x
      rw [e1, List.map_id, one_div] at this
      rw [map_fin_units]
      simp only [Np.slice_map]
      exact this

include ha in
theorem cor_QE (h : UnitsOK q r) : Cor r (inUnits a b c r) (scale a⁻¹) (QE q) (QE q) := by
  unfold QE
  refine (cor_R ha q h).bind2 (cor_K q) fun x k => ?_
  rw [scale_mul_fin (inv_pos.2 ha)]
  have := scale_div (inv_pos.2 ha) one_pos (.fin 100 * x) k
  rw [scale_one, div_one] at this
  exact this

theorem cor_uPSat : Cor r (inUnits a b c r) (scale a) (uPSat (F := ℝ)) uPSat := by
  refine ⟨stable_uPSat, stable_uPSat, ?_⟩
  have hj := (cor_index (r := r) (a := a) (b := b) (c := c)).eq
  rw [map_id_except] at hj
  have e : ∀ r : Res ℝ, val uPSat r = (do let k ← val indexUysat r; let x ← Np.idx r.temporal.u_p k; Pure.pure (Fl.fin x)) := by
    intro r
    unfold uPSat
    rw [val_bind stable_temporal (by stab), val_ask, except_bind_ok, val_bind Stable.indexUysat (by stab)]
    congr 1; funext k
    rw [val_lift_bind]
    rfl
  rw [e, e, hj]
  cases val indexUysat r with
  | error e => rfl
  | ok k =>
    simp only [except_bind_ok]
    show (do let x ← Np.idx (r.temporal.u_p.map (a * ·)) k; Pure.pure (Fl.fin x)) = _
    rw [Np.idx_map]
    cases Np.idx r.temporal.u_p k with
    | error e => rfl
    | ok x => show Except.ok (Fl.fin (a * x)) = Except.ok (scale a (.fin x)); rw [scale_fin]

include ha in
theorem cor_uESat (h : UnitsOK q r) : Cor r (inUnits a b c r) id (uESat q) (uESat q) := by
  unfold uESat
  refine (cor_QE ha q h).bind2 cor_uPSat fun e p => ?_
  rw [scale_mul (inv_pos.2 ha) ha, inv_mul_cancel₀ ha.ne', scale_one]; rfl

include hc in
theorem cor_perArea {k : ℝ} (hk : 0 < k) {x : M ℝ (Fl ℝ)} (hx : Cor r (inUnits a b c r) (scale k) x x) :
    Cor r (inUnits a b c r) (scaleNum (k / c)) (perArea x) (perArea x) := by
  refine ⟨stable_perArea hx.sx, stable_perArea hx.sx, ?_⟩
  have sx := hx.sx
  have e : ∀ r : Res ℝ, val (perArea x) r = match r.pixel_area with
      | none => .ok .none
      | some a => if a = 0 then .ok .none else (do let v ← val x r; Pure.pure (.num (v / .fin a))) := by
    intro r
    unfold perArea
    rw [val_bind stable_area (by stab), val_ask, except_bind_ok]
    cases r.pixel_area with
    | none => rfl
    | some a =>
      by_cases h : a = 0
      · simp only [h, if_true]; rfl
      · simp only [h, if_false]
        rw [val_bind hx.sx (by stab)]
        rfl
  rw [e, e, hx.eq]
  show (match r.pixel_area.map (c * ·) with
      | none => _
      | some a => _) = _
  cases r.pixel_area with
  | none => rfl
  | some d =>
    simp only [Option.map_some, mul_eq_zero, hc.ne', false_or]
    by_cases h : d = 0
    · simp only [h, if_true]; rfl
    · simp only [h, if_false]
      cases val x r with
      | error e => rfl
      | ok v =>
        show Except.ok (PyNum.num (scale k v / Fl.fin (c * d))) = Except.ok (PyNum.num (scale (k / c) (v / .fin d)))
        rw [← scale_fin, scale_div hk hc]

include hb in
theorem few_inUnits : val fewExposures (inUnits a b c r) = val (fewExposures (F := ℝ)) r := by
  show Except.ok (decide (Np.nUnique (r.temporal.texp.map (b * ·)) ≤ 2)) = Except.ok (decide (Np.nUnique r.temporal.texp ≤ 2))
  rw [nUnique_scale hb]

include hb in
theorem linearB_s2_units (h : UnitsOK q r) (hf : ¬ Np.nUnique r.temporal.texp ≤ 2) :
    linearB q ((r.temporal.texp.map (b * ·)).map .fin) r.temporal.s2_ydark =
      (linearB q (r.temporal.texp.map .fin) r.temporal.s2_ydark).map fun p => (scale b⁻¹ p.1, p.2) := by
  obtain ⟨l, hl⟩ := h.dark.fin_sd
  have e := h.dark.len
  rw [← h.dark.len_sd, hl, List.length_map] at e
  rw [hl]
  exact linearB_scaleX h.good hb _ _ e (two_of_nUnique hf)

include hb in
theorem linearB_ud_units (h : UnitsOK q r) (hf : ¬ Np.nUnique r.temporal.texp ≤ 2) :
    linearB q ((r.temporal.texp.map (b * ·)).map .fin) r.temporal.u_ydark =
      (linearB q (r.temporal.texp.map .fin) r.temporal.u_ydark).map fun p => (scale b⁻¹ p.1, p.2) := by
  obtain ⟨l, hl⟩ := h.dark.fin_d
  have e := h.dark.len
  rw [hl, List.length_map] at e
  rw [hl]
  exact linearB_scaleX h.good hb _ _ e (two_of_nUnique hf)

theorem val_rawDark (r : Res ℝ) : val (rawDark q) r =
    if Np.nUnique r.temporal.texp ≤ 2 then Np.idx r.temporal.s2_ydark 0
    else (do let fit ← linearB q (r.temporal.texp.map .fin) r.temporal.s2_ydark; Pure.pure fit.2) := by
  unfold rawDark
  rw [val_bind stable_few (by stab), show val fewExposures r = .ok (decide (Np.nUnique r.temporal.texp ≤ 2)) from rfl,
    except_bind_ok, val_bind stable_temporal (by stab), val_ask, except_bind_ok]
  by_cases h : Np.nUnique r.temporal.texp ≤ 2
  · simp only [h, decide_true, if_true, val_lift]
  · simp only [h, decide_false, Bool.false_eq_true, if_false]
    rw [val_lift_bind]
    rfl

include hb in
theorem cor_rawDark (h : UnitsOK q r) : Cor r (inUnits a b c r) id (rawDark q) (rawDark q) := by
  refine ⟨stable_rawDark q, stable_rawDark q, ?_⟩
  rw [map_id_except, val_rawDark, val_rawDark]
  show (if Np.nUnique (r.temporal.texp.map (b * ·)) ≤ 2 then _ else
    (do let fit ← linearB q ((r.temporal.texp.map (b * ·)).map .fin) r.temporal.s2_ydark; Pure.pure fit.2)) = _
  rw [nUnique_scale hb]
  split
  · rfl
  · rename_i hf
    rw [linearB_s2_units hb q h hf]
    cases linearB q (r.temporal.texp.map .fin) r.temporal.s2_ydark <;> rfl

include hb in
theorem cor_sigmaYDark (h : UnitsOK q r) : Cor r (inUnits a b c r) id (sigmaYDark q) (sigmaYDark q) := by
  unfold sigmaYDark s2YDark
  exact ((cor_rawDark hb q h).bind1 (t := id)
    (f := fun v => if v.lt (.fin (24 / 100)) = true then .fin (24 / 100) else v) fun _ => rfl).bind1 (t := id) (f := Fl.sqrt) fun _ => rfl

include hb in
theorem cor_sigmaD (h : UnitsOK q r) : Cor r (inUnits a b c r) id (sigmaD q) (sigmaD q) := by
  unfold sigmaD
  exact (cor_sigmaYDark hb q h).bind2 (cor_K q) fun _ _ => rfl

include ha hb in
theorem cor_uPMin (h : UnitsOK q r) : Cor r (inUnits a b c r) (scale a) (uPMin q) (uPMin q) := by
  have h1 : Cor r (inUnits a b c r) id (do let s ← sigmaYDark q; let k ← K q; Pure.pure (s / k + .fin (1 / 2)))
      (do let s ← sigmaYDark q; let k ← K q; Pure.pure (s / k + .fin (1 / 2))) :=
    (cor_sigmaYDark hb q h).bind2 (cor_K q) fun _ _ => rfl
  have h2 := (cor_QE (b := b) (c := c) ha q h).bind2 h1 (t := scale a) (f := fun e y => .fin 100 / e * y) fun e y => by
    have h3 := scale_div one_pos (inv_pos.2 ha) (.fin 100) e
    rw [scale_one, one_div, inv_inv] at h3
    rw [h3]
    have h4 := scale_mul ha one_pos (.fin 100 / e) y
    rw [scale_one, mul_one] at h4
    exact h4
  have e : uPMin q = QE q >>= fun x => (do let s ← sigmaYDark q; let k ← K q; Pure.pure (s / k + .fin (1 / 2))) >>=
      fun y => Pure.pure (.fin 100 / x * y) := by
    unfold uPMin
    congr 1; funext x
    rw [M.bind_assoc]
    congr 1; funext s
    rw [M.bind_assoc]
    rfl
  rw [e]
  exact h2

include ha hb in
theorem cor_uEMin (h : UnitsOK q r) : Cor r (inUnits a b c r) id (uEMin q) (uEMin q) := by
  unfold uEMin
  refine (cor_QE ha q h).bind2 (cor_uPMin ha hb q h) fun e p => ?_
  rw [scale_mul (inv_pos.2 ha) ha, inv_mul_cancel₀ ha.ne', scale_one]; rfl

include ha hb in
theorem cor_DR (h : UnitsOK q r) : Cor r (inUnits a b c r) id (DR q) (DR q) := by
  unfold DR
  refine cor_uPSat.bind2 (cor_uPMin ha hb q h) fun e p => ?_
  rw [scale_div ha ha, div_self ha.ne', scale_one]; rfl

include ha in
theorem cor_SNRMax (h : UnitsOK q r) : Cor r (inUnits a b c r) id (SNRMax q) (SNRMax q) := by
  unfold SNRMax
  exact (cor_uESat ha q h).bind1 fun _ => rfl

/-- the slope of the line -/
noncomputable def slopeLin (k : ℝ) (l : Linearity ℝ) : Linearity ℝ := { l with fit_slope := scale k l.fit_slope }

include ha in
theorem linFit_scaleX (X Y : List (Fl ℝ)) :
    linFit (X.map (scale a)) Y = (linFit X Y).map fun p => (scale a⁻¹ p.1, p.2) := by
  have a2 := pow_pos ha 2
  have e1 := Np.bin_map (fun x y : Fl ℝ => x / y) (fun x y => x / y) (scale a) id (scale a)
    (fun x y => by
      have := scale_div ha one_pos x y
      rw [scale_one, div_one] at this
      exact this) X Y
  have e2 := Np.bin_map (fun x y : Fl ℝ => x / Fl.sq y) (fun x y => x / Fl.sq y) (scale a) id (scale a)
    (fun x y => by
      have := scale_div ha one_pos x (Fl.sq y)
      rw [scale_one, div_one] at this
      exact this) X Y
  rw [List.map_id] at e1 e2
  unfold linFit
  rw [e1, e2]
  cases Np.bin (fun x y : Fl ℝ => x / y) X Y with
  | error e => rfl
  | ok A =>
    cases Np.bin (fun x y : Fl ℝ => x / Fl.sq y) X Y with
    | error e => rfl
    | ok B =>
      show Except.ok _ = Except.ok _
      have e5 : (A.map (scale a)).map Fl.sq = (A.map Fl.sq).map (scale (a ^ 2)) := by
        rw [List.map_map, List.map_map]
        refine List.map_congr_left fun y _ => ?_
        simp only [Function.comp_apply]
        rw [scale_sq ha]
      simp only [e5, sum_scale]
      set A' := Fl.sum A
      set B' := Fl.sum B
      set y1 := Fl.sum (Y.map fun y => (.fin 1 : Fl ℝ) / y)
      set y2 := Fl.sum (Y.map fun y => (.fin 1 : Fl ℝ) / Fl.sq y)
      set p := Fl.sum (A.map Fl.sq)
      have m1 : ∀ x y : Fl ℝ, scale (a ^ 2) x * y = scale (a ^ 2) (x * y) := fun x y => by
        have := scale_mul a2 one_pos x y
        rw [scale_one, mul_one] at this
        exact this
      have m2 : ∀ x y : Fl ℝ, x * scale a y = scale a (x * y) := fun x y => by
        have := scale_mul one_pos ha x y
        rw [scale_one, one_mul] at this
        exact this
      rw [scale_mul ha ha, m1, ← sq, scale_sub, scale_sq ha, m1, scale_sub, scale_div a2 a2, div_self a2.ne', scale_one,
        m2, scale_sub, scale_div ha a2]
      congr 3
      field_simp

include ha in
theorem cor_linearity : Cor r (inUnits a b c r) (slopeLin a⁻¹) (linearity (F := ℝ)) linearity := by
  refine ⟨stable_linearity, stable_linearity, ?_⟩
  have s1 := stable_linMin (F := ℝ)
  have s2 := stable_linMax (F := ℝ)
  have e : ∀ r : Res ℝ, val linearity r = (do
      let Y ← val signal r
      let jm ← val indexLinearityMax r
      let imin ← val indexLinearityMin r
      let p ← linFit (Np.slice (r.temporal.u_p.map .fin) imin (jm + 1)) (Np.slice Y imin (jm + 1))
      let dev ← Np.bin (fun y x => .fin 100 * (y - (p.1 * x + p.2)) / (p.1 * x + p.2)) Y (r.temporal.u_p.map .fin)
      let lo ← Np.amin (Np.slice dev imin (jm + 1))
      let hi ← Np.amax (Np.slice dev imin (jm + 1))
      Pure.pure ⟨p.1, p.2, dev, lo, hi⟩) := by
    intro r
    unfold linearity
    rw [val_bind stable_signal (by stab)]
    congr 1; funext Y
    rw [val_bind stable_photons (by stab), val_photons, except_bind_ok, val_bind s2 (by stab)]
    congr 1; funext jm
    rw [val_bind s1 (by stab)]
    congr 1; funext imin
    rw [val_lift_bind]
    congr 1; funext p
    rw [val_lift_bind]
    congr 1; funext dev
    rw [val_lift_bind]
    congr 1; funext lo
    rw [val_lift_bind]
    rfl
  have h1 := (cor_linMax (r := r) (a := a) (b := b) (c := c)).eq
  have h2 := (cor_linMin (r := r) (a := a) (b := b) (c := c)).eq
  rw [map_id_except] at h1 h2
  rw [e, e, h1, h2, show val signal (inUnits a b c r) = val signal r from rfl]
  cases val signal r with
  | error e => rfl
  | ok Y =>
  cases val indexLinearityMax r with
  | error e => rfl
  | ok jm =>
  cases val indexLinearityMin r with
  | error e => rfl
  | ok imin =>
  simp only [except_bind_ok]
  rw [show (inUnits a b c r).temporal.u_p.map Fl.fin = (r.temporal.u_p.map Fl.fin).map (scale a) from map_fin_units a _,
    Np.slice_map, linFit_scaleX ha]
  cases linFit (Np.slice (r.temporal.u_p.map Fl.fin) imin (jm + 1)) (Np.slice Y imin (jm + 1)) with
  | error e => rfl
  | ok p =>
  simp only [except_bind_ok, Except.map]
  have := Np.bin_map (fun y x : Fl ℝ => .fin 100 * (y - (p.1 * x + p.2)) / (p.1 * x + p.2))
    (fun y x : Fl ℝ => .fin 100 * (y - (scale a⁻¹ p.1 * x + p.2)) / (scale a⁻¹ p.1 * x + p.2)) id (scale a) id (by
      intro y x
      rw [scale_mul (inv_pos.2 ha) ha, inv_mul_cancel₀ ha.ne', scale_one]; rfl) Y (r.temporal.u_p.map .fin)
  rw [List.map_id] at this
  rw [this]
  cases Np.bin (fun y x : Fl ℝ => .fin 100 * (y - (p.1 * x + p.2)) / (p.1 * x + p.2)) Y (r.temporal.u_p.map .fin) with
  | error e => rfl
  | ok dev =>
  simp only [except_bind_ok, Except.map, List.map_id]
  cases Np.amin (Np.slice dev imin (jm + 1)) with
  | error e => rfl
  | ok lo =>
  cases Np.amax (Np.slice dev imin (jm + 1)) with
  | error e => rfl
  | ok hi => rfl

include hb in
theorem cor_uIVarDN (h : UnitsOK q r) : Cor r (inUnits a b c r) (scaleNum b⁻¹) (uIVarDN q) (uIVarDN q) := by
  refine ⟨stable_uIVarDN q, stable_uIVarDN q, ?_⟩
  have sK := stable_K q
  have e : ∀ r : Res ℝ, val (uIVarDN q) r =
      if Np.nUnique r.temporal.texp ≤ 2 then .ok .npnan
      else (do
        let fit ← linearB q (r.temporal.texp.map .fin) r.temporal.s2_ydark
        if Fl.lt fit.1 (.fin 0) then Pure.pure .npnan
        else do
          let k ← val (K q) r
          Pure.pure (.num (fit.1 / k * .fin (10 ^ 9)))) := by
    intro r
    unfold uIVarDN
    rw [val_bind stable_few (by stab), show val fewExposures r = .ok (decide (Np.nUnique r.temporal.texp ≤ 2)) from rfl,
      except_bind_ok]
    by_cases h : Np.nUnique r.temporal.texp ≤ 2
    · simp only [h, decide_true, if_true]; rfl
    · simp only [h, decide_false, Bool.false_eq_true, if_false]
      rw [val_bind stable_temporal (by stab), val_ask, except_bind_ok, val_bind (Stable.lift _) (by stab), val_lift]
      congr 1; funext fit
      by_cases h2 : Fl.lt fit.1 (.fin 0) = true
      · simp only [h2, if_true]; rfl
      · rw [if_neg h2, if_neg h2]
        rw [val_bind sK (by stab)]
        rfl
  have hK := (cor_K (r := r) (a := a) (b := b) (c := c) q).eq
  rw [map_id_except] at hK
  rw [e, e, hK]
  have ht : (inUnits a b c r).temporal.texp = r.temporal.texp.map (b * ·) := rfl
  have hs : (inUnits a b c r).temporal.s2_ydark = r.temporal.s2_ydark := rfl
  rw [ht, hs, nUnique_scale hb]
  split
  · rfl
  · rename_i hf
    rw [linearB_s2_units hb q h hf]
    cases linearB q (r.temporal.texp.map .fin) r.temporal.s2_ydark with
    | error e => rfl
    | ok p =>
      have hl : Fl.lt (scale b⁻¹ p.1) (.fin 0) = Fl.lt p.1 (.fin 0) := by
        have := lt_scale (inv_pos.2 hb) p.1 (.fin 0)
        rwa [scale_fin, mul_zero] at this
      simp only [Except.map, except_bind_ok, hl]
      split
      · rfl
      · cases val (K q) r with
        | error e => rfl
        | ok k =>
          show Except.ok (PyNum.num _) = Except.ok (PyNum.num (scale _ _))
          have h3 := scale_div (inv_pos.2 hb) one_pos p.1 k
          rw [scale_one, div_one] at h3
          rw [h3, scale_mul_fin' (inv_pos.2 hb)]

include hb in
theorem cor_uIMeanDN (h : UnitsOK q r) : Cor r (inUnits a b c r) (scaleNum b⁻¹) (uIMeanDN q) (uIMeanDN q) := by
  refine ⟨stable_uIMeanDN q, stable_uIMeanDN q, ?_⟩
  have e : ∀ r : Res ℝ, val (uIMeanDN q) r =
      if Np.nUnique r.temporal.texp ≤ 2 then .ok .npnan
      else (do
        let fit ← linearB q (r.temporal.texp.map .fin) r.temporal.u_ydark
        Pure.pure (.num (fit.1 * .fin (10 ^ 9)))) := by
    intro r
    unfold uIMeanDN
    rw [val_bind stable_few (by stab), show val fewExposures r = .ok (decide (Np.nUnique r.temporal.texp ≤ 2)) from rfl,
      except_bind_ok]
    by_cases h : Np.nUnique r.temporal.texp ≤ 2
    · simp only [h, decide_true, if_true]; rfl
    · simp only [h, decide_false, Bool.false_eq_true, if_false]
      rw [val_bind stable_temporal (by stab), val_ask, except_bind_ok, val_lift_bind]
      rfl
  rw [e, e]
  have ht : (inUnits a b c r).temporal.texp = r.temporal.texp.map (b * ·) := rfl
  have hs : (inUnits a b c r).temporal.u_ydark = r.temporal.u_ydark := rfl
  rw [ht, hs, nUnique_scale hb]
  split
  · rfl
  · rename_i hf
    rw [linearB_ud_units hb q h hf]
    cases linearB q (r.temporal.texp.map .fin) r.temporal.u_ydark with
    | error e => rfl
    | ok p =>
      show Except.ok (PyNum.num _) = Except.ok (PyNum.num (scale _ _))
      rw [← scale_mul_fin' (inv_pos.2 hb)]

theorem cor_overK {k : ℝ} (hk : 0 < k) {x : M ℝ (PyNum ℝ)} (hx : Cor r (inUnits a b c r) (scaleNum k) x x) :
    Cor r (inUnits a b c r) (scaleNum k) (overK q x) (overK q x) := by
  have sK := stable_K q
  have hK := (cor_K (r := r) (a := a) (b := b) (c := c) q).eq
  rw [map_id_except] at hK
  unfold overK
  refine hx.bind (by intro a; stab) (by intro a; stab) fun u _ => ?_
  cases u with
  | npnan => rfl
  | none => rfl
  | num v =>
    simp only [scaleNum]
    rw [val_bind sK (by stab), val_bind sK (by stab), hK]
    cases val (K q) r with
    | error e => rfl
    | ok y =>
      show Except.ok (PyNum.num (_ / _)) = Except.ok (PyNum.num (scale k _))
      have h3 := scale_div hk one_pos v y
      rw [scale_one, div_one] at h3
      rw [h3]

end Results
end Emva
