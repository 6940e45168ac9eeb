import Verif.Lemmas.AffineData2
import Verif.Lemmas.Results
import Verif.Lemmas.Fit
import Verif.Lemmas.HighPass

/-!
`Results1288` of a dataset whose pixel values are `g * x + c`.
-/
set_option autoImplicit false
set_option linter.unusedSectionVars false
namespace Emva
open Spec Data
namespace Np
variable {α β γ α' β' γ' : Type}

theorem bin_map (op : α → β → γ) (op' : α' → β' → γ') (f : α → α') (h : β → β') (s : γ → γ')
    (e : ∀ x y, op' (f x) (h y) = s (op x y)) (a : List α) (b : List β) :
    bin op' (a.map f) (b.map h) = (bin op a b).map (List.map s) := by
  unfold bin
  simp only [List.length_map]
  split
  · rw [List.zipWith_map]
    simp only [Except.map, e, List.map_zipWith]
  · match a, b with
    | [x], [] => simp [Except.map]
    | [x], y :: b => simp [Except.map, e]
    | [], [y] => simp [Except.map]
    | x :: x' :: a, [y] => simp [Except.map, e]
    | [], [] => rfl
    | [], _ :: _ :: _ => rfl
    | _ :: _ :: _, [] => rfl
    | _ :: _ :: _, _ :: _ :: _ => rfl

theorem idx_map (f : α → β) (a : List α) (i : ℤ) : idx (a.map f) i = (idx a i).map f := by
  unfold idx
  simp only [List.length_map, List.getElem?_map]
  split
  · split
    · rfl
    · cases a[(i + ↑a.length).toNat]? <;> rfl
  · cases a[i.toNat]? <;> rfl

theorem argwhere_map (f : α → β) (p : β → Bool) (a : List α) : argwhere p (a.map f) = argwhere (fun x => p (f x)) a := by
  unfold argwhere
  simp [Function.comp_def]

variable {F : Type} [Field F] [LinearOrder F] [IsStrictOrderedRing F]

end Np

namespace Results
variable {F : Type} [Field F] [LinearOrder F] [IsStrictOrderedRing F] {α β γ δ : Type}

/-- the object after the change -/
def affRes (g c : ℤ) (d : F) (r : Res F) : Res F :=
  { r with temporal := affTemporal (g : F) d r.temporal, spatial := affSpatial g c r.spatial }

/-- `y` on the changed object gives the image under `s` of what `x` gives on the object, for all objects
whose data satisfy `Q`. -/
def Eqv (Q : Temporal F → Spatial F → Prop) (g c : ℤ) (d : F) (s : α → β) (x : M F α) (y : M F β) : Prop :=
  ∀ r, Q r.temporal r.spatial →
    y (affRes g c d r) = ((x r).1.map s, affRes g c d (x r).2) ∧
      (x r).2.temporal = r.temporal ∧ (x r).2.spatial = r.spatial

section
variable {Q : Temporal F → Spatial F → Prop} {g c : ℤ} {d : F}

theorem Eqv.pure {s : α → β} {a : α} {b : β} (h : b = s a) : Eqv Q g c d s (pure a) (pure b) := by
  intro r _
  subst h
  exact ⟨rfl, rfl, rfl⟩

theorem Eqv.lift {s : α → β} {x : Except PyErr α} {y : Except PyErr β} (h : y = x.map s) :
    Eqv Q g c d s (lift x) (lift y) := by
  intro r _
  subst h
  exact ⟨rfl, rfl, rfl⟩

theorem Eqv.ask {s : α → β} {f : Res F → α} {f' : Res F → β}
    (h : ∀ r, Q r.temporal r.spatial → f' (affRes g c d r) = s (f r)) : Eqv Q g c d s (ask f) (ask f') := by
  intro r hr
  refine ⟨?_, rfl, rfl⟩
  show (Except.ok (f' (affRes g c d r)), _) = _
  rw [h r hr]; rfl

theorem Eqv.bind_post {s : α → β} {t : γ → δ} {x : M F α} {y : M F β} {f : α → M F γ} {h : β → M F δ}
    (p : α → Prop) (hp : ∀ r a, Q r.temporal r.spatial → (x r).1 = .ok a → p a)
    (hx : Eqv Q g c d s x y) (hf : ∀ a, p a → Eqv Q g c d t (f a) (h (s a))) :
    Eqv Q g c d t (x >>= f) (y >>= h) := by
  intro r hr
  obtain ⟨h1, h2, h3⟩ := hx r hr
  have hpr := hp r
  show (M.bind y h) _ = _ ∧ _
  have hM : ∀ r, (x >>= f) r = M.bind x f r := fun _ => rfl
  simp only [hM]
  unfold M.bind
  rw [h1]
  cases hxr : x r with
  | mk e r' =>
    rw [hxr] at h2 h3 hpr
    cases e with
    | error e => exact ⟨rfl, h2, h3⟩
    | ok a =>
      simp only [Except.map]
      obtain ⟨g1, g2, g3⟩ := hf a (hpr a hr rfl) r' (by rw [h2, h3]; exact hr)
      exact ⟨g1, g2.trans h2, g3.trans h3⟩

theorem Eqv.bind {s : α → β} {t : γ → δ} {x : M F α} {y : M F β} {f : α → M F γ} {h : β → M F δ}
    (hx : Eqv Q g c d s x y) (hf : ∀ a, Eqv Q g c d t (f a) (h (s a))) :
    Eqv Q g c d t (x >>= f) (y >>= h) :=
  hx.bind_post (fun _ => True) (fun _ _ _ _ => trivial) fun a _ => hf a

theorem Eqv.mono {Q' : Temporal F → Spatial F → Prop} (hQ : ∀ t s, Q' t s → Q t s) {s : α → β} {x : M F α} {y : M F β}
    (h : Eqv Q g c d s x y) : Eqv Q' g c d s x y := fun r hr => h r (hQ _ _ hr)

theorem Eqv.ite {s : α → β} {x x' : M F α} {y y' : M F β} {b b' : Prop} [Decidable b] [Decidable b'] (hb : b' ↔ b)
    (h1 : b → Eqv Q g c d s x y) (h2 : ¬ b → Eqv Q g c d s x' y') :
    Eqv Q g c d s (if b then x else x') (if b' then y else y') := by
  by_cases h : b
  · rw [if_pos h, if_pos (hb.2 h)]; exact h1 h
  · rw [if_neg h, if_neg (fun h' => h (hb.1 h'))]; exact h2 h

variable (hg : 0 < g)
include hg

theorem gF : (0 : F) < (g : F) := by exact_mod_cast hg

omit hg in
theorem satLoop_map {a : F} (ha : 0 < a) (l : List (Fl F)) (i : ℕ) (m : Fl F) (k : ℕ) :
    satLoop (l.map (scale a)) i (scale a m) k = satLoop l i m k := by
  induction i generalizing m k with
  | zero => rfl
  | succ i ih =>
    simp only [satLoop, Np.idx_map]
    cases Np.idx l i with
    | error e => rfl
    | ok si =>
      simp only [Except.map, le_scale ha, lt_scale ha]
      split
      · exact ih _ _
      · cases Np.idx l (((i : ℤ) - 1).natAbs) with
        | error e => rfl
        | ok sp =>
          simp only [le_scale ha, lt_scale ha, ih]

theorem eqv_indexUysat : Eqv Q g c d id (indexUysat (F := F)) indexUysat := by
  intro r _
  have h0 : (affRes g c d r).index_u_ysat = r.index_u_ysat := rfl
  have h1 : satLoop (affRes g c d r).temporal.s2_y (affRes g c d r).temporal.s2_y.length (.fin 0) 0 =
      satLoop r.temporal.s2_y r.temporal.s2_y.length (.fin 0) 0 := by
    have := satLoop_map (F := F) (pow_pos (gF (F := F) hg) 2) r.temporal.s2_y r.temporal.s2_y.length (.fin 0) 0
    rw [scale_fin, mul_zero] at this
    rw [← this]
    simp [affRes, affTemporal]
  unfold indexUysat
  rw [h0, h1]
  cases hi : r.index_u_ysat with
  | none =>
    dsimp only
    cases satLoop r.temporal.s2_y r.temporal.s2_y.length (.fin 0) 0 <;> exact ⟨rfl, rfl, rfl⟩
  | some i =>
    dsimp only
    split
    · exact ⟨rfl, rfl, rfl⟩
    · cases satLoop r.temporal.s2_y r.temporal.s2_y.length (.fin 0) 0 <;> exact ⟨rfl, rfl, rfl⟩

theorem eqv_signal : Eqv Q g c d (List.map (scale (g : F))) (signal (F := F)) signal := by
  unfold signal
  refine Eqv.bind (s := affTemporal (g : F) d) (Eqv.ask fun r _ => rfl) fun t => ?_
  refine Eqv.lift ?_
  exact Np.bin_map _ _ _ _ _ (fun x y => aff_sub_aff _ _ _ _) _ _

omit hg in
theorem eqv_photons : Eqv Q g c d id (photons (F := F)) photons := Eqv.ask fun _ _ => rfl

omit hg in
theorem map_id_except {x : Except PyErr α} : x.map id = x := by cases x <;> rfl

theorem eqv_lastBelow (k : F) : Eqv Q g c d id (lastBelow (F := F) k) (lastBelow k) := by
  unfold lastBelow
  refine (eqv_signal hg).bind fun Y => ?_
  refine (eqv_indexUysat hg).bind fun i => ?_
  refine Eqv.bind (s := scale (g : F)) (Eqv.lift (Np.idx_map ..)) fun ys => ?_
  refine Eqv.lift ?_
  simp only [Np.argwhere_map, scale_mul_fin (gF hg), le_scale (gF hg)]
  exact map_id_except.symm

theorem eqv_indexSensitivityMax : Eqv Q g c d id (indexSensitivityMax (F := F)) indexSensitivityMax :=
  eqv_lastBelow hg _

theorem eqv_indexLinearityMax : Eqv Q g c d id (indexLinearityMax (F := F)) indexLinearityMax :=
  eqv_lastBelow hg _

theorem eqv_indexLinearityMin : Eqv Q g c d id (indexLinearityMin (F := F)) indexLinearityMin := by
  unfold indexLinearityMin
  refine (eqv_signal hg).bind fun Y => ?_
  refine (eqv_indexUysat hg).bind fun i => ?_
  refine Eqv.bind (s := scale (g : F)) (Eqv.lift (Np.idx_map ..)) fun ys => ?_
  refine Eqv.lift ?_
  simp only [Np.argwhere_map, scale_mul_fin (gF hg), le_scale (gF hg)]
  exact map_id_except.symm

omit hg in
theorem eqv_uPSat (hg : 0 < g) : Eqv Q g c d id (uPSat (F := F)) uPSat := by
  unfold uPSat
  refine Eqv.bind (s := affTemporal (g : F) d) (Eqv.ask fun r _ => rfl) fun t => ?_
  refine (eqv_indexUysat hg).bind fun i => ?_
  refine Eqv.bind (s := id) (Eqv.lift map_id_except.symm) fun x => Eqv.pure rfl

/-- the line of the linearity fit -/
def scaleLin (a : F) (l : Linearity F) : Linearity F :=
  { l with fit_slope := scale a l.fit_slope, fit_offset := scale a l.fit_offset }

theorem linFit_scale (X Y : List (Fl F)) :
    linFit X (Y.map (scale (g : F))) = (linFit X Y).map fun p => (scale (g : F) p.1, scale (g : F) p.2) := by
  have h := gF (F := F) hg
  have hi : (0 : F) < (g : F)⁻¹ := inv_pos.2 h
  have h2 : (0 : F) < ((g : F) ^ 2)⁻¹ := inv_pos.2 (pow_pos h 2)
  have e1 := Np.bin_map (fun x y : Fl F => x / y) (fun x y => x / y) id (scale (g : F)) (scale (g : F)⁻¹)
    (fun x y => by
      have := scale_div one_pos h x y
      rw [scale_one, one_div] at this
      exact this) X Y
  have e2 := Np.bin_map (fun x y : Fl F => x / Fl.sq y) (fun x y => x / Fl.sq y) id (scale (g : F))
    (scale ((g : F) ^ 2)⁻¹) (fun x y => by
      have := scale_div one_pos (pow_pos h 2) x (Fl.sq y)
      rw [scale_one, one_div, ← scale_sq h] at this
      exact this) X Y
  rw [List.map_id] at e1 e2
  have e3 : (Y.map (scale (g : F))).map (fun y => (.fin 1 : Fl F) / y) =
      (Y.map fun y => (.fin 1 : Fl F) / y).map (scale (g : F)⁻¹) := by
    rw [List.map_map, List.map_map]
    refine List.map_congr_left fun y _ => ?_
    have := scale_div one_pos h (.fin 1) y
    rw [scale_one, one_div] at this
    exact this
  have e4 : (Y.map (scale (g : F))).map (fun y => (.fin 1 : Fl F) / Fl.sq y) =
      (Y.map fun y => (.fin 1 : Fl F) / Fl.sq y).map (scale ((g : F) ^ 2)⁻¹) := by
    rw [List.map_map, List.map_map]
    refine List.map_congr_left fun y _ => ?_
    have := scale_div one_pos (pow_pos h 2) (.fin 1) (Fl.sq y)
    rw [scale_one, one_div, ← scale_sq h] at this
    exact this
  unfold linFit
  rw [e1, e2, e3, e4]
  cases Np.bin (fun x y : Fl F => x / y) X Y with
  | error e => rfl
  | ok A =>
    cases Np.bin (fun x y : Fl F => x / Fl.sq y) X Y with
    | error e => rfl
    | ok B =>
      show Except.ok _ = Except.ok _
      have e5 : (A.map (scale (g : F)⁻¹)).map Fl.sq = (A.map Fl.sq).map (scale ((g : F) ^ 2)⁻¹) := by
        rw [List.map_map, List.map_map]
        refine List.map_congr_left fun y _ => ?_
        simp only [Function.comp_apply]
        rw [scale_sq hi, inv_pow]
      simp only [e5, sum_scale]
      set a := Fl.sum A
      set b := Fl.sum B
      set y1 := Fl.sum (Y.map fun y => (.fin 1 : Fl F) / y)
      set y2 := Fl.sum (Y.map fun y => (.fin 1 : Fl F) / Fl.sq y)
      set q := Fl.sum (A.map Fl.sq)
      have hb : (scale (g : F)⁻¹ a * scale ((g : F) ^ 2)⁻¹ b - scale ((g : F) ^ 2)⁻¹ q * scale (g : F)⁻¹ y1) /
          (Fl.sq (scale ((g : F) ^ 2)⁻¹ b) - scale ((g : F) ^ 2)⁻¹ q * scale ((g : F) ^ 2)⁻¹ y2) =
          scale (g : F) ((a * b - q * y1) / (Fl.sq b - q * y2)) := by
        rw [scale_mul hi h2, scale_mul h2 hi, mul_comm ((g : F) ^ 2)⁻¹ (g : F)⁻¹, scale_sub,
          scale_sq h2, scale_mul h2 h2, ← sq, scale_sub, scale_div (mul_pos hi h2) (pow_pos h2 2)]
        congr 1
        field_simp
      have ha : ∀ x : Fl F, (scale (g : F)⁻¹ a - scale (g : F) x * scale ((g : F) ^ 2)⁻¹ b) /
          scale ((g : F) ^ 2)⁻¹ q = scale (g : F) ((a - x * b) / q) := by
        intro x
        rw [scale_mul h h2, show (g : F) * ((g : F) ^ 2)⁻¹ = (g : F)⁻¹ by field_simp, scale_sub, scale_div hi h2]
        congr 1
        field_simp
      rw [hb, ha]

theorem eqv_linearity : Eqv Q g c d (scaleLin (g : F)) (linearity (F := F)) linearity := by
  have h := gF (F := F) hg
  unfold linearity
  refine (eqv_signal hg).bind fun Y => ?_
  refine eqv_photons.bind fun X => ?_
  refine (eqv_indexLinearityMax hg).bind fun jm => ?_
  refine (eqv_indexLinearityMin hg).bind fun imin => ?_
  refine Eqv.bind (s := fun p : Fl F × Fl F => (scale (g : F) p.1, scale (g : F) p.2)) (Eqv.lift ?_) fun p => ?_
  · simp only [Np.slice_map, id]
    exact linFit_scale hg _ _
  · obtain ⟨a, b⟩ := p
    dsimp only
    refine Eqv.bind (s := id) (Eqv.lift ?_) fun dev => ?_
    · have := Np.bin_map (fun y x : Fl F => .fin 100 * (y - (a * x + b)) / (a * x + b))
        (fun y x : Fl F => .fin 100 * (y - (scale (g : F) a * x + scale (g : F) b)) /
          (scale (g : F) a * x + scale (g : F) b)) (scale (g : F)) id id (by
          intro y x
          have e : scale (g : F) a * id x + scale (g : F) b = scale (g : F) (a * x + b) := by
            rw [← scale_add]
            congr 1
            have := scale_mul h one_pos a x
            rw [scale_one, mul_one] at this
            exact this
          rw [e, scale_sub, scale_mul_fin h, scale_div h h, div_self h.ne', scale_one]
          rfl) Y X
      rw [List.map_id] at this
      rw [show (id X : List (Fl F)) = X from rfl, this]
      congr 1
      funext l
      simp
    · refine Eqv.bind (s := id) (Eqv.lift map_id_except.symm) fun lo => ?_
      refine Eqv.bind (s := id) (Eqv.lift map_id_except.symm) fun hi => ?_
      exact Eqv.pure rfl

end
end Results
end Emva
