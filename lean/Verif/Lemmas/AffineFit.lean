import Verif.Lemmas.AffineResults

/-!
The fitted attributes of `Results1288` for a dataset whose pixel values are `g * x + c`.
-/
set_option autoImplicit false
set_option linter.unusedSectionVars false
namespace Emva
open Spec Data Fit
variable {F : Type} [Field F] [LinearOrder F] [IsStrictOrderedRing F]

namespace Fit

theorem sqErr_affine (l : List (F × F)) (g e m b : F) :
    sqErr (l.map fun p => (p.1, g * p.2 + e)) (g * m) (g * b + e) = g ^ 2 * sqErr l m b := by
  induction l with
  | nil => simp [sqErr]
  | cons p l ih =>
    simp only [sqErr, List.map_cons, List.sum_cons] at ih ⊢
    rw [ih]; ring

theorem bestLine_affine {l : List (F × F)} {g e m b : F} (hg : 0 < g) (h : BestLine l m b) :
    BestLine (l.map fun p => (p.1, g * p.2 + e)) (g * m) (g * b + e) := by
  intro m' b' hne
  have hm : m' = g * (m' / g) := by field_simp
  have hb : b' = g * ((b' - e) / g) + e := by field_simp; ring
  rw [hm, hb, sqErr_affine, sqErr_affine]
  refine mul_lt_mul_of_pos_left (h _ _ ?_) (pow_pos hg 2)
  intro he
  apply hne
  simp only [Prod.mk.injEq] at he ⊢
  exact ⟨by rw [hm, he.1], by rw [hb, he.2]⟩

theorem sqErr_scale0 (l : List (F × F)) (a g m : F) :
    sqErr (l.map fun p => (a * p.1, g * p.2)) (g * m) 0 = g ^ 2 * sqErr l (a * m) 0 := by
  induction l with
  | nil => simp [sqErr]
  | cons p l ih =>
    simp only [sqErr, List.map_cons, List.sum_cons] at ih ⊢
    rw [ih]; ring

theorem bestSlope_scale {l : List (F × F)} {a g m : F} (ha : 0 < a) (hg : 0 < g) (h : BestSlope l m) :
    BestSlope (l.map fun p => (a * p.1, g * p.2)) (g / a * m) := by
  intro m' hne
  have e1 : g / a * m = g * (m / a) := by ring
  have e2 : m' = g * (m' / g) := by field_simp
  have e3 : a * (m / a) = m := by field_simp
  rw [e1, e2, sqErr_scale0, sqErr_scale0, e3]
  refine mul_lt_mul_of_pos_left (h _ ?_) (pow_pos hg 2)
  intro he
  apply hne
  rw [← he]; field_simp

end Fit

theorem map_aff_fin (g e : F) (l : List F) : (l.map Fl.fin).map (aff g e) = (l.map fun x => g * x + e).map .fin := by
  simp [Function.comp_def]

theorem map_scale_fin (g : F) (l : List F) : (l.map Fl.fin).map (scale g) = (l.map fun x => g * x).map .fin := by
  simp [Function.comp_def]

theorem linearB0_scale {q : LSQ F} (hq : q.Good) {a b : F} (ha : 0 < a) (hb : 0 < b) (X Y : List F)
    (hl : X.length = Y.length) (h : X ≠ [] → ∃ x ∈ X, x ≠ 0) :
    linearB0 q ((X.map .fin).map (scale a)) ((Y.map .fin).map (scale b)) =
      (linearB0 q (X.map .fin) (Y.map .fin)).map (scale (b / a)) := by
  by_cases hX : X = []
  · subst hX
    have : Y = [] := List.length_eq_zero_iff.1 hl.symm
    subst this
    rfl
  · obtain ⟨m, h1, h2, -⟩ := linearB0_fin hq X Y hl (h hX)
    obtain ⟨x, hx, hx0⟩ := h hX
    obtain ⟨m', h1', h2', -⟩ := linearB0_fin hq (X.map (a * ·)) (Y.map (b * ·)) (by simpa using hl)
      ⟨a * x, List.mem_map_of_mem hx, mul_ne_zero ha.ne' hx0⟩
    rw [map_scale_fin, map_scale_fin, h1, h1']
    show Except.ok _ = Except.ok (scale (b / a) (.fin m))
    rw [scale_fin]
    have h3 := bestSlope_scale ha hb h2
    rw [List.zip_map] at h2'
    have h4 : m' = b / a * m := by
      by_contra hne
      exact lt_asymm (h3 _ hne) (h2' _ (Ne.symm hne))
    rw [h4]

theorem linearB_aff {q : LSQ F} (hq : q.Good) {g e : F} (hg : 0 < g) (X Y : List F)
    (hl : X.length = Y.length) (h : ∃ x ∈ X, ∃ x' ∈ X, x ≠ x') :
    linearB q (X.map .fin) ((Y.map .fin).map (aff g e)) =
      (linearB q (X.map .fin) (Y.map .fin)).map fun p => (scale g p.1, aff g e p.2) := by
  obtain ⟨m, b, h1, h2⟩ := linearB_fin hq X Y hl h
  obtain ⟨m', b', h1', h2'⟩ := linearB_fin hq X (Y.map fun y => g * y + e) (by simpa using hl) h
  rw [map_aff_fin, h1, h1']
  show Except.ok _ = Except.ok (scale g (.fin m), aff g e (.fin b))
  rw [scale_fin, aff_fin]
  have h3 := bestLine_affine (e := e) hg h2
  rw [← List.map_id X, List.zip_map] at h2'
  have h4 : (m', b') = (g * m, g * b + e) := by
    by_contra hne
    exact lt_asymm (h3 _ _ hne) (h2' _ _ (Ne.symm hne))
  simp only [Prod.mk.injEq] at h4
  rw [h4.1, h4.2]

namespace Data

/-- Temporal data of which the fits through the origin are determined: finite values, lengths as
`Data1288` makes them, and a first bright point with photons and signal. -/
structure Regular (t : Temporal F) : Prop where
  len_p : t.u_p.length = t.u_y.length
  len_s : t.s2_y.length = t.u_y.length
  len_sd : t.s2_ydark.length = t.u_ydark.length
  bal : t.u_y.length = t.u_ydark.length ∨ (t.u_y.length ≠ 1 ∧ t.u_ydark.length ≠ 1)
  fin_y : ∃ l : List F, t.u_y = l.map .fin
  fin_d : ∃ l : List F, t.u_ydark = l.map .fin
  fin_s : ∃ l : List F, t.s2_y = l.map .fin
  fin_sd : ∃ l : List F, t.s2_ydark = l.map .fin
  photons0 : ∀ p, t.u_p.head? = some p → p ≠ 0
  signal0 : ∀ y d, t.u_y.head? = some y → t.u_ydark.head? = some d → y ≠ d

/-- Dark data of which the lines over the exposure time are determined. -/
structure DarkRegular (t : Temporal F) : Prop where
  len : t.texp.length = t.u_ydark.length
  len_sd : t.s2_ydark.length = t.u_ydark.length
  fin_d : ∃ l : List F, t.u_ydark = l.map .fin
  fin_sd : ∃ l : List F, t.s2_ydark = l.map .fin

theorem bin_ok_len {α β γ : Type} (op : α → β → γ) (a : List α) (b : List β) (Y : List γ)
    (hb : a.length = b.length ∨ (a.length ≠ 1 ∧ b.length ≠ 1)) (h : Np.bin op a b = .ok Y) :
    a.length = b.length ∧ Y = List.zipWith op a b := by
  unfold Np.bin at h
  split at h
  · rename_i hl
    simp only [Except.ok.injEq] at h
    exact ⟨hl, h.symm⟩
  · rename_i hl
    split at h
    · simp [hl] at hb; simp at hl; omega
    · simp [hl] at hb; simp at hl; omega
    · cases h

theorem zipWith_fin (op : F → F → F) (op' : Fl F → Fl F → Fl F) (h : ∀ x y, op' (.fin x) (.fin y) = .fin (op x y))
    (a b : List F) : List.zipWith op' (a.map .fin) (b.map .fin) = (List.zipWith op a b).map .fin := by
  rw [List.zipWith_map, List.map_zipWith]
  simp only [h]

theorem Regular.signal {t : Temporal F} (h : Regular t) {Y : List (Fl F)} (hY : Np.bin (· - ·) t.u_y t.u_ydark = .ok Y) :
    ∃ ys : List F, Y = ys.map .fin ∧ ys.length = t.u_p.length ∧ ∀ y, ys.head? = some y → y ≠ 0 := by
  obtain ⟨hl, rfl⟩ := bin_ok_len _ _ _ _ h.bal hY
  obtain ⟨ly, ey⟩ := h.fin_y
  obtain ⟨ld, ed⟩ := h.fin_d
  refine ⟨List.zipWith (· - ·) ly ld, ?_, ?_, ?_⟩
  · rw [ey, ed, zipWith_fin (· - ·) (· - ·) fun x y => by simp]
  · have := h.len_p
    rw [ey, ed] at hl
    rw [ey] at this
    simp at hl this ⊢
    omega
  · have h0 := h.signal0
    rw [ey, ed] at h0
    intro y hy
    match ly, ld with
    | [], _ => simp at hy
    | _ :: _, [] => simp at hy
    | a :: ly, b :: ld =>
      simp at hy
      have := h0 (.fin a) (.fin b) rfl rfl
      rw [← hy]
      exact fun e => this (by rw [sub_eq_zero.1 e])

theorem Regular.variance {t : Temporal F} (h : Regular t) {Y : List (Fl F)} (hY : Np.bin (· - ·) t.s2_y t.s2_ydark = .ok Y) :
    ∃ ys : List F, Y = ys.map .fin ∧ ys.length = t.u_p.length := by
  obtain ⟨hl, rfl⟩ := bin_ok_len _ _ _ _ (by rw [h.len_s, h.len_sd]; exact h.bal) hY
  obtain ⟨ly, ey⟩ := h.fin_s
  obtain ⟨ld, ed⟩ := h.fin_sd
  refine ⟨List.zipWith (· - ·) ly ld, ?_, ?_⟩
  · rw [ey, ed, zipWith_fin (· - ·) (· - ·) fun x y => by simp]
  · have := h.len_p
    have := h.len_s
    rw [ey, ed] at hl
    rw [ey] at this
    simp at hl this ⊢
    omega

end Data

namespace Results
variable {α β γ δ : Type} {Q : Temporal F → Spatial F → Prop} {g c : ℤ} {d : F}

/-- it suffices to consider one pair of data -/
theorem Eqv.fix {s : α → β} {x : M F α} {y : M F β}
    (h : ∀ t0 s0, Q t0 s0 → Eqv (fun t s => t = t0 ∧ s = s0) g c d s x y) : Eqv Q g c d s x y :=
  fun r hr => h _ _ hr r ⟨rfl, rfl⟩

theorem slice0_head {l : List F} (h : ∀ y, l.head? = some y → y ≠ 0) (j : ℕ) :
    Np.slice l 0 (j + 1) ≠ [] → ∃ x ∈ Np.slice l 0 (j + 1), x ≠ 0 := by
  intro hne
  cases l with
  | nil => simp [Np.slice] at hne
  | cons a l => exact ⟨a, by simp [Np.slice], h a rfl⟩

/-- the hypothesis for the fits through the origin -/
def HB0 (q : LSQ F) (g : ℤ) (t : Temporal F) : Prop := g = 1 ∨ (q.Good ∧ Regular t)

/-- the hypothesis for the lines -/
def HB (q : LSQ F) (g : ℤ) (d : F) (t : Temporal F) : Prop := (g = 1 ∧ d = 0) ∨ (q.Good ∧ DarkRegular t)

variable (hg : 0 < g) (q : LSQ F)
include hg

theorem eqv_R (hQ : ∀ t s, Q t s → HB0 q g t) : Eqv Q g c d (scale (g : F)) (R q) (R q) := by
  refine Eqv.fix fun t0 s0 h0 => ?_
  have hh := hQ _ _ h0
  unfold R
  refine (eqv_signal hg).bind_post (fun Y => Np.bin (· - ·) t0.u_y t0.u_ydark = .ok Y)
    (by rintro r a ⟨ht, -⟩ h; rw [← ht]; exact h) fun Y hY => ?_
  refine eqv_photons.bind_post (fun X => X = t0.u_p.map .fin)
    (by rintro r a ⟨ht, -⟩ h; rw [← ht]; simpa using (Except.ok.inj h).symm) fun X hX => ?_
  refine Eqv.bind_post (s := id) (fun i => i = 0) (by rintro r a - h; exact (Except.ok.inj h).symm)
    (Eqv.pure rfl) fun i hi => ?_
  refine (eqv_indexSensitivityMax hg).bind fun j => Eqv.lift ?_
  subst hi hX
  simp only [id]
  rcases hh with rfl | ⟨hq, hr⟩
  · simp only [Int.cast_one]
    have : (scale (1 : F)) = id := funext fun x => scale_one x
    rw [this, List.map_id, map_id_except]
  · obtain ⟨ys, rfl, hl, -⟩ := hr.signal hY
    have := linearB0_scale hq one_pos (gF (F := F) hg) (Np.slice t0.u_p 0 (j + 1)) (Np.slice ys 0 (j + 1))
      (by simp [Np.slice, hl]) (slice0_head hr.photons0 j)
    have e1 : (scale (1 : F)) = id := funext fun x => scale_one x
    rw [e1, List.map_id, div_one] at this
    simp only [Np.slice_map]
    exact this

theorem eqv_K (hQ : ∀ t s, Q t s → HB0 q g t) : Eqv Q g c d (scale (g : F)) (K q) (K q) := by
  refine Eqv.fix fun t0 s0 h0 => ?_
  have hh := hQ _ _ h0
  unfold K
  refine (eqv_signal hg).bind_post (fun Y => Np.bin (· - ·) t0.u_y t0.u_ydark = .ok Y)
    (by rintro r a ⟨ht, -⟩ h; rw [← ht]; exact h) fun X hX => ?_
  refine Eqv.bind_post (s := affTemporal (g : F) d) (fun t => t = t0)
    (by rintro r a ⟨ht, -⟩ h; rw [← ht]; simpa using (Except.ok.inj h).symm) (Eqv.ask fun _ _ => rfl) fun t ht => ?_
  subst ht
  refine Eqv.bind_post (s := List.map (scale ((g : F) ^ 2))) (fun Y => Np.bin (· - ·) t.s2_y t.s2_ydark = .ok Y)
    (fun r a _ h => h) (Eqv.lift (Np.bin_map _ _ _ _ _ (fun x y => scale_sub _ _ _) _ _)) fun Y hY => ?_
  refine Eqv.bind_post (s := id) (fun i => i = 0) (by rintro r a - h; exact (Except.ok.inj h).symm)
    (Eqv.pure rfl) fun i hi => ?_
  refine (eqv_indexSensitivityMax hg).bind fun j => Eqv.lift ?_
  subst hi
  simp only [id]
  rcases hh with rfl | ⟨hq, hr⟩
  · simp only [Int.cast_one, one_pow]
    have : (scale (1 : F)) = id := funext fun x => scale_one x
    rw [this, List.map_id, List.map_id, map_id_except]
  · obtain ⟨xs, rfl, hl, h0⟩ := hr.signal hX
    obtain ⟨ys, rfl, hl'⟩ := hr.variance hY
    have h := gF (F := F) hg
    have := linearB0_scale hq h (pow_pos h 2) (Np.slice xs 0 (j + 1)) (Np.slice ys 0 (j + 1))
      (by simp [Np.slice, hl, hl']) (slice0_head h0 j)
    simp only [Np.slice_map]
    rw [this]
    congr 2
    field_simp

theorem eqv_inverseK (hQ : ∀ t s, Q t s → HB0 q g t) : Eqv Q g c d (scale (g : F)⁻¹) (inverseK q) (inverseK q) := by
  unfold inverseK
  refine (eqv_K hg q hQ).bind fun k => Eqv.pure ?_
  have := scale_div one_pos (gF (F := F) hg) (.fin 1) k
  rw [scale_one, one_div] at this
  exact this

theorem eqv_QE (hQ : ∀ t s, Q t s → HB0 q g t) : Eqv Q g c d id (QE q) (QE q) := by
  have h := gF (F := F) hg
  unfold QE
  refine (eqv_R hg q hQ).bind fun r => (eqv_K hg q hQ).bind fun k => Eqv.pure ?_
  rw [scale_mul_fin h, scale_div h h, div_self h.ne', scale_one]; rfl

theorem eqv_uESat (hQ : ∀ t s, Q t s → HB0 q g t) : Eqv Q g c d id (uESat q) (uESat q) := by
  unfold uESat
  exact (eqv_QE hg q hQ).bind fun r => (eqv_uPSat hg).bind fun k => Eqv.pure rfl

omit hg in
theorem eqv_perArea {x y : M F (Fl F)} (h : Eqv Q g c d id x y) : Eqv Q g c d id (perArea x) (perArea y) := by
  unfold perArea
  refine Eqv.bind (s := id) (Eqv.ask fun _ _ => rfl) fun a => ?_
  cases a with
  | none => exact Eqv.pure rfl
  | some a =>
    refine Eqv.ite Iff.rfl (fun _ => Eqv.pure rfl) fun _ => ?_
    exact h.bind fun v => Eqv.pure rfl

omit hg in
theorem eqv_few : Eqv Q g c d id (fewExposures (F := F)) fewExposures := Eqv.ask fun _ _ => rfl

omit hg in
theorem two_of_nUnique {l : List F} (h : ¬ Np.nUnique l ≤ 2) : ∃ x ∈ l, ∃ x' ∈ l, x ≠ x' := by
  unfold Np.nUnique at h
  match hd : l.dedup, h with
  | a :: b :: t, _ =>
    have hn := List.nodup_dedup l
    rw [hd] at hn
    refine ⟨a, List.mem_dedup.1 (by rw [hd]; simp), b, List.mem_dedup.1 (by rw [hd]; simp), ?_⟩
    rintro rfl
    simp at hn
  | [a], h => simp at h
  | [], h => simp at h

theorem linearB_s2 {t : Temporal F} (hh : HB q g d t) (hf : ¬ Np.nUnique t.texp ≤ 2) :
    linearB q (t.texp.map .fin) (t.s2_ydark.map (scale ((g : F) ^ 2))) =
      (linearB q (t.texp.map .fin) t.s2_ydark).map fun p => (scale ((g : F) ^ 2) p.1, scale ((g : F) ^ 2) p.2) := by
  rcases hh with ⟨rfl, -⟩ | ⟨hq, hr⟩
  · have : (scale (1 : F)) = id := funext fun x => scale_one x
    simp only [Int.cast_one, one_pow, this, List.map_id, id]
    exact map_id_except.symm
  · obtain ⟨l, hl⟩ := hr.fin_sd
    have h := hr.len
    rw [← hr.len_sd, hl, List.length_map] at h
    rw [hl]
    exact linearB_aff hq (pow_pos (gF (F := F) hg) 2) (e := 0) t.texp l h (two_of_nUnique hf)

theorem linearB_ud {t : Temporal F} (hh : HB q g d t) (hf : ¬ Np.nUnique t.texp ≤ 2) :
    linearB q (t.texp.map .fin) (t.u_ydark.map (aff (g : F) d)) =
      (linearB q (t.texp.map .fin) t.u_ydark).map fun p => (scale (g : F) p.1, aff (g : F) d p.2) := by
  rcases hh with ⟨rfl, rfl⟩ | ⟨hq, hr⟩
  · have h1 : (scale (1 : F)) = id := funext fun x => scale_one x
    have h2 : (aff (1 : F) 0) = id := h1
    simp only [Int.cast_one, h1, h2, List.map_id, id]
    exact map_id_except.symm
  · obtain ⟨l, hl⟩ := hr.fin_d
    have h := hr.len
    rw [hl, List.length_map] at h
    rw [hl]
    exact linearB_aff hq (gF (F := F) hg) t.texp l h (two_of_nUnique hf)

/-- after reading `few` and the temporal data -/
theorem eqv_fewT {s : α → β} {f : Bool → Temporal F → M F α} {f' : Bool → Temporal F → M F β}
    (t0 : Temporal F) (s0 : Spatial F)
    (h : Eqv (fun t s => t = t0 ∧ s = s0) g c d s (f (decide (Np.nUnique t0.texp ≤ 2)) t0)
      (f' (decide (Np.nUnique t0.texp ≤ 2)) (affTemporal (g : F) d t0))) :
    Eqv (fun t s => t = t0 ∧ s = s0) g c d s
      (do let few ← fewExposures; let t ← ask Res.temporal; f few t)
      (do let few ← fewExposures; let t ← ask Res.temporal; f' few t) := by
  refine Eqv.bind_post (s := id) (fun b => b = decide (Np.nUnique t0.texp ≤ 2))
    (by rintro r a ⟨ht, -⟩ h; rw [← ht]; simpa using (Except.ok.inj h).symm) eqv_few fun b hb => ?_
  refine Eqv.bind_post (s := affTemporal (g : F) d) (fun t => t = t0)
    (by rintro r a ⟨ht, -⟩ h; rw [← ht]; simpa using (Except.ok.inj h).symm) (Eqv.ask fun _ _ => rfl) fun t ht => ?_
  subst hb ht
  exact h

theorem eqv_rawDark (hQ : ∀ t s, Q t s → HB q g d t) :
    Eqv Q g c d (scale ((g : F) ^ 2)) (rawDark q) (rawDark q) := by
  refine Eqv.fix fun t0 s0 h0 => ?_
  have hh := hQ _ _ h0
  unfold rawDark
  refine eqv_fewT hg t0 s0 ?_
  refine Eqv.ite Iff.rfl (fun _ => Eqv.lift (Np.idx_map ..)) fun hf => ?_
  refine Eqv.bind (s := fun p : Fl F × Fl F => (scale ((g : F) ^ 2) p.1, scale ((g : F) ^ 2) p.2))
    (Eqv.lift ?_) fun p => Eqv.pure rfl
  exact linearB_s2 hg q hh (by simpa using hf)

/-- what an attribute that may be `np.nan` becomes -/
def scaleNum (a : F) : PyNum F → PyNum F
  | .num x => .num (scale a x)
  | v => v

theorem lt_zero_scale {a : F} (ha : 0 < a) (x : Fl F) : Fl.lt (scale a x) (.fin 0) = Fl.lt x (.fin 0) := by
  have := lt_scale ha x (.fin 0)
  rwa [scale_fin, mul_zero] at this

theorem eqv_uIVarDN (h1 : ∀ t s, Q t s → HB0 q g t) (h2 : ∀ t s, Q t s → HB q g d t) :
    Eqv Q g c d (scaleNum (g : F)) (uIVarDN q) (uIVarDN q) := by
  have h := gF (F := F) hg
  refine Eqv.fix fun t0 s0 h0 => ?_
  have hh := h2 _ _ h0
  unfold uIVarDN
  refine Eqv.bind_post (s := id) (fun b => b = decide (Np.nUnique t0.texp ≤ 2))
    (by rintro r a ⟨ht, -⟩ h; rw [← ht]; simpa using (Except.ok.inj h).symm) eqv_few fun b hb => ?_
  refine Eqv.ite Iff.rfl (fun _ => Eqv.pure rfl) fun hf => ?_
  refine Eqv.bind_post (s := affTemporal (g : F) d) (fun t => t = t0)
    (by rintro r a ⟨ht, -⟩ h; rw [← ht]; simpa using (Except.ok.inj h).symm) (Eqv.ask fun _ _ => rfl) fun t ht => ?_
  subst hb ht
  refine Eqv.bind (s := fun p : Fl F × Fl F => (scale ((g : F) ^ 2) p.1, scale ((g : F) ^ 2) p.2))
    (Eqv.lift (linearB_s2 hg q hh (by simpa using hf))) fun p => ?_
  refine Eqv.ite (by dsimp only; rw [lt_zero_scale hg (pow_pos h 2)]) (fun _ => Eqv.pure rfl) fun _ => ?_
  refine (eqv_K hg q (Q := fun t s => t = _ ∧ s = s0) (by rintro _ _ ⟨rfl, rfl⟩; exact h1 _ _ h0)).bind fun k => Eqv.pure ?_
  show _ = PyNum.num (scale _ _)
  rw [← scale_mul_fin' h, show scale (g : F) (p.1 / k) = scale ((g : F) ^ 2 / (g : F)) (p.1 / k) by congr 1; field_simp,
    ← scale_div (pow_pos h 2) h]

theorem eqv_overK {x : M F (PyNum F)} (h1 : ∀ t s, Q t s → HB0 q g t) (hx : Eqv Q g c d (scaleNum (g : F)) x x) :
    Eqv Q g c d id (overK q x) (overK q x) := by
  have h := gF (F := F) hg
  unfold overK
  refine hx.bind fun ui => ?_
  cases ui with
  | npnan => exact Eqv.pure rfl
  | none => exact Eqv.lift rfl
  | num v =>
    refine (eqv_K hg q h1).bind fun k => Eqv.pure ?_
    rw [scale_div h h, div_self h.ne', scale_one]; rfl

theorem eqv_uIMeanDN (h2 : ∀ t s, Q t s → HB q g d t) :
    Eqv Q g c d (scaleNum (g : F)) (uIMeanDN q) (uIMeanDN q) := by
  have h := gF (F := F) hg
  refine Eqv.fix fun t0 s0 h0 => ?_
  have hh := h2 _ _ h0
  unfold uIMeanDN
  refine Eqv.bind_post (s := id) (fun b => b = decide (Np.nUnique t0.texp ≤ 2))
    (by rintro r a ⟨ht, -⟩ h; rw [← ht]; simpa using (Except.ok.inj h).symm) eqv_few fun b hb => ?_
  refine Eqv.ite Iff.rfl (fun _ => Eqv.pure rfl) fun hf => ?_
  refine Eqv.bind_post (s := affTemporal (g : F) d) (fun t => t = t0)
    (by rintro r a ⟨ht, -⟩ h; rw [← ht]; simpa using (Except.ok.inj h).symm) (Eqv.ask fun _ _ => rfl) fun t ht => ?_
  subst hb ht
  refine Eqv.bind (s := fun p : Fl F × Fl F => (scale (g : F) p.1, aff (g : F) d p.2))
    (Eqv.lift (linearB_ud hg q hh (by simpa using hf))) fun p => Eqv.pure ?_
  show _ = PyNum.num (scale _ _)
  rw [← scale_mul_fin' h]

/-! ### spatial data -/
omit hg

theorem eqv_spat (dark : Bool) : Eqv Q g c d (affSpatialData g c) (spat (F := F) dark) (spat dark) :=
  Eqv.ask fun r _ => by cases dark <;> rfl

variable (dark : Bool)

theorem eqv_sigma2YStack : Eqv Q g c d (scale ((g : F) ^ 2)) (sigma2YStack (F := F) dark) (sigma2YStack dark) := by
  unfold sigma2YStack
  exact (eqv_spat dark).bind fun s => Eqv.pure rfl

theorem eqv_s2YMeasured : Eqv Q g c d (scale ((g : F) ^ 2)) (s2YMeasured (F := F) dark) (s2YMeasured dark) := by
  unfold s2YMeasured
  exact (eqv_spat dark).bind fun s => Eqv.pure rfl

theorem eqv_s2YCav : Eqv Q g c d (scale ((g : F) ^ 2)) (s2YCav (F := F) dark) (s2YCav dark) := by
  unfold s2YCav
  exact (eqv_spat dark).bind fun s => Eqv.pure rfl

theorem eqv_s2YRav : Eqv Q g c d (scale ((g : F) ^ 2)) (s2YRav (F := F) dark) (s2YRav dark) := by
  unfold s2YRav
  exact (eqv_spat dark).bind fun s => Eqv.pure rfl

include hg

theorem eqv_s2Y : Eqv Q g c d (scale ((g : F) ^ 2)) (s2Y (F := F) dark) (s2Y dark) := by
  have h := pow_pos (gF (F := F) hg) 2
  unfold s2Y
  refine (eqv_s2YMeasured dark).bind fun m => (eqv_sigma2YStack dark).bind fun v => (eqv_spat dark).bind fun s => Eqv.pure ?_
  show _ - _ / Fl.fin (s.L : F) = _
  rw [scale_div_fin h, scale_sub]

theorem fl_scale_comb {a : F} (ha : 0 < a) (p1 p2 x y z : Fl F) :
    p1 * scale a x - p2 * (scale a y - scale a z) = scale a (p1 * x - p2 * (y - z)) := by
  have h1 := scale_mul one_pos ha p1 x
  have h2 := scale_mul one_pos ha p2 (y - z)
  rw [scale_one, one_mul] at h1 h2
  rw [scale_sub, h1, h2, scale_sub]

theorem eqv_s2YCol : Eqv Q g c d (scale ((g : F) ^ 2)) (s2YCol (F := F) dark) (s2YCol dark) := by
  have h := pow_pos (gF (F := F) hg) 2
  unfold s2YCol
  refine (eqv_spat dark).bind fun s => ?_
  refine Eqv.bind (s := id) (Eqv.lift map_id_except.symm) fun p1 => ?_
  refine Eqv.bind (s := id) (Eqv.lift map_id_except.symm) fun p2 => ?_
  refine (eqv_s2YCav dark).bind fun x => (eqv_s2Y hg dark).bind fun y => (eqv_s2YRav dark).bind fun z => Eqv.pure ?_
  exact fl_scale_comb hg h _ _ _ _ _

theorem eqv_s2YRow : Eqv Q g c d (scale ((g : F) ^ 2)) (s2YRow (F := F) dark) (s2YRow dark) := by
  have h := pow_pos (gF (F := F) hg) 2
  unfold s2YRow
  refine (eqv_spat dark).bind fun s => ?_
  refine Eqv.bind (s := id) (Eqv.lift map_id_except.symm) fun p1 => ?_
  refine Eqv.bind (s := id) (Eqv.lift map_id_except.symm) fun p2 => ?_
  refine (eqv_s2YRav dark).bind fun x => (eqv_s2Y hg dark).bind fun y => (eqv_s2YCav dark).bind fun z => Eqv.pure ?_
  exact fl_scale_comb hg h _ _ _ _ _

theorem eqv_s2YPixel : Eqv Q g c d (scale ((g : F) ^ 2)) (s2YPixel (F := F) dark) (s2YPixel dark) := by
  have h := pow_pos (gF (F := F) hg) 2
  unfold s2YPixel
  refine (eqv_spat dark).bind fun s => ?_
  refine Eqv.bind (s := id) (Eqv.lift map_id_except.symm) fun p1 => ?_
  refine (eqv_s2Y hg dark).bind fun x => (eqv_s2YCav dark).bind fun y => (eqv_s2YRav dark).bind fun z => Eqv.pure ?_
  have h1 := scale_mul one_pos h p1 (x - y - z)
  rw [scale_one, one_mul] at h1
  rw [scale_sub, scale_sub]
  exact h1

end Results
end Emva
