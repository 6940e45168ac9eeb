import Verif.Spec.Solver
import Verif.Props.C90
import Verif.Props.C33_C34

/-!
C94: the results with a solver that only comes close to the minimum.
-/
set_option autoImplicit false
set_option linter.unusedSectionVars false
namespace Emva
open Spec Data Results Fit
variable {F : Type} [Field F] [LinearOrder F] [IsStrictOrderedRing F]

theorem weight_eq (l : List (F × F)) : weight l = Sxx l :=
  S_congr (f := fun p => p.1 ^ 2) (g := fun p => p.1 * p.1) fun p _ => by ring

theorem spread_eq (l : List (F × F)) : spread l = S (fun p => (1 * p.1 + -(Sx l / l.length)) ^ 2) l :=
  S_congr (f := fun p => (p.1 - (l.map (·.1)).sum / l.length) ^ 2) fun p _ => by
    show (p.1 - Sx l / l.length) ^ 2 = _
    ring

theorem nearSlope_of {l : List (F × F)} (h : ∃ p ∈ l, p.1 ≠ 0) {τ δ m : F}
    (hm : ∀ m', sqErr l m 0 ≤ (1 + τ) * sqErr l m' 0 + δ) : NearSlope τ δ l m (Sxy l / Sxx l) := by
  have hp := Sxx_pos h
  refine ⟨bestSlope_of h, ?_⟩
  have e := sqErr_normal0 (l := l) (m := Sxy l / Sxx l) (by field_simp) m
  have := hm (Sxy l / Sxx l)
  rw [weight_eq]
  linarith

theorem nearLine_of {l : List (F × F)} (h : ∃ p ∈ l, ∃ p' ∈ l, p.1 ≠ p'.1) {τ δ m b : F}
    (hm : ∀ m' b', sqErr l m b ≤ (1 + τ) * sqErr l m' b' + δ) : ∃ m0 b0, NearLine τ δ l m b m0 b0 := by
  have hd := disc_pos h
  have hl : l ≠ [] := by obtain ⟨p, hp, -⟩ := h; exact List.ne_nil_of_mem hp
  have hn : 0 < (l.length : F) := by exact_mod_cast List.length_pos_of_ne_nil hl
  obtain ⟨m0, b0, n1, n2⟩ : ∃ m0 b0 : F, m0 * Sxx l + b0 * Sx l = Sxy l ∧ m0 * Sx l + b0 * l.length = Sy l := by
    refine ⟨(l.length * Sxy l - Sx l * Sy l) / (l.length * Sxx l - Sx l * Sx l),
      (Sy l - (l.length * Sxy l - Sx l * Sy l) / (l.length * Sxx l - Sx l * Sx l) * Sx l) / l.length, ?_, ?_⟩
    · have hd' := hd.ne'
      generalize hD : (l.length * Sxx l - Sx l * Sx l : F) = D at hd'
      have hS : Sxx l = (D + Sx l * Sx l) / l.length := by rw [← hD]; field_simp; ring
      rw [hS]
      field_simp
      ring
    · field_simp
      ring
  refine ⟨m0, b0, bestLine_of_normal h n1 n2, ?_, ?_⟩
  · have e := sqErr_normal n1 n2 m b
    have h0 := hm m0 b0
    have : (l.map fun p => ((m * p.1 + b) - (m0 * p.1 + b0)) ^ 2).sum = S (fun p => ((m - m0) * p.1 + (b - b0)) ^ 2) l :=
      S_congr (f := fun p => ((m * p.1 + b) - (m0 * p.1 + b0)) ^ 2) fun p _ => by ring
    rw [this]
    linarith
  · have e := sqErr_normal n1 n2 m b
    have h0 := hm m0 b0
    rw [S_line] at e
    have hs : (l.length : F) * spread l = l.length * Sxx l - Sx l * Sx l := by rw [spread_eq, disc_eq l hl]
    have hs' : spread l = Sxx l - Sx l * Sx l / l.length := by field_simp; linarith
    have hq : 0 ≤ ((m - m0) * Sx l + (b - b0) * l.length) ^ 2 / l.length := div_nonneg (sq_nonneg _) hn.le
    have hx : (m - m0) ^ 2 * Sxx l + 2 * (m - m0) * (b - b0) * Sx l + (b - b0) ^ 2 * l.length =
        (m - m0) ^ 2 * spread l + ((m - m0) * Sx l + (b - b0) * l.length) ^ 2 / l.length := by
      rw [hs']; field_simp; ring
    linarith

theorem zip_ne {X Y : List F} (hl : X.length = Y.length) (h : ∃ x ∈ X, x ≠ 0) : ∃ p ∈ X.zip Y, p.1 ≠ 0 := by
  obtain ⟨x, hx, hx0⟩ := h
  rw [← List.map_fst_zip (l₁ := X) (l₂ := Y) hl.le, List.mem_map] at hx
  obtain ⟨p, hp, rfl⟩ := hx
  exact ⟨p, hp, hx0⟩

/-- C94: `LinearB0` with such a solver. -/
theorem C94_slope (q : LSQ F) (τ δ : F) (hq : q.Near τ δ) (X Y : List F) (hl : X.length = Y.length) (h : ∃ x ∈ X, x ≠ 0) :
    ∃ m m0, linearB0 q (X.map .fin) (Y.map .fin) = .ok (.fin m) ∧ NearSlope τ δ (X.zip Y) m m0 := by
  have h1 : 1 ≤ X.length := by obtain ⟨x, hx, -⟩ := h; exact List.length_pos_of_mem hx
  obtain ⟨m, hm, hmin⟩ := hq.b0 X Y hl h1
  refine ⟨m, _, ?_, nearSlope_of (zip_ne hl h) fun k => by rw [← sumSq_residB0, ← sumSq_residB0]; exact hmin k⟩
  simp only [linearB0, Np.bin, List.length_map, hl, if_true, List.length_zipWith, min_self]
  rw [if_neg (by omega), hm]

/-- C94: `LinearB` with such a solver. -/
theorem C94_line (q : LSQ F) (τ δ : F) (hq : q.Near τ δ) (X Y : List F) (hl : X.length = Y.length)
    (h : ∃ x ∈ X, ∃ x' ∈ X, x ≠ x') :
    ∃ m b m0 b0, linearB q (X.map .fin) (Y.map .fin) = .ok (.fin m, .fin b) ∧ NearLine τ δ (X.zip Y) m b m0 b0 := by
  obtain ⟨x, hx, x', hx', hne⟩ := h
  have h2 : 2 ≤ X.length := by
    match X, hx, hx' with
    | [a], hx, hx' =>
      rw [List.mem_singleton] at hx hx'
      exact absurd (hx.trans hx'.symm) hne
    | a :: b :: t, _, _ => simp
  obtain ⟨m, b, hm, hmin⟩ := hq.b X Y hl h2
  have hpt : ∃ p ∈ X.zip Y, ∃ p' ∈ X.zip Y, p.1 ≠ p'.1 := by
    rw [← List.map_fst_zip (l₁ := X) (l₂ := Y) hl.le, List.mem_map] at hx hx'
    obtain ⟨p, hp, rfl⟩ := hx
    obtain ⟨p', hp', rfl⟩ := hx'
    exact ⟨p, hp, p', hp', hne⟩
  obtain ⟨m0, b0, hn⟩ := nearLine_of hpt (m := m) (b := b) (τ := τ) (δ := δ) fun k c => by
    rw [← sumSq_residB, ← sumSq_residB]; exact hmin k c
  refine ⟨m, b, m0, b0, ?_, hn⟩
  simp only [linearB, Np.bin, List.length_map, hl, if_true, List.length_zipWith, min_self]
  rw [if_neg (by omega), hm]

/-- C94, gain: `K` is near the best slope of the photon transfer curve. -/
theorem C94_gain (q : LSQ F) (τ δ : F) (hq : q.Near τ δ) (r : Res F) (uy ud sy sd : List F)
    (hu : r.temporal.u_y = uy.map .fin) (hd : r.temporal.u_ydark = ud.map .fin)
    (hsy : r.temporal.s2_y = sy.map .fin) (hsd : r.temporal.s2_ydark = sd.map .fin)
    (h1 : uy.length = ud.length) (h2 : sy.length = uy.length) (h3 : sd.length = uy.length)
    (j : ℕ) (hj : val indexSensitivityMax r = .ok j)
    (hx : ∃ i ≤ j, ∃ y, (diff uy ud)[i]? = some y ∧ y ≠ 0) :
    ∃ k k0, val (K q) r = .ok (.fin k) ∧ NearSlope τ δ (((diff uy ud).zip (diff sy sd)).take (j + 1)) k k0 := by
  rw [val_K, signal_fin r uy ud hu hd h1, hsy, hsd, bin_sub_fin sy sd (by omega), hj]
  simp only [except_bind_ok, Np.slice_zero, ← List.map_take]
  obtain ⟨i, hi, p, hp, h0⟩ := hx
  obtain ⟨m, m0, e1, e2⟩ := C94_slope q τ δ hq ((diff uy ud).take (j + 1)) ((diff sy sd).take (j + 1))
    (by simp [diff_length _ _ h1, diff_length sy sd (by omega), h2])
    ⟨p, List.mem_of_getElem? (i := i) (by rw [List.getElem?_take_of_lt (by omega)]; exact hp), h0⟩
  refine ⟨m, m0, e1, ?_⟩
  rw [List.zip, ← List.take_zipWith] at e2
  exact e2

/-- C94, responsivity: `R` is near the best slope of the sensitivity curve. -/
theorem C94_responsivity (q : LSQ F) (τ δ : F) (hq : q.Near τ δ) (r : Res F) (uy ud : List F)
    (hu : r.temporal.u_y = uy.map .fin) (hd : r.temporal.u_ydark = ud.map .fin)
    (h1 : uy.length = ud.length) (h4 : r.temporal.u_p.length = uy.length)
    (j : ℕ) (hj : val indexSensitivityMax r = .ok j)
    (hx : ∃ i ≤ j, ∃ p, r.temporal.u_p[i]? = some p ∧ p ≠ 0) :
    ∃ m m0, val (R q) r = .ok (.fin m) ∧ NearSlope τ δ ((r.temporal.u_p.zip (diff uy ud)).take (j + 1)) m m0 := by
  rw [val_R, signal_fin r uy ud hu hd h1, hj]
  simp only [except_bind_ok, Np.slice_zero, ← List.map_take]
  obtain ⟨i, hi, p, hp, h0⟩ := hx
  obtain ⟨m, m0, e1, e2⟩ := C94_slope q τ δ hq (r.temporal.u_p.take (j + 1)) ((diff uy ud).take (j + 1))
    (by simp [diff_length _ _ h1, h4])
    ⟨p, List.mem_of_getElem? (i := i) (by rw [List.getElem?_take_of_lt (by omega)]; exact hp), h0⟩
  refine ⟨m, m0, e1, ?_⟩
  rw [List.zip, ← List.take_zipWith] at e2
  exact e2

/-- C94, dark current: the currents come from lines near the best ones; the one from the variance is reported exactly if the
slope that was found is not negative. -/
theorem C94_dark_current (q : LSQ F) (τ δ : F) (hq : q.Near τ δ) (r : Res F) (ud sd : List F)
    (hud : r.temporal.u_ydark = ud.map .fin) (hsd : r.temporal.s2_ydark = sd.map .fin)
    (hl1 : r.temporal.texp.length = ud.length) (hl2 : r.temporal.texp.length = sd.length)
    (h : 2 < r.temporal.texp.toFinset.card) (k : F) (hk : k ≠ 0) (hK : val (K q) r = .ok (.fin k)) :
    ∃ m b m0 b0 v c v0 c0, NearLine τ δ (r.temporal.texp.zip ud) m b m0 b0 ∧ NearLine τ δ (r.temporal.texp.zip sd) v c v0 c0 ∧
      val (uIMeanDN q) r = .ok (.num (.fin (m * 10 ^ 9))) ∧
      val (uIMean q) r = .ok (.num (.fin (m * 10 ^ 9 / k))) ∧
      (v < 0 → val (uIVarDN q) r = .ok .npnan ∧ val (uIVar q) r = .ok .npnan) ∧
      (0 ≤ v → val (uIVarDN q) r = .ok (.num (.fin (v / k * 10 ^ 9))) ∧
        val (uIVar q) r = .ok (.num (.fin (v / k * 10 ^ 9 / k)))) := by
  have sK := stable_K q
  obtain ⟨m, b, m0, b0, e1, hb1⟩ := C94_line q τ δ hq _ ud hl1 (two_distinct h)
  obtain ⟨v, c, v0, c0, e2, hb2⟩ := C94_line q τ δ hq _ sd hl2 (two_distinct h)
  have h1 : val (uIMeanDN q) r = .ok (.num (.fin (m * 10 ^ 9))) := by
    unfold uIMeanDN
    rw [val_bind_ok stable_few (by stab) (val_many h)]
    simp only [Bool.false_eq_true, if_false]
    rw [val_bind_ok stable_temporal (by stab) rfl, hud, e1,
      val_bind_ok (Stable.lift _) (by stab) rfl, val_pure]
    rfl
  have h2 : val (uIVarDN q) r = val (if Fl.lt (.fin v : Fl F) (.fin 0) then pure .npnan else do
      let k ← K q
      pure (.num ((.fin v : Fl F) / k * .fin (10 ^ 9)))) r := by
    unfold uIVarDN
    rw [val_bind_ok stable_few (by stab) (val_many h)]
    simp only [Bool.false_eq_true, if_false]
    rw [val_bind_ok stable_temporal (by stab) rfl, hsd, e2,
      val_bind_ok (Stable.lift _) (by stab) rfl]
  refine ⟨m, b, m0, b0, v, c, v0, c0, hb1, hb2, h1, ?_, ?_, ?_⟩
  · rw [uIMean, (val_overK q (stable_uIMeanDN q) r).2 _ _ h1 hK, Fl.fin_div hk]
  · intro hv
    rw [if_pos (show Fl.lt (.fin v) (.fin 0) = true from decide_eq_true hv)] at h2
    exact ⟨h2, (val_overK q (stable_uIVarDN q) r).1 h2⟩
  · intro hv
    rw [if_neg (show ¬ Fl.lt (.fin v) (.fin 0) = true by simpa using hv),
      val_bind_ok sK (by stab) hK, val_pure, Fl.fin_div hk, Fl.fin_mul] at h2
    exact ⟨h2, by rw [uIVar, (val_overK q (stable_uIVarDN q) r).2 _ _ h2 hK, Fl.fin_div hk]⟩

/-- C94: what nearness means for points within `ε` of a line of slope `κ` through the origin. -/
theorem C94_close (τ δ : F) (hτ : 0 ≤ τ) (l : List (F × F)) (m m0 κ ε : F) (h : NearSlope τ δ l m m0) (hx : ∃ p ∈ l, p.1 ≠ 0)
    (hε : ∀ p ∈ l, |p.2 - κ * p.1| ≤ ε) : (m - κ) ^ 2 * weight l ≤ 2 * ((1 + τ) * (l.length * ε ^ 2) + δ) := by
  obtain ⟨hb, hn⟩ := h
  have hw : 0 ≤ weight l := by rw [weight_eq]; exact (Sxx_pos hx).le
  have h1 := bestSlope_close hb hx hε
  rw [← weight_eq] at h1
  have hs : sqErr l m0 0 ≤ l.length * ε ^ 2 := by
    have h2 : sqErr l m0 0 ≤ sqErr l κ 0 := by
      by_cases hk : κ = m0
      · rw [hk]
      · exact (hb κ hk).le
    refine h2.trans ?_
    clear * - hε
    induction l with
    | nil => simp [sqErr]
    | cons p l ih =>
      have a := ih fun p' hp' => hε p' (List.mem_cons_of_mem _ hp')
      have b := hε p (List.mem_cons_self ..)
      have c : (p.2 - κ * p.1) ^ 2 ≤ ε ^ 2 := sq_le_sq' (by linarith [(abs_le.1 b).1]) (abs_le.1 b).2
      simp only [sqErr, List.map_cons, List.sum_cons, List.length_cons, Nat.cast_add, Nat.cast_one, add_zero] at a ⊢
      linarith
  have h3 := mul_le_mul_of_nonneg_left hs hτ
  have h4 : (m - κ) ^ 2 ≤ 2 * (m - m0) ^ 2 + 2 * (m0 - κ) ^ 2 := by nlinarith [sq_nonneg ((m - m0) - (m0 - κ))]
  have h5 := mul_le_mul_of_nonneg_right h4 hw
  linarith

/-- C94: points on a line through the origin give its slope whatever the relative tolerance is. -/
theorem C94_ideal (τ : F) (l : List (F × F)) (m m0 κ : F) (h : NearSlope τ 0 l m m0) (hx : ∃ p ∈ l, p.1 ≠ 0)
    (hl : ∀ p ∈ l, p.2 = κ * p.1) : m = κ := by
  obtain ⟨hb, hn⟩ := h
  have h0 : sqErr l κ 0 = 0 := sqErr_exact fun p hp => by rw [hl p hp, add_zero]
  have hk : κ = m0 := by
    by_contra hk
    have := hb κ hk
    rw [h0] at this
    exact absurd (sqErr_nonneg _ _ _) (not_le.2 this)
  subst hk
  rw [h0, mul_zero, add_zero, weight_eq] at hn
  have h1 : (m - κ) ^ 2 = 0 := le_antisymm (by
    by_contra hc
    exact absurd hn (not_le.2 (mul_pos (not_le.1 hc) (Sxx_pos hx)))) (sq_nonneg _)
  exact sub_eq_zero.1 (pow_eq_zero_iff two_ne_zero |>.1 h1)

/-- The points `0 .. j` of the curve `y` over `x`, all within `ε` of the line of slope `κ`, bound the distance of `m` from `κ`. -/
def Spec.SlopeWithin (τ δ : F) (x y : List F) (j : ℕ) (m : F) : Prop :=
  ∀ κ ε, (∀ i ≤ j, ∀ a b, x[i]? = some a → y[i]? = some b → |b - κ * a| ≤ ε) →
    ∀ i ≤ j, ∀ a, x[i]? = some a → ((m - κ) * a) ^ 2 ≤ 2 * ((1 + τ) * ((j + 1) * ε ^ 2) + δ)

theorem slopeWithin_of {x y : List F} (hl : x.length = y.length) {τ δ : F} (hτ : 0 ≤ τ) {j : ℕ} {m m0 : F}
    (h : NearSlope τ δ ((x.zip y).take (j + 1)) m m0) (hx : ∃ i ≤ j, ∃ a, x[i]? = some a ∧ a ≠ 0) :
    SlopeWithin τ δ x y j m := by
  have hx' : ∃ p ∈ (x.zip y).take (j + 1), p.1 ≠ 0 := by
    obtain ⟨i, hi, a, ha, h0⟩ := hx
    obtain ⟨b, hb⟩ := getElem?_of_len hl ha
    exact ⟨(a, b), take_zip_mem (by omega) ha hb, h0⟩
  intro κ ε hε i hi a ha
  obtain ⟨b, hb⟩ := getElem?_of_len hl ha
  have h1 := C94_close τ δ hτ _ m m0 κ ε h hx' fun p hp => by
    obtain ⟨i, hi, h1, h2⟩ := mem_take_zip hp
    exact hε i (by omega) _ _ h1 h2
  rw [weight_eq] at h1
  have h2 := mul_le_mul_of_nonneg_left (sq_le_Sxx (take_zip_mem (n := j + 1) (by omega) ha hb)) (sq_nonneg (m - κ))
  have h3 : (((x.zip y).take (j + 1)).length : F) ≤ j + 1 := by
    have : ((x.zip y).take (j + 1)).length ≤ j + 1 := by simp
    exact_mod_cast this
  have h4 := mul_le_mul_of_nonneg_left (mul_le_mul_of_nonneg_right h3 (sq_nonneg ε)) (by linarith : 0 ≤ 1 + τ)
  rw [mul_pow]
  linarith

/-- C94: the gain and the responsivity are as close to the slope of a line through the origin as the points are, up to the
tolerances of the solver. -/
theorem C94_results (q : LSQ F) (τ δ : F) (hτ : 0 ≤ τ) (hq : q.Near τ δ) (r : Res F) (uy ud sy sd : List F)
    (hu : r.temporal.u_y = uy.map .fin) (hd : r.temporal.u_ydark = ud.map .fin)
    (hsy : r.temporal.s2_y = sy.map .fin) (hsd : r.temporal.s2_ydark = sd.map .fin)
    (h1 : uy.length = ud.length) (h2 : sy.length = uy.length) (h3 : sd.length = uy.length)
    (h4 : r.temporal.u_p.length = uy.length)
    (j : ℕ) (hj : val indexSensitivityMax r = .ok j)
    (hx : ∃ i ≤ j, ∃ y, (diff uy ud)[i]? = some y ∧ y ≠ 0) (hp : ∃ i ≤ j, ∃ p, r.temporal.u_p[i]? = some p ∧ p ≠ 0) :
    ∃ k m, val (K q) r = .ok (.fin k) ∧ val (R q) r = .ok (.fin m) ∧
      SlopeWithin τ δ (diff uy ud) (diff sy sd) j k ∧ SlopeWithin τ δ r.temporal.u_p (diff uy ud) j m := by
  obtain ⟨k, k0, e1, n1⟩ := C94_gain q τ δ hq r uy ud sy sd hu hd hsy hsd h1 h2 h3 j hj hx
  obtain ⟨m, m0, e2, n2⟩ := C94_responsivity q τ δ hq r uy ud hu hd h1 h4 j hj hp
  exact ⟨k, m, e1, e2, slopeWithin_of (by simp [diff, h1, h2, h3]) hτ n1 hx, slopeWithin_of (by simp [diff, h1, h4]) hτ n2 hp⟩

/-- C94: tolerance zero is the exact solver. -/
theorem C94_exact (q : LSQ F) : q.Near 0 0 ↔ q.Good := by
  constructor
  · intro h
    exact ⟨fun X Y h1 h2 => by simpa using h.b0 X Y h1 h2, fun X Y h1 h2 => by simpa using h.b X Y h1 h2⟩
  · intro h
    exact ⟨fun X Y h1 h2 => by simpa using h.b0 X Y h1 h2, fun X Y h1 h2 => by simpa using h.b X Y h1 h2⟩

/-! ### a case -/

/-- a solver whose slopes through the origin are off -/
def roughLSQ : LSQ ℚ where
  b0 := fun X Y => match finite? X, finite? Y with
    | some x, some y =>
      .fin ((List.zipWith (· * ·) x y).sum / (x.map fun a => a * a).sum + 1 / (10 * (2 + (x.map fun a => a * a).sum)))
    | _, _ => .nan
  b := (exactLSQ ℚ).b

theorem roughLSQ_near : roughLSQ.Near 0 (1 / 10) where
  b := fun X Y h1 h2 => by
    obtain ⟨m, c, h3, h4⟩ := (exactLSQ_good (F := ℚ)).b X Y h1 h2
    exact ⟨m, c, h3, fun m' c' => by linarith [h4 m' c']⟩
  b0 := fun X Y h1 h2 => by
    refine ⟨_, by simp only [roughLSQ, finite?_map]; rfl, fun m' => ?_⟩
    obtain ⟨m, h3, h4⟩ := (exactLSQ_good (F := ℚ)).b0 X Y h1 h2
    simp only [exactLSQ, finite?_map, Fl.fin_inj] at h3
    have h5 := h4 m'
    rw [h3, ← zip_sxx X Y h1]
    rw [sumSq_residB0] at *
    rw [sumSq_residB0] at h5
    rw [sumSq_residB0]
    have hS : 0 ≤ Sxx (X.zip Y) := S_nonneg (fun p => mul_self_nonneg _) _
    have hn : m * Sxx (X.zip Y) = Sxy (X.zip Y) := by
      rw [← h3, ← zip_sxy, ← zip_sxx X Y h1]
      rcases eq_or_lt_of_le hS with h0 | h0
      · rw [← h0, mul_zero]
        have hz := S_eq_zero (fun p => mul_self_nonneg _) h0.symm
        have : Sxy (X.zip Y) = S (fun _ => 0) (X.zip Y) := S_congr fun p hp => by rw [mul_self_eq_zero.1 (hz p hp), zero_mul]
        rw [this]; simp [S]
      · field_simp
    rw [sqErr_normal0 hn]
    have hb : (1 / (10 * (2 + Sxx (X.zip Y)))) ^ 2 * Sxx (X.zip Y) ≤ 1 / 10 := by
      rw [div_pow, one_pow, div_mul_eq_mul_div, one_mul, div_le_div_iff₀ (by positivity) (by norm_num)]
      nlinarith [sq_nonneg (Sxx (X.zip Y))]
    have e : (m + 1 / (10 * (2 + Sxx (X.zip Y))) - m) = 1 / (10 * (2 + Sxx (X.zip Y))) := by ring
    rw [e]
    linarith

/-- it does not find the slope 2 exactly -/
example : linearB0 roughLSQ [.fin 1, .fin 2] [.fin 2, .fin 4] = .ok (.fin (2 + 1 / 70)) := by decide +kernel

example : ∃ m m0, linearB0 roughLSQ [.fin 1, .fin 2] [.fin 2, .fin 4] = .ok (.fin m) ∧ NearSlope 0 (1 / 10) [(1, 2), (2, 4)] m m0 :=
  C94_slope roughLSQ 0 (1 / 10) roughLSQ_near [1, 2] [2, 4] rfl ⟨1, by simp, by norm_num⟩

/-- The measurement of C90 with the rough solver: the gain is not the best slope, but within the bound. -/
example : ∃ k m, val (K roughLSQ) sampleNoisy = .ok (.fin k) ∧ val (R roughLSQ) sampleNoisy = .ok (.fin m) ∧
    ((k - 1 / 10) * 10) ^ 2 ≤ 2 * (3 * (1 / 10) ^ 2 + 1 / 10) := by
  obtain ⟨k, m, e1, e2, h, -⟩ := C94_results roughLSQ 0 (1 / 10) le_rfl roughLSQ_near sampleNoisy [10, 16, 20, 26, 28]
    [10, 10, 10, 10, 10] [1, 1 + 1 / 2, 2, 2 + 1 / 2, 1] [1, 1, 1, 1, 1] rfl rfl rfl rfl rfl rfl rfl rfl 2 (by decide +kernel)
    ⟨1, by norm_num, 6, by norm_num [diff], by norm_num⟩ ⟨1, by norm_num, _, rfl, by norm_num⟩
  refine ⟨k, m, e1, e2, ?_⟩
  have := h (1 / 10) (1 / 10) (fun i hi a b ha hb => by
    have hi' : i = 0 ∨ i = 1 ∨ i = 2 := by omega
    rcases hi' with rfl | rfl | rfl <;> norm_num [diff] at ha hb <;> subst ha hb <;> norm_num [abs_le, abs_of_pos])
    2 le_rfl 10 (by norm_num [diff])
  norm_num at this ⊢
  exact this

/-- Three exposure times: the dark currents. -/
example : ∃ k, val (K roughLSQ) sampleDark = .ok (.fin k) ∧ k ≠ 1 / 10 ∧
    ∃ m b m0 b0, NearLine 0 (1 / 10) [((1 : ℚ), (3 : ℚ)), (2, 5), (3, 7)] m b m0 b0 ∧
      val (uIMeanDN roughLSQ) sampleDark = .ok (.num (.fin (m * 10 ^ 9))) := by
  obtain ⟨k, e, hk, hk'⟩ : ∃ k, val (K roughLSQ) sampleDark = .ok (.fin k) ∧ k ≠ 0 ∧ k ≠ 1 / 10 :=
    ⟨1 / 10 + 1 / (10 * (2 + 25)), by decide +kernel, by norm_num, by norm_num⟩
  obtain ⟨m, b, m0, b0, v, c, v0, c0, h1, -, h2, -⟩ := C94_dark_current roughLSQ 0 (1 / 10) roughLSQ_near sampleDark
    [3, 5, 7] [7, 10, 13] rfl rfl rfl rfl (by decide +kernel) k hk e
  exact ⟨k, e, hk', m, b, m0, b0, h1, h2⟩

end Emva
