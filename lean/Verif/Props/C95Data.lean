import Verif.Lemmas.AffineResults
import Verif.Props.C94
import Verif.Props.C95

/-!
C95: the sensitivity range, the gain and the responsivity in floating point arithmetic, and all the results of a measurement.
-/
set_option autoImplicit false
namespace Emva
open Spec Data Results Fit

section
variable {u : ℝ} (R : Rounding u)

/-- the differences of two arrays in floating point -/
noncomputable def rdiff (a b : List ℝ) : List ℝ := (diff a b).map R.rnd

theorem bin_rd_fin (a b : List ℝ) (h : a.length = b.length) :
    Np.bin (fun x y => Rounded.rd R (x - y)) (a.map Fl.fin) (b.map Fl.fin) = .ok ((rdiff R a b).map .fin) := by
  rw [Np.bin_eq_len _ _ _ (by simpa using h), rdiff, diff]
  simp [List.zipWith_map, List.map_zipWith, Rounded.rd]

theorem rsignal_fin (r : Res ℝ) (uy ud : List ℝ) (hu : r.temporal.u_y = uy.map .fin)
    (hd : r.temporal.u_ydark = ud.map .fin) (hl : uy.length = ud.length) :
    val (Rounded.signal R) r = .ok ((rdiff R uy ud).map .fin) := by
  unfold Rounded.signal
  rw [val_bind_ok stable_temporal (by stab) rfl, val_lift, hu, hd, bin_rd_fin R uy ud hl]

theorem rnd_nonpos (hu1 : u < 1) {x : ℝ} (hx : x < 0) : R.rnd x ≤ 0 := by
  have h := (abs_le.1 (R.err x)).2
  rw [abs_of_neg hx] at h
  have : (1 - u) * x ≤ 0 := mul_nonpos_of_nonneg_of_nonpos (by linarith) hx.le
  linarith

theorem argwhere_congr {α : Type} {p p' : α → Bool} {l : List α} (h : ∀ x ∈ l, p x = p' x) : Np.argwhere p l = Np.argwhere p' l := by
  unfold Np.argwhere
  refine List.filter_congr fun i hi => ?_
  rcases hx : l[i]? with _ | x
  · rfl
  · exact h x (List.mem_of_getElem? hx)

theorem argwhere_map {α β : Type} (f : α → β) (p : β → Bool) (l : List α) : Np.argwhere p (l.map f) = Np.argwhere (fun x => p (f x)) l := by
  unfold Np.argwhere
  rw [List.length_map]
  refine List.filter_congr fun i hi => ?_
  rw [List.getElem?_map]
  cases l[i]? <;> rfl

/-- the last index with at most a fraction of saturation is the same in floating point unless a signal is next to this fraction -/
theorem lastBelow_same (hu1 : u < 1) (c : ℝ) (hc0 : 0 ≤ c) (r : Res ℝ) (uy ud : List ℝ) (hu : r.temporal.u_y = uy.map .fin)
    (hd : r.temporal.u_ydark = ud.map .fin) (hl : uy.length = ud.length) (k : ℤ) (hk : val indexUysat r = .ok k) (ys : ℝ)
    (hys : AtIndex (diff uy ud) k ys) (h0 : 0 ≤ ys)
    (gap : ∀ y ∈ diff uy ud, y ≤ (1 - u) ^ 4 * (c * ys) ∨ c * ys < (1 - u) ^ 4 * y) :
    val (Rounded.lastBelow R c) r = val (lastBelow c) r := by
  have hs : 0 < 1 - u := by linarith
  have rn : ∀ {x : ℝ}, 0 ≤ x → Close (1 - u) (R.rnd x) x := fun h => Close.rnd R hu1.le h
  have hidx : Np.idx ((rdiff R uy ud).map Fl.fin) k = .ok (.fin (R.rnd ys)) := by
    have h1 := (Np.idx_ok_iff _ _ _).2 hys
    rw [rdiff, List.map_map, Np.idx_map, h1]
    rfl
  have e1 : val (Rounded.lastBelow R c) r =
      Np.maxI (Np.argwhere (fun y => Fl.le y (.fin (R.rnd (R.rnd c * R.rnd ys)))) ((rdiff R uy ud).map .fin)) := by
    unfold Rounded.lastBelow
    rw [val_bind_ok (Rounded.stable_signal R) (by stab) (rsignal_fin R r uy ud hu hd hl),
      val_bind_ok Stable.indexUysat (by stab) hk, val_bind_ok (x := lift (Np.idx _ k)) (Stable.lift _) (by stab) hidx, val_lift]
    rfl
  have e2 : val (lastBelow c) r = Np.maxI (Np.argwhere (fun y => Fl.le y (.fin (c * ys))) ((diff uy ud).map .fin)) := by
    rw [val_lastBelow, signal_fin r uy ud hu hd hl, hk]
    simp only [except_bind_ok]
    rw [idx_fin hys]
    rfl
  rw [e1, e2, rdiff, List.map_map, argwhere_map, argwhere_map]
  congr 1
  refine argwhere_congr fun y hy => ?_
  have c7 := rn hc0
  have cy := rn h0
  have cm := Close.mul c7 cy hs.le hs.le
  have cm' := Close.trans (rn cm.1) cm hs.le (by positivity)
  set M' := R.rnd (R.rnd c * R.rnd ys)
  set M := c * ys
  set s := 1 - u with hsd
  show decide (R.rnd y ≤ M') = decide (y ≤ M)
  have hM : 0 ≤ M := cm'.2.1
  have h4 : s ^ 4 ≤ 1 := pow_le_one₀ hs.le (by have := R.u_nonneg; linarith)
  rcases gap y hy with h | h
  · have a1 : y ≤ M := h.trans (mul_le_of_le_one_left hM h4)
    have a2 : R.rnd y ≤ M' := by
      rcases lt_or_ge y 0 with hn | hn
      · exact (rnd_nonpos R hu1 hn).trans cm'.1
      · have cn := rn hn
        have : s * R.rnd y ≤ s * M' := by
          have h1 := cn.2.2.2
          have h2 := mul_le_mul_of_nonneg_left cm'.2.2.1 hs.le
          have e : s * (s * (s * s) * M) = s ^ 4 * M := by ring
          linarith
        exact le_of_mul_le_mul_left this hs
    rw [decide_eq_true a1, decide_eq_true a2]
  · have hy0 : 0 < y := by
      by_contra hc
      have : s ^ 4 * y ≤ 0 := mul_nonpos_of_nonneg_of_nonpos (by positivity) (not_lt.1 hc)
      linarith
    have a1 : ¬ y ≤ M := fun hc => by
      have := mul_le_of_le_one_left hy0.le h4
      linarith
    have a2 : ¬ R.rnd y ≤ M' := fun hc => by
      have h1 := (rn hy0.le).2.2.1
      have h2 := cm'.2.2.2
      have h3 : s * (s * s) * (s * y) ≤ s * (s * s) * M' := mul_le_mul_of_nonneg_left (h1.trans hc) (by positivity)
      have e : s * (s * s) * (s * y) = s ^ 4 * y := by ring
      linarith
    rw [decide_eq_false a1, decide_eq_false a2]

/-- C95: `index_sensitivity_max` is the same in floating point unless a signal is next to 70 % of saturation. -/
theorem C95_index (hu1 : u < 1) (r : Res ℝ) (uy ud : List ℝ) (hu : r.temporal.u_y = uy.map .fin)
    (hd : r.temporal.u_ydark = ud.map .fin) (hl : uy.length = ud.length) (k : ℤ) (hk : val indexUysat r = .ok k) (ys : ℝ)
    (hys : AtIndex (diff uy ud) k ys) (h0 : 0 ≤ ys)
    (gap : ∀ y ∈ diff uy ud, y ≤ (1 - u) ^ 4 * (7 / 10 * ys) ∨ 7 / 10 * ys < (1 - u) ^ 4 * y) :
    val (Rounded.indexSensitivityMax R) r = val indexSensitivityMax r :=
  lastBelow_same R hu1 (7 / 10) (by norm_num) r uy ud hu hd hl k hk ys hys h0 gap

/-- sums of numbers that agree agree -/
theorem close_sum {α : Type} {t : ℝ} {f g : α → ℝ} {l : List α} (h : ∀ x ∈ l, Close t (f x) (g x)) :
    Close t (l.map f).sum (l.map g).sum := by
  induction l with
  | nil => simp [Close]
  | cons x l ih =>
    rw [List.map_cons, List.map_cons, List.sum_cons, List.sum_cons]
    exact Close.add (h x (List.mem_cons_self ..)) (ih fun y hy => h y (List.mem_cons_of_mem _ hy))

/-- C95: a slope found by a solver with tolerance on the rounded points agrees with the best slope of the exact points. -/
theorem C95_slope (hu1 : u < 1) (l : List (ℝ × ℝ)) (hl : ∀ p ∈ l, 0 ≤ p.1 ∧ 0 ≤ p.2) (hx : ∃ p ∈ l, 0 < p.1) (k : ℝ)
    (hk : BestSlope l k) (hk0 : 0 < k) (τ δ ρ : ℝ) (hτ : 0 ≤ τ) (hδ : 0 ≤ δ) (hρ : 0 ≤ ρ) (hρ1 : ρ ≤ 1)
    (htol : τ * (l.map fun p => p.2 ^ 2).sum + δ ≤ ρ ^ 2 * (1 - u) ^ 12 * (k ^ 2 * weight l))
    (k' k0 : ℝ) (hn : NearSlope τ δ (l.map fun p => (R.rnd p.1, R.rnd p.2)) k' k0) :
    Close ((1 - ρ) * (1 - u) ^ 4) k' k := by
  have hs : 0 < 1 - u := by linarith
  have hs1 : 1 - u ≤ 1 := by have := R.u_nonneg; linarith
  have rn : ∀ {x : ℝ}, 0 ≤ x → Close (1 - u) (R.rnd x) x := fun h => Close.rnd R hu1.le h
  set s := 1 - u with hsd
  set l' := l.map fun p => (R.rnd p.1, R.rnd p.2) with hl'
  obtain ⟨p, hp, hp0⟩ := hx
  have hx : ∃ p ∈ l, p.1 ≠ 0 := ⟨p, hp, hp0.ne'⟩
  have hx' : ∃ p ∈ l', p.1 ≠ 0 := ⟨_, List.mem_map_of_mem hp, (Close.pos (rn hp0.le) hs hp0).ne'⟩
  have cxx : Close (s * s) (Sxx l') (Sxx l) := by
    have : Sxx l' = (l.map fun p => R.rnd p.1 * R.rnd p.1).sum := by
      rw [hl']; unfold Sxx S; rw [List.map_map]; rfl
    rw [this]
    exact close_sum fun p hp => Close.mul (rn (hl p hp).1) (rn (hl p hp).1) hs.le hs.le
  have cxy : Close (s * s) (Sxy l') (Sxy l) := by
    have : Sxy l' = (l.map fun p => R.rnd p.1 * R.rnd p.2).sum := by
      rw [hl']; unfold Sxy S; rw [List.map_map]; rfl
    rw [this]
    exact close_sum fun p hp => Close.mul (rn (hl p hp).1) (rn (hl p hp).2) hs.le hs.le
  have hpos := Sxx_pos hx
  have hpos' := Sxx_pos hx'
  have ek : k = Sxy l / Sxx l := bestSlope_eq hk hx
  have ek0 : k0 = Sxy l' / Sxx l' := bestSlope_eq hn.1 hx'
  have c0 : Close (s ^ 4) k0 k := by
    rw [ek, ek0]
    have := Close.div cxy cxx (by positivity) (by positivity) hpos
    rwa [show s * s * (s * s) = s ^ 4 by ring] at this
  have hk00 := Close.pos c0 (by positivity) hk0
  -- the sum of squares at the best slope is at most that of zero
  have hS : sqErr l' k0 0 ≤ (l'.map fun p => p.2 ^ 2).sum := by
    have e0 : sqErr l' 0 0 = (l'.map fun p => p.2 ^ 2).sum := by
      unfold sqErr
      congr 1
      refine List.map_congr_left fun p _ => ?_
      ring
    rw [← e0]
    exact (hn.1 0 hk00.ne).le
  have hS2 : s ^ 2 * (l'.map fun p => p.2 ^ 2).sum ≤ (l.map fun p => p.2 ^ 2).sum := by
    have : (l'.map fun p => p.2 ^ 2).sum = (l.map fun p => R.rnd p.2 ^ 2).sum := by
      rw [hl', List.map_map]; rfl
    rw [this]
    have c : Close (s ^ 2) (l.map fun p => R.rnd p.2 ^ 2).sum (l.map fun p => p.2 ^ 2).sum :=
      close_sum fun p hp => by
        have := Close.mul (rn (hl p hp).2) (rn (hl p hp).2) hs.le hs.le
        rwa [← sq, ← sq, ← sq] at this
    exact c.2.2.2
  have hw : weight l = Sxx l := weight_eq l
  have hw' : weight l' = Sxx l' := weight_eq l'
  have hb : (k' - k0) ^ 2 ≤ (ρ * k0) ^ 2 := by
    have a1 := hn.2
    rw [hw'] at a1
    have a2 : τ * sqErr l' k0 0 ≤ τ * (l'.map fun p => p.2 ^ 2).sum := mul_le_mul_of_nonneg_left hS hτ
    have a3 := mul_le_mul_of_nonneg_left hS2 hτ
    have a4 : s ^ 2 * δ ≤ δ := mul_le_of_le_one_left hδ (pow_le_one₀ hs.le hs1)
    have a5 : s ^ 2 * ((k' - k0) ^ 2 * Sxx l') ≤ ρ ^ 2 * s ^ 12 * (k ^ 2 * Sxx l) := by
      rw [hw] at htol
      refine (mul_le_mul_of_nonneg_left (a1.trans (add_le_add_left a2 δ)) (by positivity)).trans ?_
      linarith
    -- k² Sxx against k0² Sxx'
    have a6 : s ^ 4 * k ≤ k0 := c0.2.2.1
    have a7 : s ^ 2 * Sxx l ≤ Sxx l' := by have := cxx.2.2.1; rwa [← sq] at this
    have a8 : (s ^ 4 * k) ^ 2 * (s ^ 2 * Sxx l) ≤ k0 ^ 2 * Sxx l' :=
      mul_le_mul (pow_le_pow_left₀ (by positivity) a6 2) a7 (by positivity) (by positivity)
    have a9 : ρ ^ 2 * s ^ 12 * (k ^ 2 * Sxx l) ≤ ρ ^ 2 * s ^ 2 * (k0 ^ 2 * Sxx l') := by
      have := mul_le_mul_of_nonneg_left a8 (show 0 ≤ ρ ^ 2 * s ^ 2 by positivity)
      refine le_trans (le_of_eq ?_) this
      ring
    have a10 : s ^ 2 * Sxx l' * (k' - k0) ^ 2 ≤ s ^ 2 * Sxx l' * (ρ * k0) ^ 2 := by
      have := a5.trans a9
      linarith [show s ^ 2 * Sxx l' * (ρ * k0) ^ 2 = ρ ^ 2 * s ^ 2 * (k0 ^ 2 * Sxx l') by ring]
    exact le_of_mul_le_mul_left a10 (by positivity)
  have c1 : Close (1 - ρ) k' k0 := Close.of_abs hk00 (abs_le_of_sq_le_sq hb (by positivity)) hρ1
  exact Close.trans c1 c0 (by linarith) (by positivity)

/-- C95: the gain in floating point. -/
theorem C95_gain (hu1 : u < 1) (q' q : LSQ ℝ) (hq : q.Good) (τ δ ρ : ℝ) (hq' : q'.Near τ δ) (hτ : 0 ≤ τ) (hδ : 0 ≤ δ) (hρ : 0 ≤ ρ)
    (hρ1 : ρ ≤ 1) (r : Res ℝ) (uy ud sy sd : List ℝ)
    (hu : r.temporal.u_y = uy.map .fin) (hd : r.temporal.u_ydark = ud.map .fin)
    (hsy : r.temporal.s2_y = sy.map .fin) (hsd : r.temporal.s2_ydark = sd.map .fin)
    (h1 : uy.length = ud.length) (h2 : sy.length = uy.length) (h3 : sd.length = uy.length)
    (j : ℕ) (hj : val indexSensitivityMax r = .ok j) (hj' : val (Rounded.indexSensitivityMax R) r = .ok j)
    (hpos : ∀ p ∈ ((diff uy ud).zip (diff sy sd)).take (j + 1), 0 ≤ p.1 ∧ 0 ≤ p.2)
    (hx : ∃ i ≤ j, ∃ y, (diff uy ud)[i]? = some y ∧ 0 < y)
    (k : ℝ) (hk : val (K q) r = .ok (.fin k)) (hk0 : 0 < k)
    (htol : τ * ((((diff uy ud).zip (diff sy sd)).take (j + 1)).map fun p => p.2 ^ 2).sum + δ ≤
      ρ ^ 2 * (1 - u) ^ 12 * (k ^ 2 * weight (((diff uy ud).zip (diff sy sd)).take (j + 1)))) :
    ∃ k', val (Rounded.gain R q') r = .ok (.fin k') ∧ Close ((1 - ρ) * (1 - u) ^ 4) k' k := by
  have hx0 : ∃ i ≤ j, ∃ y, (diff uy ud)[i]? = some y ∧ y ≠ 0 := by
    obtain ⟨i, hi, y, hy, h⟩ := hx; exact ⟨i, hi, y, hy, h.ne'⟩
  obtain ⟨k1, e1, b1⟩ := C66_gain q hq r uy ud sy sd hu hd hsy hsd h1 h2 h3 j hj hx0
  obtain rfl : k1 = k := by rw [hk] at e1; injection e1 with e1; injection e1 with e1; exact e1.symm
  have hs : 0 < 1 - u := by linarith
  obtain ⟨i, hi, y, hy, hy0⟩ := hx
  have hl : (diff uy ud).length = (diff sy sd).length := by simp [diff, h1, h2, h3]
  have hy' : y ∈ (diff uy ud).take (j + 1) :=
    List.mem_of_getElem? (i := i) (by rw [List.getElem?_take_of_lt (by omega)]; exact hy)
  obtain ⟨k', k0', e', n'⟩ := C94_slope q' τ δ hq' ((rdiff R uy ud).take (j + 1)) ((rdiff R sy sd).take (j + 1))
    (by simp [rdiff, hl])
    ⟨R.rnd y, by rw [rdiff, ← List.map_take]; exact List.mem_map_of_mem hy', (Close.pos (Close.rnd R hu1.le hy0.le) hs hy0).ne'⟩
  refine ⟨k', ?_, ?_⟩
  · have sS := Rounded.stable_signal R
    have sI := Rounded.stable_smax R
    unfold Rounded.gain
    rw [val_bind_ok sS (by stab) (rsignal_fin R r uy ud hu hd h1), val_bind_ok stable_temporal (by stab) rfl,
      val_bind_ok (x := lift (Np.bin _ _ _)) (Stable.lift _) (by stab) (by rw [val_lift, hsy, hsd]; exact bin_rd_fin R sy sd (by omega)),
      val_bind_ok (a := 0) stable_smin (by stab) rfl, val_bind_ok sI (by stab) hj', val_lift,
      Np.slice_zero, Np.slice_zero, ← List.map_take, ← List.map_take, e']
  · obtain ⟨b, hb⟩ := getElem?_of_len hl hy
    refine C95_slope R hu1 _ hpos ⟨(y, b), take_zip_mem (by omega) hy hb, hy0⟩ k1 b1 hk0 τ δ ρ hτ hδ hρ hρ1 htol k' k0' ?_
    have e : ((rdiff R uy ud).take (j + 1)).zip ((rdiff R sy sd).take (j + 1)) =
        (((diff uy ud).zip (diff sy sd)).take (j + 1)).map fun p => (R.rnd p.1, R.rnd p.2) := by
      rw [rdiff, rdiff, ← List.map_take, ← List.map_take, List.zip_map, List.zip, ← List.take_zipWith]
      rfl
    rw [← e]
    exact n'

/-- the photon numbers are floats -/
def Spec.Floats (l : List ℝ) : Prop := ∀ x ∈ l, R.rnd x = x

/-- C95: the responsivity in floating point. -/
theorem C95_responsivity (hu1 : u < 1) (q' q : LSQ ℝ) (hq : q.Good) (τ δ ρ : ℝ) (hq' : q'.Near τ δ) (hτ : 0 ≤ τ) (hδ : 0 ≤ δ)
    (hρ : 0 ≤ ρ) (hρ1 : ρ ≤ 1) (r : Res ℝ) (uy ud : List ℝ)
    (hu : r.temporal.u_y = uy.map .fin) (hd : r.temporal.u_ydark = ud.map .fin)
    (h1 : uy.length = ud.length) (h4 : r.temporal.u_p.length = uy.length) (hf : Floats R r.temporal.u_p)
    (j : ℕ) (hj : val indexSensitivityMax r = .ok j) (hj' : val (Rounded.indexSensitivityMax R) r = .ok j)
    (hpos : ∀ p ∈ (r.temporal.u_p.zip (diff uy ud)).take (j + 1), 0 ≤ p.1 ∧ 0 ≤ p.2)
    (hx : ∃ i ≤ j, ∃ y, r.temporal.u_p[i]? = some y ∧ 0 < y)
    (m : ℝ) (hm : val (Results.R q) r = .ok (.fin m)) (hm0 : 0 < m)
    (htol : τ * (((r.temporal.u_p.zip (diff uy ud)).take (j + 1)).map fun p => p.2 ^ 2).sum + δ ≤
      ρ ^ 2 * (1 - u) ^ 12 * (m ^ 2 * weight ((r.temporal.u_p.zip (diff uy ud)).take (j + 1)))) :
    ∃ m', val (Rounded.resp R q') r = .ok (.fin m') ∧ Close ((1 - ρ) * (1 - u) ^ 4) m' m := by
  have hx0 : ∃ i ≤ j, ∃ y, r.temporal.u_p[i]? = some y ∧ y ≠ 0 := by
    obtain ⟨i, hi, y, hy, h⟩ := hx; exact ⟨i, hi, y, hy, h.ne'⟩
  obtain ⟨k1, e1, b1⟩ := C66_responsivity q hq r uy ud hu hd h1 h4 j hj hx0
  obtain rfl : k1 = m := by rw [hm] at e1; injection e1 with e1; injection e1 with e1; exact e1.symm
  have hs : 0 < 1 - u := by linarith
  obtain ⟨i, hi, y, hy, hy0⟩ := hx
  have hl : r.temporal.u_p.length = (diff uy ud).length := by simp [diff, h1, h4]
  have hy' : y ∈ r.temporal.u_p.take (j + 1) :=
    List.mem_of_getElem? (i := i) (by rw [List.getElem?_take_of_lt (by omega)]; exact hy)
  obtain ⟨k', k0', e', n'⟩ := C94_slope q' τ δ hq' (r.temporal.u_p.take (j + 1)) ((rdiff R uy ud).take (j + 1))
    (by simp [rdiff, hl]) ⟨y, hy', hy0.ne'⟩
  refine ⟨k', ?_, ?_⟩
  · have sS := Rounded.stable_signal R
    have sI := Rounded.stable_smax R
    unfold Rounded.resp
    rw [val_bind_ok sS (by stab) (rsignal_fin R r uy ud hu hd h1), val_bind_ok stable_photons (by stab) (val_photons r),
      val_bind_ok (a := 0) stable_smin (by stab) rfl, val_bind_ok sI (by stab) hj', val_lift,
      Np.slice_zero, Np.slice_zero, ← List.map_take, ← List.map_take, e']
  · obtain ⟨b, hb⟩ := getElem?_of_len hl hy
    refine C95_slope R hu1 _ hpos ⟨(y, b), take_zip_mem (by omega) hy hb, hy0⟩ k1 b1 hm0 τ δ ρ hτ hδ hρ hρ1 htol k' k0' ?_
    have hup : r.temporal.u_p = r.temporal.u_p.map R.rnd := by
      conv_lhs => rw [← List.map_id r.temporal.u_p]
      exact List.map_congr_left fun x hx => (hf x hx).symm
    have e : (r.temporal.u_p.take (j + 1)).zip ((rdiff R uy ud).take (j + 1)) =
        ((r.temporal.u_p.zip (diff uy ud)).take (j + 1)).map fun p => (R.rnd p.1, R.rnd p.2) := by
      conv_lhs => rw [hup]
      rw [rdiff, ← List.map_take, ← List.map_take, List.zip_map, List.zip, ← List.take_zipWith]
      rfl
    rw [← e]
    exact n'

/-- the relative error of a result in floating point, against its exact value -/
def Spec.RelError (e : ℝ) (x y : Except PyErr (Fl ℝ)) : Prop := ∃ a b, x = .ok (.fin a) ∧ y = .ok (.fin b) ∧ 0 ≤ b ∧ |a - b| ≤ e * b

theorem Spec.AgreeUpTo.relError {f e : ℝ} {x y : Except PyErr (Fl ℝ)} (h : AgreeUpTo f x y) (hf : 0 < f) (he : 1 ≤ f * (1 + e)) :
    RelError e x y := by
  obtain ⟨a, b, h1, h2, c⟩ := h
  refine ⟨a, b, h1, h2, c.2.1, (Close.rel c hf).trans (mul_le_mul_of_nonneg_right ?_ c.2.1)⟩
  rw [sub_le_iff_le_add, div_le_iff₀ hf]
  linarith

/-- C95: the results of a measurement with at most two exposure times, in floating point with a solver of given tolerance. -/
theorem C95_measurement (hu1 : u < 1) (q' q : LSQ ℝ) (hq : q.Good) (τ δ ρ : ℝ) (hq' : q'.Near τ δ) (hτ : 0 ≤ τ) (hδ : 0 ≤ δ)
    (hρ : 0 ≤ ρ) (r : Res ℝ) (uy ud sy sd : List ℝ)
    (hacc : 3 / 4 ≤ (1 - ρ) ^ 2 * (1 - u) ^ 13) (hρ1 : ρ < 1)
    (hu : r.temporal.u_y = uy.map .fin) (hd : r.temporal.u_ydark = ud.map .fin)
    (hsy : r.temporal.s2_y = sy.map .fin) (hsd : r.temporal.s2_ydark = sd.map .fin)
    (h1 : uy.length = ud.length) (h2 : sy.length = uy.length) (h3 : sd.length = uy.length)
    (h4 : r.temporal.u_p.length = uy.length) (hf : Floats R r.temporal.u_p) (few : r.temporal.texp.toFinset.card ≤ 2)
    (i : ℤ) (hi : val indexUysat r = .ok i) (ys : ℝ) (hys : AtIndex (diff uy ud) i ys) (hys0 : 0 ≤ ys)
    (gap : ∀ y ∈ diff uy ud, y ≤ (1 - u) ^ 4 * (7 / 10 * ys) ∨ 7 / 10 * ys < (1 - u) ^ 4 * y)
    (j : ℕ) (hj : val indexSensitivityMax r = .ok j)
    (hpos : ∀ p ∈ ((diff uy ud).zip (diff sy sd)).take (j + 1), 0 ≤ p.1 ∧ 0 ≤ p.2)
    (hpos' : ∀ p ∈ (r.temporal.u_p.zip (diff uy ud)).take (j + 1), 0 ≤ p.1 ∧ 0 ≤ p.2)
    (hx : ∃ i ≤ j, ∃ y, (diff uy ud)[i]? = some y ∧ 0 < y) (hx' : ∃ i ≤ j, ∃ y, r.temporal.u_p[i]? = some y ∧ 0 < y)
    (k m p : ℝ) (hk : val (K q) r = .ok (.fin k)) (hk0 : 0 < k) (hm : val (Results.R q) r = .ok (.fin m)) (hm0 : 0 < m)
    (hp : val uPSat r = .ok (.fin p)) (hp0 : 0 < p)
    (htol : τ * ((((diff uy ud).zip (diff sy sd)).take (j + 1)).map fun p => p.2 ^ 2).sum + δ ≤
      ρ ^ 2 * (1 - u) ^ 12 * (k ^ 2 * weight (((diff uy ud).zip (diff sy sd)).take (j + 1))))
    (htol' : τ * (((r.temporal.u_p.zip (diff uy ud)).take (j + 1)).map fun p => p.2 ^ 2).sum + δ ≤
      ρ ^ 2 * (1 - u) ^ 12 * (m ^ 2 * weight ((r.temporal.u_p.zip (diff uy ud)).take (j + 1))))
    (e : ℝ) (he : 1 ≤ ((1 - ρ) ^ 7 * (1 - u) ^ 46) * (1 + e)) :
    RelError e (val (Rounded.gain R q') r) (val (K q) r) ∧
    RelError e (val (Rounded.resp R q') r) (val (Results.R q) r) ∧
    RelError e (val (Rounded.inverseK R q') r) (val (inverseK q) r) ∧
    RelError e (val (Rounded.QE R q') r) (val (QE q) r) ∧
    RelError e (val (Rounded.sigmaYDark R q') r) (val (sigmaYDark q) r) ∧
    RelError e (val (Rounded.sigmaD R q') r) (val (sigmaD q) r) ∧
    RelError e (val (Rounded.uPMin R q') r) (val (uPMin q) r) ∧
    RelError e (val (Rounded.uEMin R q') r) (val (uEMin q) r) ∧
    RelError e (val (Rounded.uESat R q') r) (val (uESat q) r) ∧
    RelError e (val (Rounded.SNRMax R q') r) (val (SNRMax q) r) ∧
    RelError e (val (Rounded.inverseSNRMax R q') r) (val (inverseSNRMax q) r) ∧
    RelError e (val (Rounded.DR R q') r) (val (DR q) r) := by
  have hs : 0 < 1 - u := by linarith
  have hs1 : 1 - u ≤ 1 := by have := R.u_nonneg; linarith
  have hj' : val (Rounded.indexSensitivityMax R) r = .ok j := by
    rw [C95_index R hu1 r uy ud hu hd h1 i hi ys hys hys0 gap, hj]
  obtain ⟨k', ek', ck⟩ := C95_gain R hu1 q' q hq τ δ ρ hq' hτ hδ hρ hρ1.le r uy ud sy sd hu hd hsy hsd h1 h2 h3 j hj hj' hpos hx k hk hk0 htol
  obtain ⟨m', em', cm⟩ := C95_responsivity R hu1 q' q hq τ δ ρ hq' hτ hδ hρ hρ1.le r uy ud hu hd h1 h4 hf j hj hj' hpos' hx' m hm hm0 htol'
  have hc : 0 < 1 - ρ := by linarith
  have hc1 : 1 - ρ ≤ 1 := by linarith
  generalize hsd' : 1 - u = s at *
  generalize 1 - ρ = c at *
  have ht : 0 < c * s ^ 4 := by positivity
  have ht1 : c * s ^ 4 ≤ 1 := mul_le_one₀ hc1 (by positivity) (pow_le_one₀ hs.le hs1)
  -- the dark variance is that of the first point
  have hne : ∃ v t, sd = v :: t := List.exists_cons_of_ne_nil fun h => by
    obtain ⟨i, -, y, hy, -⟩ := hx
    have := List.length_pos_of_mem (List.mem_of_getElem? hy)
    rw [diff_length _ _ h1, ← h3, h] at this
    simp at this
  obtain ⟨v, tl, rfl⟩ := hne
  have hV : ∀ q : LSQ ℝ, val (rawDark q) r = .ok (.fin v) := fun q => by
    unfold rawDark
    rw [val_bind_ok stable_few (by stab) rfl, val_bind_ok stable_temporal (by stab) rfl,
      if_pos (decide_eq_true (by rw [nUnique_eq]; exact few)), val_lift, hsd]
    rfl
  have main := C95_results R hu1 q' q r r (c * s ^ 4) ht ht1 (by rw [hsd']; refine hacc.trans (le_of_eq ?_); ring)
    k' k m' m p p v v ek' hk hk0 ck em' hm hm0 cm hp hp hp0 (Close.refl hp0.le ht1) (hV q') (hV q)
    (Close.refl (le_max_right _ _) ht1)
  rw [hsd'] at main
  have fin : ∀ {a b : ℕ} {x y : Except PyErr (Fl ℝ)}, AgreeUpTo ((c * s ^ 4) ^ a * s ^ b) x y → a ≤ 7 → 4 * a + b ≤ 46 → RelError e x y := by
    intro a b x y h h7 h46
    refine h.relError (by positivity) ?_
    have e0 : (c * s ^ 4) ^ a * s ^ b = c ^ a * s ^ (4 * a + b) := by rw [mul_pow, ← pow_mul, mul_assoc, ← pow_add]
    have e1 : c ^ 7 * s ^ 46 ≤ c ^ a * s ^ (4 * a + b) :=
      mul_le_mul (pow_le_pow_of_le_one hc.le hc1 h7) (pow_le_pow_of_le_one hs.le hs1 h46) (by positivity) (by positivity)
    have e2 : 0 ≤ 1 + e := by
      by_contra hneg
      have : c ^ 7 * s ^ 46 * (1 + e) < 0 := mul_neg_of_pos_of_neg (by positivity) (not_le.1 hneg)
      linarith
    rw [e0]
    exact he.trans (mul_le_mul_of_nonneg_right e1 e2)
  obtain ⟨a1, a2, a3, a4, a5, a6, a7, a8, a9, a10⟩ := main
  refine ⟨fin (a := 1) (b := 0) ⟨_, _, ek', hk, by simpa using ck⟩ (by norm_num) (by norm_num),
    fin (a := 1) (b := 0) ⟨_, _, em', hm, by simpa using cm⟩ (by norm_num) (by norm_num),
    fin (a := 1) (b := 1) (by simpa using a1) (by norm_num) (by norm_num), fin a2 (by norm_num) (by norm_num),
    fin (a := 1) (b := 2) (by simpa using a3) (by norm_num) (by norm_num), fin a4 (by norm_num) (by norm_num),
    fin a5 (by norm_num) (by norm_num), fin a6 (by norm_num) (by norm_num), fin a7 (by norm_num) (by norm_num),
    fin a8 (by norm_num) (by norm_num), fin a9 (by norm_num) (by norm_num), fin a10 (by norm_num) (by norm_num)⟩

end
end Emva
