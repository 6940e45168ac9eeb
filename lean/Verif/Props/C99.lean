import Verif.Lemmas.NearbyIndex
import Verif.Props.C70

/-!
C99: small changes of the recorded data change the results little.
-/
set_option autoImplicit false
namespace Emva
namespace Nearby
open Results Data Spec Filter Topology Asymptotics Fit

variable {r : Res ℝ} {uy ud sy sd : List ℝ}

theorem diff_sig (h : DataOk r uy ud sy sd) : diff uy ud = (List.range uy.length).map (sig r) := by
  have h1 := (shape_self h).signal
  rw [signal_fin r uy ud h.u_y h.u_ydark h.dark.symm] at h1
  exact (List.map_injective_iff.2 Fl.fin_injective) (Except.ok.inj h1)

/-- a position from the start or the end as a position from the start -/
theorem position (h : DataOk r uy ud sy sd) {k : ℤ} {ys : ℝ} (hys : AtIndex (diff uy ud) k ys) :
    ∃ m, m < uy.length ∧ sig r m = ys ∧
      ∀ f : ℕ → ℝ, AtIndex ((List.range uy.length).map f) k (f m) := by
  rw [diff_sig h] at hys
  rcases hys with ⟨h0, e⟩ | ⟨h0, h1, e⟩
  · have hl := (List.getElem?_eq_some_iff.1 e).1
    simp only [List.length_map, List.length_range] at hl
    refine ⟨_, hl, ?_, fun f => .inl ⟨h0, by simp [hl]⟩⟩
    simpa [hl] using e
  · have hl := (List.getElem?_eq_some_iff.1 e).1
    simp only [List.length_map, List.length_range] at hl h1 e
    refine ⟨_, hl, ?_, fun f => .inr ⟨h0, by simpa using h1, by simp [hl]⟩⟩
    simpa [hl] using e

theorem argwhere_agree {α : Type} (p q : α → Bool) (a : List α) (h : ∀ x ∈ a, p x = q x) : Np.argwhere p a = Np.argwhere q a := by
  unfold Np.argwhere
  refine List.filter_congr fun i hi => ?_
  have hi' : i < a.length := by simpa using hi
  simp only [List.getElem?_eq_getElem hi', Option.map_some, h _ (List.getElem_mem hi')]

theorem eventually_range {n : ℕ} {P : ℕ → ℝ × Res ℝ → Prop} (h : ∀ i < n, ∀ᶠ p in vic r, P i p) :
    ∀ᶠ p in vic r, ∀ i < n, P i p := by
  induction n with
  | zero => simp
  | succ n ih =>
    filter_upwards [h n (by omega), ih fun i hi => h i (by omega)] with p h1 h2 i hi
    rcases Nat.lt_succ_iff_lt_or_eq.1 hi with hi | rfl
    · exact h2 i hi
    · exact h1

theorem off_sig (h : DataOk r uy ud sy sd) {c ys : ℝ} (ho : Off uy ud c ys) (i : ℕ) (hi : i < uy.length) : sig r i ≠ c * ys := by
  refine ho _ ?_
  rw [diff_sig h]
  exact List.mem_map.2 ⟨i, by simpa using hi, rfl⟩

theorem lastBelow_near (h : DataOk r uy ud sy sd) (hd : Distinct r sy) {k : ℤ} {ys c : ℝ} (hk : val indexUysat r = .ok k)
    (hys : AtIndex (diff uy ud) k ys) (ho : Off uy ud c ys) :
    ∀ᶠ p in vic r, val (lastBelow c) p.2 = val (lastBelow c) r := by
  obtain ⟨m, hm, hsm, hat⟩ := position h hys
  have hag : ∀ᶠ p in vic r, ∀ i < uy.length, (sig p.2 i ≤ c * sig p.2 m ↔ sig r i ≤ c * sig r m) :=
    eventually_range fun i hi => Ty.le_agree (ty_sig i) ((Ty.const c).mul (ty_sig m)) (hsm ▸ off_sig h ho i hi)
  filter_upwards [usat_near h hd, shape_near h, hag] with p hp hs ha
  rw [val_lastBelow, val_lastBelow, hs.signal, (shape_self h).signal, hp, hk]
  simp only [except_bind_ok, idx_fin (hat _), Np.argwhere_map, Fl.fin_mul, Fl.le_fin]
  rw [argwhere_agree _ _ _ fun i hi => decide_eq_decide.2 (ha i (by simpa using hi))]

theorem linMin_near (h : DataOk r uy ud sy sd) (hd : Distinct r sy) {k : ℤ} {ys : ℝ} (hk : val indexUysat r = .ok k)
    (hys : AtIndex (diff uy ud) k ys) (ho : Off uy ud (5 / 100) ys) :
    ∀ᶠ p in vic r, val indexLinearityMin p.2 = val indexLinearityMin r := by
  obtain ⟨m, hm, hsm, hat⟩ := position h hys
  have hag : ∀ᶠ p in vic r, ∀ i < uy.length, (5 / 100 * sig p.2 m ≤ sig p.2 i ↔ 5 / 100 * sig r m ≤ sig r i) :=
    eventually_range fun i hi => Ty.le_agree ((Ty.const _).mul (ty_sig m)) (ty_sig i) (hsm ▸ (off_sig h ho i hi).symm)
  filter_upwards [usat_near h hd, shape_near h, hag] with p hp hs ha
  rw [val_linMin, val_linMin, hs.signal, (shape_self h).signal, hp, hk]
  simp only [except_bind_ok, idx_fin (hat _), Np.argwhere_map, Fl.fin_mul, Fl.le_fin]
  rw [argwhere_agree _ _ _ fun i hi => decide_eq_decide.2 (ha i (by simpa using hi))]

/-! ### the two slopes -/

theorem slope_range (n : ℕ) (f g : ℕ → ℝ) : Sxy ((List.range n).map fun i => (f i, g i)) = ((List.range n).map fun i => f i * g i).sum ∧
    Sxx ((List.range n).map fun i => (f i, g i)) = ((List.range n).map fun i => f i * f i).sum := by
  simp [Sxy, Sxx, S, Function.comp_def]

theorem ty_slope {j : ℕ} {f g : Res ℝ → ℕ → ℝ} (hf : ∀ i, Ty r (fun p => f p.2 i) (f r i)) (hg : ∀ i, Ty r (fun p => g p.2 i) (g r i))
    (h0 : ∃ i ≤ j, f r i ≠ 0) :
    Ty r (fun p => Sxy ((List.range (j + 1)).map fun i => (f p.2 i, g p.2 i)) / Sxx ((List.range (j + 1)).map fun i => (f p.2 i, g p.2 i)))
      (Sxy ((List.range (j + 1)).map fun i => (f r i, g r i)) / Sxx ((List.range (j + 1)).map fun i => (f r i, g r i))) := by
  have hpos : Sxx ((List.range (j + 1)).map fun i => (f r i, g r i)) ≠ 0 := by
    obtain ⟨i, hi, h⟩ := h0
    exact (Sxx_pos ⟨(f r i, g r i), List.mem_map.2 ⟨i, by simp; omega, rfl⟩, h⟩).ne'
  refine Ty.div ?_ ?_ hpos
  · simp only [(slope_range _ _ _).1]
    exact Ty.listSum _ fun i _ => (hf i).mul (hg i)
  · simp only [(slope_range _ _ _).2]
    exact Ty.listSum _ fun i _ => (hf i).mul (hf i)

theorem K_near (q : LSQ ℝ) (hq : q.Good) (h : DataOk r uy ud sy sd) {j : ℕ} (hj : val indexSensitivityMax r = .ok j)
    (hjl : j < uy.length) (hjn : ∀ᶠ p in vic r, val indexSensitivityMax p.2 = val indexSensitivityMax r)
    (h0 : ∃ i ≤ j, ∃ y, (diff uy ud)[i]? = some y ∧ y ≠ 0) : ∃ k, LipM r (val (K q)) k := by
  obtain ⟨i, hi, y, hy, hy0⟩ := h0
  have hsi : sig r i ≠ 0 := by
    rw [diff_sig h] at hy
    obtain ⟨hl, e⟩ := List.getElem?_eq_some_iff.1 hy
    simp at e
    rwa [e]
  refine ⟨_, _, ?_, ty_slope (f := sig) (g := vari) ty_sig ty_vari ⟨i, hi, hsi⟩⟩
  filter_upwards [hjn, shape_near h, (ty_sig i).tendsto.eventually_ne hsi] with p hp hs hne
  rw [hj] at hp
  obtain ⟨m, e, hb⟩ := C66_gain q hq p.2 _ _ _ _ hs.u_y hs.u_ydark hs.s2_y hs.s2_ydark (by simp) (by simp) (by simp) j hp
    ⟨i, hi, sig p.2 i, by rw [diff_range]; simp [show i < uy.length by omega, sig], hne⟩
  rw [diff_range, diff_range, zip_range hjl] at hb
  rw [e, bestSlope_eq hb ⟨(sig p.2 i, vari p.2 i), List.mem_map.2 ⟨i, by simp; omega, rfl⟩, hne⟩]
  rfl

theorem R_near (q : LSQ ℝ) (hq : q.Good) (h : DataOk r uy ud sy sd) {j : ℕ} (hj : val indexSensitivityMax r = .ok j)
    (hjl : j < uy.length) (hjn : ∀ᶠ p in vic r, val indexSensitivityMax p.2 = val indexSensitivityMax r)
    (h0 : ∃ i ≤ j, ∃ y, r.temporal.u_p[i]? = some y ∧ y ≠ 0) : ∃ k, LipM r (val (R q)) k := by
  obtain ⟨i, hi, y, hy, hy0⟩ := h0
  have hsi : pho r i ≠ 0 := by
    rw [pho, List.getD_eq_getElem?_getD, hy]; exact hy0
  refine ⟨_, _, ?_, ty_slope (f := pho) (g := sig) ty_pho ty_sig ⟨i, hi, hsi⟩⟩
  filter_upwards [hjn, shape_near h, (ty_pho i).tendsto.eventually_ne hsi] with p hp hs hne
  rw [hj] at hp
  obtain ⟨m, e, hb⟩ := C66_responsivity q hq p.2 _ _ hs.u_y hs.u_ydark (by simp) (by rw [hs.u_p]; simp) j hp
    ⟨i, hi, pho p.2 i, by rw [hs.u_p]; simp [show i < uy.length by omega], hne⟩
  rw [diff_range, hs.u_p, zip_range hjl] at hb
  rw [e, bestSlope_eq hb ⟨(pho p.2 i, sig p.2 i), List.mem_map.2 ⟨i, by simp; omega, rfl⟩, hne⟩]
  rfl

/-! ### the line through the dark values -/

theorem zip_range_full (n : ℕ) (f g : ℕ → ℝ) :
    ((List.range n).map f).zip ((List.range n).map g) = (List.range n).map fun i => (f i, g i) := by
  refine List.ext_getElem (by simp) fun i h1 h2 => ?_
  simp

theorem line_near (q : LSQ ℝ) (hq : q.Good) (X : List ℝ) (hX : ∃ x ∈ X, ∃ x' ∈ X, x ≠ x') {g : Res ℝ → ℕ → ℝ}
    (hg : ∀ i, Ty r (fun p => g p.2 i) (g r i)) : ∃ (m b : ℝ) (ym yb : ℝ × Res ℝ → ℝ), Ty r ym m ∧ Ty r yb b ∧
      ∀ p : ℝ × Res ℝ, linearB q (X.map .fin) (((List.range X.length).map (g p.2)).map .fin) = .ok (.fin (ym p), .fin (yb p)) := by
  set t : ℕ → ℝ := fun i => X.getD i 0 with ht
  set n := X.length with hn
  have hXt : X = (List.range n).map t := getD_list X rfl
  let pts : Res ℝ → List (ℝ × ℝ) := fun r' => (List.range n).map fun i => (t i, g r' i)
  have hlen : ∀ r', ((pts r').length : ℝ) = n := fun r' => by simp [pts]
  have hsx : ∀ r', Sx (pts r') = ((List.range n).map t).sum := fun r' => by simp [pts, Sx, S, Function.comp_def]
  have hsy : ∀ r', Sy (pts r') = ((List.range n).map (g r')).sum := fun r' => by simp [pts, Sy, S, Function.comp_def]
  have hsxx : ∀ r', Sxx (pts r') = ((List.range n).map fun i => t i * t i).sum := fun r' => (slope_range n t (g r')).2
  have hsxy : ∀ r', Sxy (pts r') = ((List.range n).map fun i => t i * g r' i).sum := fun r' => (slope_range n t (g r')).1
  have hne : ∀ r', ∃ p ∈ pts r', ∃ p' ∈ pts r', p.1 ≠ p'.1 := by
    intro r'
    obtain ⟨x, hx, x', hx', hxx⟩ := hX
    rw [hXt] at hx hx'
    obtain ⟨i, hi, rfl⟩ := List.mem_map.1 hx
    obtain ⟨i', hi', rfl⟩ := List.mem_map.1 hx'
    exact ⟨_, List.mem_map.2 ⟨i, hi, rfl⟩, _, List.mem_map.2 ⟨i', hi', rfl⟩, hxx⟩
  have hD : ∀ r', (n : ℝ) * Sxx (pts r') - Sx (pts r') * Sx (pts r') ≠ 0 := fun r' => by
    rw [← hlen r']; exact (disc_pos (hne r')).ne'
  have ty1 : Ty r (fun p => Sy (pts p.2)) (Sy (pts r)) := by
    simp only [hsy]; exact Ty.listSum _ fun i _ => hg i
  have ty2 : Ty r (fun p => Sxy (pts p.2)) (Sxy (pts r)) := by
    simp only [hsxy]; exact Ty.listSum _ fun i _ => (Ty.const _).mul (hg i)
  have ty3 : Ty r (fun p => Sx (pts p.2)) (Sx (pts r)) := by
    simp only [hsx]; exact Ty.const _
  have ty4 : Ty r (fun p => Sxx (pts p.2)) (Sxx (pts r)) := by
    simp only [hsxx]; exact Ty.const _
  have tyD := ((Ty.const (r := r) (n : ℝ)).mul ty4).sub (ty3.mul ty3)
  refine ⟨_, _, _, _, (((Ty.const (r := r) (n : ℝ)).mul ty2).sub (ty3.mul ty1)).div tyD (hD r),
    ((ty4.mul ty1).sub (ty3.mul ty2)).div tyD (hD r), fun p => ?_⟩
  obtain ⟨m, b, e, hb⟩ := C28_best_line q hq X ((List.range n).map (g p.2)) (by simp [hn]) hX
  rw [e]
  have hz : X.zip ((List.range n).map (g p.2)) = pts p.2 := by
    conv_lhs => rw [hXt]
    exact zip_range_full n t (g p.2)
  rw [hz] at hb
  have hd := hD p.2
  have hb' := bestLine_of_normal (hne p.2)
    (m := ((n : ℝ) * Sxy (pts p.2) - Sx (pts p.2) * Sy (pts p.2)) / ((n : ℝ) * Sxx (pts p.2) - Sx (pts p.2) * Sx (pts p.2)))
    (b := (Sxx (pts p.2) * Sy (pts p.2) - Sx (pts p.2) * Sxy (pts p.2)) / ((n : ℝ) * Sxx (pts p.2) - Sx (pts p.2) * Sx (pts p.2)))
    (by rw [div_mul_eq_mul_div, div_mul_eq_mul_div, ← add_div, div_eq_iff hd]; ring)
    (by rw [hlen, div_mul_eq_mul_div, div_mul_eq_mul_div, ← add_div, div_eq_iff hd]; ring)
  have hu := bestLine_unique hb' fun k c => by
    by_cases hk : (k, c) = (m, b)
    · cases hk; exact le_rfl
    · exact (hb k c hk).le
  rw [hu.1, hu.2]

/-! ### the derived figures -/

theorem sigma_near (q : LSQ ℝ) (hq : q.Good) (h : DataOk r uy ud sy sd) (hn : 0 < uy.length) :
    ∃ v, LipM r (val (sigmaYDark q)) (Real.sqrt (max v (24 / 100))) := by
  have hpos : ∀ v : ℝ, 0 < max v (24 / 100) := fun v => lt_of_lt_of_le (by norm_num) (le_max_right _ _)
  have key : ∀ (r' : Res ℝ) (v : ℝ), val (rawDark q) r' = .ok (.fin v) →
      val (sigmaYDark q) r' = .ok (.fin (Real.sqrt (max v (24 / 100)))) := by
    intro r' v hv
    have h2 : val (s2YDark q) r' = .ok (.fin (max v (24 / 100))) := by
      unfold s2YDark
      rw [val_bind_ok (stable_rawDark q) (by stab) hv, val_pure]
      by_cases h : v < 24 / 100
      · rw [if_pos (by simpa using h), max_eq_right h.le]
      · rw [if_neg (by simpa using h), max_eq_left (not_lt.1 h)]
    unfold sigmaYDark
    rw [val_bind_ok (stable_s2YDark q) (by stab) h2, val_pure, Fl.sqrt_fin (hpos v).le]
  suffices hraw : ∃ v, LipM r (val (rawDark q)) v by
    obtain ⟨v, y, e, ht⟩ := hraw
    exact ⟨v, _, e.mono fun p hp => key _ _ hp, (ht.max_const _).sqrt (hpos v).ne'⟩
  by_cases hfew : Np.nUnique r.temporal.texp ≤ 2
  · refine ⟨_, _, ?_, ty_sd 0⟩
    filter_upwards [vic_near, shape_near h] with p hp hs
    unfold rawDark
    rw [val_bind_ok stable_few (by stab) rfl, val_bind_ok stable_temporal (by stab) rfl,
      if_pos (decide_eq_true (by rw [hp.2.texp]; exact hfew)), val_lift, hs.s2_ydark]
    have := idx_range uy.length (entry p.2.temporal.s2_ydark) 0
    rw [if_pos hn] at this
    rw [← hs.s2_ydark] at this ⊢
    exact this
  · have h2 : 2 < r.temporal.texp.toFinset.card := by rw [← nUnique_eq]; omega
    obtain ⟨m, b, ym, yb, -, tb, e⟩ := line_near (r := r) q hq r.temporal.texp (two_distinct h2)
      (g := fun r' => entry r'.temporal.s2_ydark) ty_sd
    refine ⟨b, yb, ?_, tb⟩
    filter_upwards [vic_near, shape_near h] with p hp hs
    have e' := e p
    rw [h.texp, ← hs.s2_ydark] at e'
    unfold rawDark
    rw [val_bind_ok stable_few (by stab) rfl, val_bind_ok stable_temporal (by stab) rfl,
      if_neg (by simp only [hp.2.texp]; simpa using hfew), hp.2.texp, e']
    rfl

theorem psat_near (h : DataOk r uy ud sy sd) (hd : Distinct r sy) {k : ℤ} {ys : ℝ} (hk : val indexUysat r = .ok k)
    (hys : AtIndex (diff uy ud) k ys) : ∃ m, LipM r (val uPSat) (pho r m) := by
  obtain ⟨m, -, -, hat⟩ := position h hys
  refine ⟨m, _, ?_, ty_pho m⟩
  filter_upwards [usat_near h hd, shape_near h] with p hp hs
  rw [hk] at hp
  unfold uPSat
  rw [val_bind_ok stable_temporal (by stab) rfl, val_bind_ok Stable.indexUysat (by stab) hp]
  have hi : Np.idx p.2.temporal.u_p k = .ok (pho p.2 m) := by
    rw [hs.u_p]; exact (Np.idx_ok_iff _ _ _).2 (hat _)
  rw [hi]
  rfl

/-- a number near `x`, for attributes that may return `None` or `np.nan` -/
def LipN (r : Res ℝ) (f : Res ℝ → Except PyErr (PyNum ℝ)) (x : ℝ) : Prop :=
  ∃ y, (∀ᶠ p in vic r, f p.2 = .ok (.num (.fin (y p)))) ∧ Ty r y x

theorem LipN.steady {f : Res ℝ → Except PyErr (PyNum ℝ)} {x : ℝ} (hr : Spec.Nearby 0 r r) (h : LipN r f x) :
    SteadyNum f r := by
  obtain ⟨y, h1, h2⟩ := h
  obtain ⟨C, hC⟩ := IsBigO.bound h2
  obtain ⟨δ₀, h0, H⟩ := vic_elim (h1.and hC)
  have hx : f r = .ok (.num (.fin x)) := by
    obtain ⟨a, b⟩ := H 0 r le_rfl h0.le hr
    have : y (0, r) - x = 0 := by simpa using b
    rw [a, sub_eq_zero.1 this]
  refine ⟨x, C, δ₀, h0, hx, fun δ r' hd hd' hn => ?_⟩
  obtain ⟨a, b⟩ := H δ r' hd hd' hn
  refine ⟨_, a, ?_⟩
  simpa [Real.norm_eq_abs, abs_of_nonneg hd] using b

end Nearby
open Nearby Results Data Spec Filter Topology

/-- C99: the indices found on the curves do not change under small enough changes of the data, provided no two variances are
equal and none is zero (or the saturation index is given), and no signal lies exactly on one of the limits. -/
theorem C99_indices_partial (r : Res ℝ) (uy ud sy sd : List ℝ) (h : DataOk r uy ud sy sd) (hfin : Spec.Nearby 0 r r)
    (hd : Distinct r sy) (k : ℤ) (ys : ℝ) (hk : val indexUysat r = .ok k) (hys : AtIndex (diff uy ud) k ys) :
    Fixed (val indexUysat) r ∧
    (∀ j, Off uy ud (7 / 10) ys → val indexSensitivityMax r = .ok j → Fixed (val indexSensitivityMax) r) ∧
    (∀ j, Off uy ud (95 / 100) ys → val indexLinearityMax r = .ok j → Fixed (val indexLinearityMax) r) ∧
    (∀ j, Off uy ud (5 / 100) ys → val indexLinearityMin r = .ok j → Fixed (val indexLinearityMin) r) := by
  refine ⟨fixed_of hfin ((usat_near h hd).mono fun p e => e.trans hk),
    fun j ho hj => fixed_of hfin ((lastBelow_near h hd hk hys ho).mono fun p e => e.trans hj),
    fun j ho hj => fixed_of hfin ((lastBelow_near h hd hk hys ho).mono fun p e => e.trans hj),
    fun j ho hj => fixed_of hfin ((linMin_near h hd hk hys ho).mono fun p e => e.trans hj)⟩

/-- A measurement whose results can be expected to be steady: finite data, different variances, no signal on the limit `0.7 ys` of
the sensitivity range, which ends at point `j` and holds a signal and an irradiation that are not zero. -/
structure Spec.Regular (r : Res ℝ) (uy ud sy sd : List ℝ) (ys : ℝ) (j : ℕ) : Prop where
  data : DataOk r uy ud sy sd
  finite : Spec.Nearby 0 r r
  distinct : Distinct r sy
  sat : ∃ k, val indexUysat r = .ok k ∧ AtIndex (diff uy ud) k ys
  off : Off uy ud (7 / 10) ys
  sens : val indexSensitivityMax r = .ok j
  signal : ∃ i ≤ j, ∃ y, (diff uy ud)[i]? = some y ∧ y ≠ 0
  photons : ∃ i ≤ j, ∃ y, r.temporal.u_p[i]? = some y ∧ y ≠ 0

/-- the gain of a regular measurement -/
theorem Spec.Regular.gain {q : LSQ ℝ} (hq : q.Good) {r : Res ℝ} {uy ud sy sd : List ℝ} {ys : ℝ} {j : ℕ}
    (h : Regular r uy ud sy sd ys j) {g : ℝ} (hK : val (K q) r = .ok (.fin g)) : LipM r (val (K q)) g := by
  obtain ⟨h, hfin, hd, ⟨k, hk, hys⟩, ho, hj, hy0, -⟩ := h
  have hjl : j < uy.length := by
    have := (Plots.lastBelow_lt (by rw [h.u_y, h.u_ydark]; simp [h.dark]) hj).1
    rwa [h.u_y, List.length_map] at this
  obtain ⟨g', LK⟩ := K_near q hq h hj hjl (lastBelow_near h hd hk hys ho) hy0
  have eg : g' = g := by have := (LK.value hfin).symm.trans hK; simpa using this
  rwa [eg] at LK

/-- C99: under the same conditions, and for positive gain, responsivity and saturation irradiation, the temporal results move
at most in proportion to the changes of the data. -/
theorem C99_steady_partial (q : LSQ ℝ) (hq : q.Good) (r : Res ℝ) (uy ud sy sd : List ℝ) (ys : ℝ) (j : ℕ)
    (hr : Regular r uy ud sy sd ys j)
    (g m ps : ℝ) (hg : 0 < g) (hm : 0 < m) (hps : 0 < ps) (hK : val (K q) r = .ok (.fin g))
    (hR : val (R q) r = .ok (.fin m)) (hP : val uPSat r = .ok (.fin ps)) :
    Steady (val (K q)) r ∧ Steady (val (R q)) r ∧ Steady (val (inverseK q)) r ∧ Steady (val (QE q)) r ∧
    Steady (val (sigmaYDark q)) r ∧ Steady (val (sigmaD q)) r ∧ Steady (val (uPMin q)) r ∧ Steady (val (uEMin q)) r ∧
    Steady (val uPSat) r ∧ Steady (val (uESat q)) r ∧ Steady (val (SNRMax q)) r ∧ Steady (val (SNRMaxDB q)) r ∧
    Steady (val (SNRMaxBit q)) r ∧ Steady (val (inverseSNRMax q)) r ∧ Steady (val (DR q)) r ∧ Steady (val (DRDB q)) r := by
  obtain ⟨h, hfin, hd, ⟨k, hk, hys⟩, ho, hj, hy0, hp0⟩ := hr
  have hjl : j < uy.length := by
    have := (Plots.lastBelow_lt (by rw [h.u_y, h.u_ydark]; simp [h.dark]) hj).1
    rwa [h.u_y, List.length_map] at this
  have hjn := lastBelow_near h hd hk hys ho
  obtain ⟨g', LK⟩ := K_near q hq h hj hjl hjn hy0
  obtain ⟨m', LR⟩ := R_near q hq h hj hjl hjn hp0
  obtain ⟨i, LP⟩ := psat_near h hd hk hys
  obtain ⟨v, LS⟩ := sigma_near q hq h (by omega)
  have eg : g' = g := by have := (LK.value hfin).symm.trans hK; simpa using this
  have em : m' = m := by have := (LR.value hfin).symm.trans hR; simpa using this
  have ep : pho r i = ps := by have := (LP.value hfin).symm.trans hP; simpa using this
  subst eg em
  rw [ep] at LP
  have s0 : ∀ v : ℝ, 0 < max v (24 / 100) := fun v => lt_of_lt_of_le (by norm_num) (le_max_right _ _)
  have hσ : 0 < Real.sqrt (max v (24 / 100)) := Real.sqrt_pos.2 (s0 v)
  have hσ2 : 0 < Real.sqrt (max v (24 / 100)) * Real.sqrt (max v (24 / 100)) - 1 / 12 := by
    rw [Real.mul_self_sqrt (s0 v).le]
    have := le_max_right v (24 / 100); linarith
  generalize Real.sqrt (max v (24 / 100)) = σ at LS hσ hσ2
  have LK' := LK; have LR' := LR; have LP' := LP; have LS' := LS
  obtain ⟨yk, ek, tk⟩ := LK
  obtain ⟨ym, em, tm⟩ := LR
  obtain ⟨yp, ep', tp⟩ := LP
  obtain ⟨yσ, eσ, tσ⟩ := LS
  have ev : ∀ᶠ p in vic r, (val (K q) p.2 = .ok (.fin (yk p)) ∧ val (R q) p.2 = .ok (.fin (ym p)) ∧
      val uPSat p.2 = .ok (.fin (yp p)) ∧ val (sigmaYDark q) p.2 = .ok (.fin (yσ p))) ∧ 0 < yk p ∧ 0 < ym p ∧ 0 < yp p ∧
      0 < yσ p ∧ 0 < yσ p * yσ p - 1 / 12 := by
    filter_upwards [ek, em, ep', eσ, tk.tendsto.eventually_const_lt hg, tm.tendsto.eventually_const_lt hm,
      tp.tendsto.eventually_const_lt hps, tσ.tendsto.eventually_const_lt hσ,
      ((tσ.mul tσ).sub (Ty.const (1 / 12))).tendsto.eventually_const_lt hσ2] with p a b c d e f g h i
    exact ⟨⟨a, b, c, d⟩, e, f, g, h, i⟩
  have tqe : Ty r (fun p => 100 * ym p / yk p) (100 * m' / g') := ((Ty.const 100).mul tm).div tk hg.ne'
  have hqe : 0 < 100 * m' / g' := by positivity
  have tem : Ty r (fun p => yσ p / yk p + 1 / 2) (σ / g' + 1 / 2) := (tσ.div tk hg.ne').add (Ty.const _)
  have hem : 0 < σ / g' + 1 / 2 := by positivity
  have tes : Ty r (fun p => 100 * ym p / yk p / 100 * yp p) (100 * m' / g' / 100 * ps) :=
    (tqe.div (Ty.const 100) (by norm_num)).mul tp
  have hes : 0 < 100 * m' / g' / 100 * ps := by positivity
  have tdr := tes.div tem hem.ne'
  have hdr : 0 < 100 * m' / g' / 100 * ps / (σ / g' + 1 / 2) := by positivity
  have tpm := tem.div (tqe.div (Ty.const 100) (by norm_num)) (by positivity)
  have tsn := tes.sqrt hes.ne'
  have hsn := Real.sqrt_pos.2 hes
  have cons : ∀ᶠ p in vic r, val (QE q) p.2 = .ok (.fin (100 * ym p / yk p)) ∧
      val (uPMin q) p.2 = .ok (.fin ((yσ p / yk p + 1 / 2) / (100 * ym p / yk p / 100))) ∧
      val (uEMin q) p.2 = .ok (.fin (yσ p / yk p + 1 / 2)) ∧
      val (uESat q) p.2 = .ok (.fin (100 * ym p / yk p / 100 * yp p)) ∧
      val (DR q) p.2 = .ok (.fin (100 * ym p / yk p / 100 * yp p / (yσ p / yk p + 1 / 2))) ∧
      val (SNRMax q) p.2 = .ok (.fin (Real.sqrt (100 * ym p / yk p / 100 * yp p))) ∧
      val (inverseK q) p.2 = .ok (.fin (1 / yk p)) ∧
      val (inverseSNRMax q) p.2 = .ok (.fin (100 / Real.sqrt (100 * ym p / yk p / 100 * yp p))) ∧
      val (SNRMaxDB q) p.2 = .ok (.fin (10 * Real.logb 10 (100 * ym p / yk p / 100 * yp p))) ∧
      val (SNRMaxBit q) p.2 = .ok (.fin (Real.logb 2 (100 * ym p / yk p / 100 * yp p) / 2)) ∧
      val (DRDB q) p.2 = .ok (.fin (20 * Real.logb 10 (100 * ym p / yk p / 100 * yp p / (yσ p / yk p + 1 / 2)))) ∧
      val (sigmaD q) p.2 = .ok (.fin (Real.sqrt (yσ p * yσ p - 1 / 12) / yk p)) := by
    filter_upwards [ev] with p ⟨⟨a, b, c, d⟩, pk, pm, pp, pσ, pσ2⟩
    obtain ⟨qe, pm', em', es, dr, snr, h1, h2, h3, h4, h5, h6, e1, e2, e3, e4, e5, e6, -, e7, e8, e9, h7, h8⟩ :=
      C30_consistency q p.2 _ _ _ _ pk pm pσ.le pp.le a b d c
    obtain ⟨h12, h9, h10, h11⟩ := h8 pp
    have hsnr : snr = Real.sqrt es := by rw [← e9, Real.sqrt_sq e8]
    have hqe0 : qe / 100 ≠ 0 := by positivity
    have hpm' : pm' = em' / (qe / 100) := by rw [e5]; field_simp
    subst hsnr hpm' e7 e6 e4 e1
    refine ⟨h1, h2, h3, h4, h5, h6, h7, h12, h9, h10, h11, ?_⟩
    unfold sigmaD
    rw [val_bind_ok (stable_sigmaYDark q) (by have := stable_K q; stab) d, val_bind_ok (stable_K q) (by stab) a, val_pure,
      Fl.sq_fin, Fl.fin_sub, Fl.sqrt_fin pσ2.le, Fl.fin_div pk.ne']
  refine ⟨LK'.steady hfin, LR'.steady hfin,
    LipM.steady hfin ⟨_, cons.mono fun p c => c.2.2.2.2.2.2.1, (Ty.const 1).div tk hg.ne'⟩,
    LipM.steady hfin ⟨_, cons.mono fun p c => c.1, tqe⟩,
    LS'.steady hfin,
    LipM.steady hfin ⟨_, cons.mono fun p c => c.2.2.2.2.2.2.2.2.2.2.2,
      (((tσ.mul tσ).sub (Ty.const (1 / 12))).sqrt hσ2.ne').div tk hg.ne'⟩,
    LipM.steady hfin ⟨_, cons.mono fun p c => c.2.1, tpm⟩,
    LipM.steady hfin ⟨_, cons.mono fun p c => c.2.2.1, tem⟩,
    LP'.steady hfin,
    LipM.steady hfin ⟨_, cons.mono fun p c => c.2.2.2.1, tes⟩,
    LipM.steady hfin ⟨_, cons.mono fun p c => c.2.2.2.2.2.1, tsn⟩,
    LipM.steady hfin ⟨_, cons.mono fun p c => c.2.2.2.2.2.2.2.2.1, (Ty.const 10).mul (tes.logb 10 hes.ne')⟩,
    LipM.steady hfin ⟨_, cons.mono fun p c => c.2.2.2.2.2.2.2.2.2.1, (tes.logb 2 hes.ne').div (Ty.const 2) (by norm_num)⟩,
    LipM.steady hfin ⟨_, cons.mono fun p c => c.2.2.2.2.2.2.2.1, (Ty.const 100).div tsn hsn.ne'⟩,
    LipM.steady hfin ⟨_, cons.mono fun p c => c.2.2.2.2.1, tdr⟩,
    LipM.steady hfin ⟨_, cons.mono fun p c => c.2.2.2.2.2.2.2.2.2.2.1, (Ty.const 20).mul (tdr.logb 10 hdr.ne')⟩⟩

end Emva
