import Verif.Props.C99
import Verif.Props.C59Example

/-!
C99: measurements meeting the hypotheses, and measurements for which the results jump.
-/
set_option autoImplicit false
namespace Emva
open Results Data Spec Nearby

theorem nearbySide_self (δ : ℝ) (h0 : 0 ≤ δ) (s : SpatialData ℝ) (a b c d e : ℝ) (h1 : s.var_mean = .fin a)
    (h2 : s.avg_var = .fin b) (h3 : s.avg_mean = .fin c) (h4 : s.avg_var_cav = .fin d) (h5 : s.avg_var_rav = .fin e) :
    NearbySide δ s s :=
  ⟨⟨rfl, rfl, rfl⟩, ⟨a, a, h1, h1, by simpa using h0⟩, ⟨b, b, h2, h2, by simpa using h0⟩, ⟨c, c, h3, h3, by simpa using h0⟩,
    ⟨d, d, h4, h4, by simpa using h0⟩, ⟨e, e, h5, h5, by simpa using h0⟩⟩

theorem forall_self (δ : ℝ) (h0 : 0 ≤ δ) (l : List ℝ) : List.Forall₂ (Within δ) (l.map .fin) (l.map .fin) := by
  induction l with
  | nil => exact .nil
  | cons a l ih => exact .cons ⟨a, a, rfl, rfl, by simpa using h0⟩ ih

theorem forall_self' (δ : ℝ) (h0 : 0 ≤ δ) (l : List ℝ) : List.Forall₂ (fun a b => |b - a| ≤ δ) l l := by
  induction l with
  | nil => exact .nil
  | cons a l ih => exact .cons (by simpa using h0) ih

theorem forall_map {δ : ℝ} {l l' : List ℝ} (h : List.Forall₂ (fun a b => |b - a| ≤ δ) l l') :
    List.Forall₂ (Within δ) (l.map .fin) (l'.map .fin) := by
  induction h with
  | nil => exact .nil
  | cons hab _ ih => exact .cons ⟨_, _, rfl, rfl, hab⟩ ih

theorem sat_take {l : List (Fl ℝ)} (i : ℕ) {a m : ℝ} {k : ℕ} (h : Np.idx l i = .ok (.fin a)) (c : m ≤ a) :
    satLoop l (i + 1) (.fin m) k = satLoop l i (.fin a) i := by
  simp [satLoop, h, c]

theorem sat_stop {l : List (Fl ℝ)} (i : ℕ) {a b m : ℝ} {k : ℕ} (h : Np.idx l i = .ok (.fin a))
    (h' : Np.idx l ((i : ℤ) - 1).natAbs = .ok (.fin b)) (c : a < m) (c' : b < m) : satLoop l (i + 1) (.fin m) k = .ok k := by
  unfold satLoop
  simp only [h, h', Fl.le_fin, Fl.lt_fin, decide_eq_true_eq, not_le.2 c, not_le.2 c', if_false, c, c', decide_true,
    Bool.and_self, if_true]

theorem sampleReal_consistent : DataOk sampleReal [10, 15, 20, 25, 27] [10, 10, 10, 10, 10]
    [1, 1 + 1 / 2, 2, 2 + 1 / 2, 1] [1, 1, 1, 1, 1] where
  u_y := rfl
  u_ydark := rfl
  s2_y := rfl
  s2_ydark := rfl
  dark := rfl
  var := rfl
  vard := rfl
  photons := rfl
  texp := rfl
  shape := ⟨rfl, rfl⟩
  size := by rintro s (rfl | rfl) <;> exact ⟨rfl, rfl, Nat.succ_pos 3⟩

/-- a measurement is at no distance from itself if its numbers are finite -/
theorem sampleReal_near (δ : ℝ) (h0 : 0 ≤ δ) : Spec.Nearby δ sampleReal sampleReal where
  texp := rfl
  area := rfl
  index := rfl
  u_p := forall_self' δ h0 _
  u_y := forall_self δ h0 _
  u_ydark := forall_self δ h0 _
  s2_y := forall_self δ h0 _
  s2_ydark := forall_self δ h0 _
  dark := nearbySide_self δ h0 _ _ _ _ _ _ rfl rfl rfl rfl rfl
  bright := nearbySide_self δ h0 _ _ _ _ _ _ rfl rfl rfl rfl rfl

theorem sampleReal_off : Off [10, 15, 20, 25, 27] [10, 10, 10, 10, 10] (7 / 10) 15 := by
  unfold Off
  rw [sampleReal_diff]
  intro y hy
  simp only [List.mem_cons, List.not_mem_nil, or_false] at hy
  rcases hy with rfl | rfl | rfl | rfl | rfl <;> norm_num

theorem sampleReal_regular : Regular sampleReal [10, 15, 20, 25, 27] [10, 10, 10, 10, 10]
    [1, 1 + 1 / 2, 2, 2 + 1 / 2, 1] [1, 1, 1, 1, 1] 15 2 where
  data := sampleReal_consistent
  finite := sampleReal_near 0 le_rfl
  distinct := .inl ⟨3, rfl, by norm_num⟩
  sat := ⟨3, sampleReal_sat, sampleReal_at⟩
  off := sampleReal_off
  sens := sampleReal_sens
  signal := ⟨1, by norm_num, 5, by rw [sampleReal_diff]; rfl, by norm_num⟩
  photons := ⟨1, by norm_num, 100, rfl, by norm_num⟩

/-- the hypotheses of `C99_steady_partial` hold for this measurement -/
example (q : LSQ ℝ) (hq : q.Good) : Steady (val (QE q)) sampleReal ∧ Steady (val (DRDB q)) sampleReal := by
  obtain ⟨hK, hR⟩ := sampleReal_KR q hq
  have h := C99_steady_partial q hq sampleReal _ _ _ _ _ _ sampleReal_regular
    (1 / 10) (1 / 10 * (1 / 2)) 300 (by norm_num) (by norm_num) (by norm_num) hK hR sampleReal_psat
  exact ⟨h.2.2.2.1, h.2.2.2.2.2.2.2.2.2.2.2.2.2.2.2⟩

/-- the same signals with different variances at all points and no saturation index given -/
noncomputable def sampleDistinct : Res ℝ :=
  { sampleReal with
    temporal := { sampleReal.temporal with s2_y := [1, 2, 3, 4, 1 / 2].map .fin }
    index_u_ysat := none }

theorem sampleDistinct_sat : val indexUysat sampleDistinct = .ok 3 := by
  have : satLoop ([1, 2, 3, 4, 1 / 2].map Fl.fin : List (Fl ℝ)) 5 (.fin 0) 0 = .ok 3 := by
    rw [sat_take 4 (a := 1 / 2) rfl (by norm_num), sat_take 3 (a := 4) rfl (by norm_num),
      sat_stop 2 (a := 3) (b := 2) rfl rfl (by norm_num) (by norm_num)]
  rw [val_indexUysat]
  show Except.map _ (satLoop ([1, 2, 3, 4, 1 / 2].map Fl.fin : List (Fl ℝ)) 5 (.fin 0) 0) = _
  rw [this]; rfl

/-- the hypotheses of `C99_indices_partial` hold without a given saturation index -/
example : Fixed (val indexUysat) sampleDistinct :=
  (C99_indices_partial sampleDistinct [10, 15, 20, 25, 27] [10, 10, 10, 10, 10] [1, 2, 3, 4, 1 / 2] [1, 1, 1, 1, 1]
    { sampleReal_consistent with s2_y := rfl, var := rfl }
    { sampleReal_near 0 le_rfl with s2_y := forall_self 0 le_rfl _, index := rfl }
    (.inr ⟨by norm_num, by norm_num⟩) 3 15 sampleDistinct_sat sampleReal_at).1

/-! ### jumps -/

/-- a measurement whose two last points are fully saturated: their variances are `z` -/
noncomputable def clipped (z : ℝ) : Res ℝ :=
  { sampleReal with
    temporal :=
      { texp := [1, 1, 1, 1, 1, 1], u_p := [10, 20, 30, 40, 50, 60]
        u_y := [1, 2, 3, 4, 5, 5].map .fin, s2_y := [1, 2, 4, 1, z, z].map .fin
        u_ydark := [0, 0, 0, 0, 0, 0].map .fin, s2_ydark := [0, 0, 0, 0, 0, 0].map .fin }
    index_u_ysat := none }

theorem clipped_sat : val indexUysat (clipped 0) = .ok 2 := by
  have : satLoop ([1, 2, 4, 1, 0, 0].map Fl.fin : List (Fl ℝ)) 6 (.fin 0) 0 = .ok 2 := by
    rw [sat_take 5 (a := 0) rfl le_rfl, sat_take 4 (a := 0) rfl le_rfl, sat_take 3 (a := 1) rfl (by norm_num),
      sat_take 2 (a := 4) rfl (by norm_num), sat_stop 1 (a := 2) (b := 1) rfl rfl (by norm_num) (by norm_num)]
  rw [val_indexUysat]
  show Except.map _ (satLoop ([1, 2, 4, 1, 0, 0].map Fl.fin : List (Fl ℝ)) 6 (.fin 0) 0) = _
  rw [this]; rfl

theorem clipped_jump {z : ℝ} (hz : z < 0) : val indexUysat (clipped z) = .ok 0 := by
  have : satLoop ([1, 2, 4, 1, z, z].map Fl.fin : List (Fl ℝ)) 6 (.fin 0) 0 = .ok 0 :=
    sat_stop 5 (a := z) (b := z) rfl rfl hz hz
  rw [val_indexUysat]
  show Except.map _ (satLoop ([1, 2, 4, 1, z, z].map Fl.fin : List (Fl ℝ)) 6 (.fin 0) 0) = _
  rw [this]; rfl

theorem clipped_near {δ : ℝ} (h0 : 0 ≤ δ) : Spec.Nearby δ (clipped 0) (clipped (-δ)) where
  texp := rfl
  area := rfl
  index := rfl
  u_p := forall_self' δ h0 _
  u_y := forall_self δ h0 _
  u_ydark := forall_self δ h0 _
  s2_y := forall_map (by simp [h0, abs_of_nonneg h0])
  s2_ydark := forall_self δ h0 _
  dark := nearbySide_self δ h0 _ _ _ _ _ _ rfl rfl rfl rfl rfl
  bright := nearbySide_self δ h0 _ _ _ _ _ _ rfl rfl rfl rfl rfl

/-- C99 fails without the condition on the variances: where the recorded variance of the fully saturated points is zero, an
arbitrarily small negative value instead (as rounding can give, C83) moves the saturation point to the first point of the
measurement and the saturation irradiation from 30 to 10. -/
theorem C99_jump : DataOk (clipped 0) [1, 2, 3, 4, 5, 5] [0, 0, 0, 0, 0, 0] [1, 2, 4, 1, 0, 0] [0, 0, 0, 0, 0, 0] ∧
    (∀ δ, 0 < δ → Spec.Nearby δ (clipped 0) (clipped (-δ)) ∧
      val indexUysat (clipped 0) = .ok 2 ∧ val indexUysat (clipped (-δ)) = .ok 0 ∧
      val uPSat (clipped 0) = .ok (.fin 30) ∧ val uPSat (clipped (-δ)) = .ok (.fin 10)) ∧
    ¬ Fixed (val indexUysat) (clipped 0) ∧ ¬ Steady (val uPSat) (clipped 0) := by
  have hp : ∀ z (k : ℤ) (x : ℝ), val indexUysat (clipped z) = .ok k → Np.idx ([10, 20, 30, 40, 50, 60] : List ℝ) k = .ok x →
      val uPSat (clipped z) = .ok (.fin x) := by
    intro z k x hk hx
    unfold uPSat
    rw [val_bind_ok stable_temporal (by stab) rfl, val_bind_ok Stable.indexUysat (by stab) hk]
    show val (lift (Np.idx ([10, 20, 30, 40, 50, 60] : List ℝ) k) >>= _) _ = _
    rw [hx]; rfl
  have key : ∀ δ, 0 < δ → Spec.Nearby δ (clipped 0) (clipped (-δ)) ∧
      val indexUysat (clipped 0) = .ok 2 ∧ val indexUysat (clipped (-δ)) = .ok 0 ∧
      val uPSat (clipped 0) = .ok (.fin 30) ∧ val uPSat (clipped (-δ)) = .ok (.fin 10) := fun δ hδ =>
    ⟨clipped_near hδ.le, clipped_sat, clipped_jump (neg_lt_zero.2 hδ), hp _ _ _ clipped_sat rfl,
      hp _ _ _ (clipped_jump (neg_lt_zero.2 hδ)) rfl⟩
  refine ⟨?_, key, ?_, ?_⟩
  · exact ⟨rfl, rfl, rfl, rfl, rfl, rfl, rfl, rfl, rfl, ⟨rfl, rfl⟩, by
      rintro s (rfl | rfl) <;> exact ⟨rfl, rfl, Nat.succ_pos 3⟩⟩
  · rintro ⟨a, δ₀, h0, h1, h2⟩
    obtain ⟨hn, e1, e2, -⟩ := key δ₀ h0
    have := h2 δ₀ _ h0.le le_rfl hn
    rw [e2] at this
    rw [e1] at h1
    rw [← h1] at this
    exact absurd (Except.ok.inj this) (by norm_num)
  · rintro ⟨x, C, δ₀, h0, h1, h2⟩
    have hC : 0 < |C| + 1 := by positivity
    set δ := min δ₀ (1 / (|C| + 1)) with hδ
    have hpos : 0 < δ := lt_min h0 (by positivity)
    obtain ⟨hn, -, -, e1, e2⟩ := key δ hpos
    obtain ⟨x', e3, hle⟩ := h2 δ _ hpos.le (min_le_left _ _) hn
    rw [e1] at h1
    rw [e2] at e3
    have hx : (30 : ℝ) = x := by simpa using h1
    have hx' : (10 : ℝ) = x' := by simpa using e3
    rw [← hx, ← hx'] at hle
    have h3 : C * δ ≤ (|C| + 1) * (1 / (|C| + 1)) :=
      mul_le_mul (by linarith [le_abs_self C]) (min_le_right _ _) hpos.le hC.le
    rw [mul_one_div_cancel hC.ne'] at h3
    norm_num at hle
    linarith

/-- a measurement with a signal at `0.7` of the saturation signal (`z = 0`), or `z` above it -/
noncomputable def onLimit (z : ℝ) : Res ℝ :=
  { sampleReal with
    temporal :=
      { sampleReal.temporal with u_y := [10, 15, 10 + 21 / 2 + z, 25, 27].map .fin } }

theorem onLimit_diff (z : ℝ) : diff [10, 15, 10 + 21 / 2 + z, 25, 27] [10, 10, 10, 10, (10 : ℝ)] = [0, 5, 21 / 2 + z, 15, 17] := by
  norm_num [diff]; ring

theorem onLimit_sens {z : ℝ} (hz : 0 ≤ z) : val indexSensitivityMax (onLimit z) = .ok (if z = 0 then 2 else 1) := by
  refine (((C25_sensitivity_max (onLimit z) _ _ rfl rfl rfl 3 rfl).1 15 ?_).1 _).2 ?_
  · rw [onLimit_diff]; exact .inl ⟨by norm_num, rfl⟩
  · rw [onLimit_diff]
    split_ifs with h
    · subst h
      refine ⟨⟨_, rfl, by norm_num⟩, fun j x hj hx => ?_⟩
      match j, hj with
      | 3, _ => cases hx; norm_num
      | 4, _ => cases hx; norm_num
      | j + 5, _ => simp at hx
    · have hz' : 0 < z := lt_of_le_of_ne hz (Ne.symm h)
      refine ⟨⟨_, rfl, by norm_num⟩, fun j x hj hx => ?_⟩
      match j, hj with
      | 2, _ => cases hx; norm_num; linarith
      | 3, _ => cases hx; norm_num
      | 4, _ => cases hx; norm_num
      | j + 5, _ => simp at hx

/-- C99 fails too where a signal lies exactly on the limit of the sensitivity range: an arbitrarily small change takes the point
out of the fits. -/
theorem C99_limit (δ : ℝ) (hδ : 0 < δ) : Spec.Nearby δ (onLimit 0) (onLimit δ) ∧
    val indexSensitivityMax (onLimit 0) = .ok 2 ∧ val indexSensitivityMax (onLimit δ) = .ok 1 := by
  refine ⟨{ sampleReal_near δ hδ.le with u_y := forall_map ?_ }, ?_, ?_⟩
  · simp [hδ.le, abs_of_pos hδ]
  · rw [onLimit_sens le_rfl, if_pos rfl]
  · rw [onLimit_sens hδ.le, if_neg hδ.ne']

end Emva
