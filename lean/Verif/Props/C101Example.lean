import Verif.Props.C101Data
import Verif.Props.C95Example

/-!
C101: a measurement that meets the hypotheses, and why the tolerance has to be small against the slope.
-/
set_option autoImplicit false
namespace Emva
open Spec Data Results Fit

/-- the measurement of `sampleReal` with a dark current: the dark values rise by 1 and the dark variances by 1/10 per unit of time -/
noncomputable def sampleWarm : Res ℝ := { sampleReal with temporal := { sampleReal.temporal with
  u_y := [10, 16, 22, 28, 31].map .fin, s2_y := [1, 8 / 5, 11 / 5, 14 / 5, 7 / 5].map .fin,
  u_ydark := [10, 11, 12, 13, 14].map .fin, s2_ydark := [1, 11 / 10, 6 / 5, 13 / 10, 7 / 5].map .fin } }

theorem sampleWarm_diff : diff [10, 16, 22, 28, 31] [10, 11, 12, 13, (14 : ℝ)] = [0, 5, 10, 15, 17] := by
  norm_num [diff]

theorem sampleWarm_diff2 : diff [1, 8 / 5, 11 / 5, 14 / 5, 7 / 5] [1, 11 / 10, 6 / 5, 13 / 10, (7 / 5 : ℝ)] = [0, 1 / 2, 1, 3 / 2, 0] := by
  norm_num [diff]

theorem sampleWarm_at : AtIndex (diff [10, 16, 22, 28, 31] [10, 11, 12, 13, (14 : ℝ)]) 3 15 := by
  rw [sampleWarm_diff]; exact .inl ⟨by norm_num, rfl⟩

theorem sampleWarm_sens : val indexSensitivityMax sampleWarm = .ok 2 := by
  refine (((C25_sensitivity_max sampleWarm _ _ rfl rfl rfl 3 rfl).1 15 sampleWarm_at).1 2).2 ?_
  rw [sampleWarm_diff]
  refine ⟨⟨10, rfl, by norm_num⟩, fun j x hj hx => ?_⟩
  match j, hj with
  | 3, _ => cases hx; norm_num
  | 4, _ => cases hx; norm_num
  | j + 5, _ => simp at hx

theorem sampleWarm_KR (q : LSQ ℝ) (hq : q.Good) : val (K q) sampleWarm = .ok (.fin (1 / 10)) ∧
    val (R q) sampleWarm = .ok (.fin (1 / 10 * (1 / 2))) := by
  have h := C29_recovery q hq sampleWarm [10, 16, 22, 28, 31] [10, 11, 12, 13, 14]
    [1, 8 / 5, 11 / 5, 14 / 5, 7 / 5] [1, 11 / 10, 6 / 5, 13 / 10, 7 / 5] rfl rfl rfl rfl rfl rfl rfl rfl 2 sampleWarm_sens
    (1 / 10) (1 / 2) (by norm_num) ?_ ?_ ?_
  · exact ⟨h.1, h.2.1⟩
  · rw [sampleWarm_diff]
    intro i hi y p hy hp
    match i, hi with
    | 0, _ => cases hy; cases hp; norm_num
    | 1, _ => cases hy; cases hp; norm_num
    | 2, _ => cases hy; cases hp; norm_num
  · rw [sampleWarm_diff, sampleWarm_diff2]
    intro i hi y v hy hv
    match i, hi with
    | 0, _ => cases hy; cases hv; norm_num
    | 1, _ => cases hy; cases hv; norm_num
    | 2, _ => cases hy; cases hv; norm_num
  · rw [sampleWarm_diff]
    exact ⟨1, by norm_num, 5, rfl, by norm_num⟩

theorem sampleWarm_lines : BestLine ([1, 2, 3, 4, 5].zip [10, 11, 12, 13, (14 : ℝ)]) 1 9 ∧
    BestLine ([1, 2, 3, 4, 5].zip [1, 11 / 10, 6 / 5, 13 / 10, (7 / 5 : ℝ)]) (1 / 10) (9 / 10) := by
  constructor
  · refine bestLine_of_normal ⟨(1, 10), by simp, (2, 11), by simp, by norm_num⟩ ?_ ?_ <;> norm_num [Sxx, Sx, Sxy, Sy, S]
  · refine bestLine_of_normal ⟨(1, 1), by simp, (2, 11 / 10), by simp, by norm_num⟩ ?_ ?_ <;> norm_num [Sxx, Sx, Sxy, Sy, S]

/-- the hypotheses of `C101_measurement` are met in float64 with any solver that comes within 10⁻¹⁰ of the least sum of squares:
dark noise and dark currents have a relative error of at most 10⁻³ -/
theorem sampleWarm_accurate (q : LSQ ℝ) (hn : q.Near 0 (1 / 10 ^ 10)) :
    RelError (1 / 10 ^ 3) (val (Rounded.sigmaYDark Rounding.binary64 q) sampleWarm) (val (sigmaYDark (exactLSQ ℝ)) sampleWarm) ∧
    RelErrorNum (1 / 10 ^ 3) (val (Rounded.uIMean Rounding.binary64 q) sampleWarm) (val (uIMean (exactLSQ ℝ)) sampleWarm) ∧
    RelErrorNum (1 / 10 ^ 3) (val (Rounded.uIVar Rounding.binary64 q) sampleWarm) (val (uIVar (exactLSQ ℝ)) sampleWarm) ∧
    val (Rounded.uIVarDN Rounding.binary64 q) sampleWarm ≠ .ok .npnan := by
  have hq : (exactLSQ ℝ).Good := exactLSQ_good
  obtain ⟨hK, hR⟩ := sampleWarm_KR (exactLSQ ℝ) hq
  obtain ⟨n1, n2⟩ := C95_float64.2.2 (1 / 10 ^ 4) le_rfl
  obtain ⟨l1, l2⟩ := sampleWarm_lines
  have hz : ((diff [10, 16, 22, 28, 31] [10, 11, 12, 13, (14 : ℝ)]).zip
      (diff [1, 8 / 5, 11 / 5, 14 / 5, 7 / 5] [1, 11 / 10, 6 / 5, 13 / 10, (7 / 5 : ℝ)])).take (2 + 1) = [(0, 0), (5, 1 / 2), (10, 1)] := by
    rw [sampleWarm_diff, sampleWarm_diff2]; rfl
  have hz' : (sampleWarm.temporal.u_p.zip (diff [10, 16, 22, 28, 31] [10, 11, 12, 13, (14 : ℝ)])).take (2 + 1) =
      [(0, 0), (100, 5), (200, 10)] := by
    rw [sampleWarm_diff]; rfl
  have main := C101_measurement Rounding.binary64 (by norm_num) q (exactLSQ ℝ) hq 0 (1 / 10 ^ 10) (1 / 10 ^ 4) hn le_rfl
    (by norm_num) (by norm_num) sampleWarm [10, 16, 22, 28, 31] [10, 11, 12, 13, 14]
    [1, 8 / 5, 11 / 5, 14 / 5, 7 / 5] [1, 11 / 10, 6 / 5, 13 / 10, 7 / 5] n1 (by norm_num)
    rfl rfl rfl rfl rfl rfl rfl rfl rfl ?_ ?_ 3 rfl 15 sampleWarm_at (by norm_num) ?_ 2 sampleWarm_sens ?_ ?_ ?_ ?_
    (1 / 10) (1 / 10 * (1 / 2)) 300 hK (by norm_num) hR (by norm_num) rfl (by norm_num) ?_ ?_
    1 9 (1 / 10) (9 / 10) l1 l2 ?_ ?_ ?_ _ n2
  · refine ⟨main.1.2.2.2.2.1, main.2.2.1, main.2.2.2.2.1, fun h => ?_⟩
    have := main.2.2.2.2.2.1 h
    norm_num at this
  · intro x hx
    have : x ∈ [(0 : ℝ), 100, 200, 300, 400] := hx
    simp only [List.mem_cons, List.not_mem_nil, or_false] at this
    have key : ∀ n : ℕ, n ≤ 2 ^ 53 → Rounding.binary64.rnd (n : ℝ) = n := Rounding.binary64.nat
    rcases this with rfl | rfl | rfl | rfl | rfl
    · exact_mod_cast key 0 (by norm_num)
    · exact_mod_cast key 100 (by norm_num)
    · exact_mod_cast key 200 (by norm_num)
    · exact_mod_cast key 300 (by norm_num)
    · exact_mod_cast key 400 (by norm_num)
  · show 2 < ([1, 2, 3, 4, (5 : ℝ)]).toFinset.card
    rw [List.toFinset_card_of_nodup (by norm_num)]
    simp
  · rw [sampleWarm_diff]
    intro y hy
    simp only [List.mem_cons, List.not_mem_nil, or_false] at hy
    rcases hy with rfl | rfl | rfl | rfl | rfl <;> norm_num
  · rw [hz]
    intro p hp
    simp only [List.mem_cons, List.not_mem_nil, or_false] at hp
    rcases hp with rfl | rfl | rfl <;> norm_num
  · rw [hz']
    intro p hp
    simp only [List.mem_cons, List.not_mem_nil, or_false] at hp
    rcases hp with rfl | rfl | rfl <;> norm_num
  · rw [sampleWarm_diff]
    exact ⟨1, by norm_num, 5, rfl, by norm_num⟩
  · exact ⟨1, by norm_num, 100, rfl, by norm_num⟩
  · rw [hz]; norm_num [weight]
  · rw [hz']; norm_num [weight]
  · show 0 * _ + _ ≤ _ * spread ([1, 2, 3, 4, 5].zip [10, 11, 12, 13, (14 : ℝ)])
    norm_num [spread]
  · show 0 * _ + _ ≤ _ * spread ([1, 2, 3, 4, 5].zip [1, 11 / 10, 6 / 5, 13 / 10, (7 / 5 : ℝ)])
    norm_num [spread]
  · show 0 * _ + _ ≤ _ * lever ([1, 2, 3, 4, 5].zip [1, 11 / 10, 6 / 5, 13 / 10, (7 / 5 : ℝ)])
    norm_num [lever, weight]

/-- the exact values of this measurement -/
example : val (uIMean (exactLSQ ℝ)) sampleWarm = .ok (.num (.fin (10 ^ 10))) ∧
    val (uIVar (exactLSQ ℝ)) sampleWarm = .ok (.num (.fin (10 ^ 10))) := by
  obtain ⟨m, b, v, c, b1, b2, -, e1, -, e2⟩ := C33_many_exposures (exactLSQ ℝ) exactLSQ_good sampleWarm
    [10, 11, 12, 13, 14] [1, 11 / 10, 6 / 5, 13 / 10, 7 / 5] rfl rfl rfl rfl (by
      show 2 < ([1, 2, 3, 4, (5 : ℝ)]).toFinset.card
      rw [List.toFinset_card_of_nodup (by norm_num)]
      simp) (1 / 10) (by norm_num) (sampleWarm_KR _ exactLSQ_good).1
  obtain ⟨rfl, rfl⟩ := bestLine_exact (m := 1) (b := 9) b1 (by
    intro p hp
    have : p ∈ [((1 : ℝ), (10 : ℝ)), (2, 11), (3, 12), (4, 13), (5, 14)] := hp
    simp only [List.mem_cons, List.not_mem_nil, or_false] at this
    rcases this with rfl | rfl | rfl | rfl | rfl <;> norm_num)
  obtain ⟨rfl, rfl⟩ := bestLine_exact (m := 1 / 10) (b := 9 / 10) b2 (by
    intro p hp
    have : p ∈ [((1 : ℝ), (1 : ℝ)), (2, 11 / 10), (3, 6 / 5), (4, 13 / 10), (5, 7 / 5)] := hp
    simp only [List.mem_cons, List.not_mem_nil, or_false] at this
    rcases this with rfl | rfl | rfl | rfl | rfl <;> norm_num)
  rw [e1, (e2 (by norm_num)).2]
  norm_num

/-- a solver that finds the best line except for one constant set of values, where its slope is `-ε` -/
noncomputable def tiltedLSQ (ε : ℝ) : LSQ ℝ where
  b0 := (exactLSQ ℝ).b0
  b := open Classical in fun X Y => if X = [1, 2, 3, 4, 5].map .fin ∧ Y = [1, 1, 1, 1, 1].map .fin then (.fin (-ε), .fin 1) else (exactLSQ ℝ).b X Y

theorem tiltedLSQ_near (ε : ℝ) : (tiltedLSQ ε).Near 0 (55 * ε ^ 2) := by
  have hg : (exactLSQ ℝ).Good := exactLSQ_good
  have h0 : 0 ≤ 55 * ε ^ 2 := by positivity
  refine ⟨fun X Y h1 h2 => ?_, fun X Y h1 h2 => ?_⟩
  · obtain ⟨m, e, h⟩ := hg.b0 X Y h1 h2
    exact ⟨m, e, fun m' => by linarith [h m']⟩
  · by_cases hc : X.map Fl.fin = [1, 2, 3, 4, 5].map .fin ∧ Y.map Fl.fin = [1, 1, 1, 1, 1].map .fin
    · refine ⟨-ε, 1, if_pos hc, fun m' c' => ?_⟩
      have inj : Function.Injective (Fl.fin (F := ℝ)) := fun a b h => by injection h
      have hX := List.map_injective_iff.2 inj hc.1
      have hY := List.map_injective_iff.2 inj hc.2
      have hp : 0 ≤ sumSq (residB m' c' X Y) := List.sum_nonneg fun x hx => by
        obtain ⟨y, -, rfl⟩ := List.mem_map.1 hx
        positivity
      have : sumSq (residB (-ε) 1 X Y) = 55 * ε ^ 2 := by
        rw [hX, hY]
        simp [sumSq, residB]
        ring
      rw [this]
      linarith
    · obtain ⟨m, c, e, h⟩ := hg.b X Y h1 h2
      exact ⟨m, c, by rw [← e]; exact if_neg hc, fun m' c' => by linarith [h m' c']⟩

/-- C101: the condition that the tolerance is small against the slope is needed. With the constant dark variances of `sampleReal`
the dark current from the variance is 0; however small the tolerance of the solver is, there is one for which it is `np.nan`. -/
theorem C101_jump {u : ℝ} (R : Rounding u) (δ : ℝ) (hδ : 0 < δ) : ∃ q' : LSQ ℝ, q'.Near 0 δ ∧
    val (uIVarDN (exactLSQ ℝ)) sampleReal = .ok (.num (.fin 0)) ∧ val (Rounded.uIVarDN R q') sampleReal = .ok .npnan ∧
    val (Rounded.uIVar R q') sampleReal = .ok .npnan := by
  have hT : 2 < sampleReal.temporal.texp.toFinset.card := by
    show 2 < ([1, 2, 3, 4, (5 : ℝ)]).toFinset.card
    rw [List.toFinset_card_of_nodup (by norm_num)]
    simp
  have hε : 0 < Real.sqrt (δ / 55) := Real.sqrt_pos.2 (by positivity)
  have e1 : val (Rounded.uIVarDN R (tiltedLSQ (Real.sqrt (δ / 55)))) sampleReal = .ok .npnan := by
    have sK := Rounded.stable_gain R (tiltedLSQ (Real.sqrt (δ / 55)))
    have hV : linearB (tiltedLSQ (Real.sqrt (δ / 55))) (sampleReal.temporal.texp.map .fin) sampleReal.temporal.s2_ydark =
        .ok (.fin (-Real.sqrt (δ / 55)), .fin 1) := by
      show Except.ok ((tiltedLSQ (Real.sqrt (δ / 55))).b ([1, 2, 3, 4, 5].map .fin) ([1, 1, 1, 1, 1].map .fin)) = _
      unfold tiltedLSQ
      simp only [and_self, if_true]
    unfold Rounded.uIVarDN
    rw [val_bind_ok stable_few (by stab) (val_many hT)]
    simp only [Bool.false_eq_true, if_false]
    rw [val_bind_ok stable_temporal (by stab) rfl, hV, val_bind_ok (Stable.lift _) (by stab) rfl,
      if_pos (show Fl.lt (.fin (-Real.sqrt (δ / 55))) (.fin 0) = true from decide_eq_true (by linarith)), val_pure]
  refine ⟨tiltedLSQ (Real.sqrt (δ / 55)), ?_, ?_, e1, (Rounded.val_overK R _ (Rounded.stable_uIVarDN R _) _).1 e1⟩
  · have := tiltedLSQ_near (Real.sqrt (δ / 55))
    rwa [Real.sq_sqrt (by positivity), mul_div_cancel₀ _ (by norm_num : (55 : ℝ) ≠ 0)] at this
  · obtain ⟨m, b, v, c, -, b2, -, -, -, e2⟩ := C33_many_exposures (exactLSQ ℝ) exactLSQ_good sampleReal
      [10, 10, 10, 10, 10] [1, 1, 1, 1, 1] rfl rfl rfl rfl hT (1 / 10) (by norm_num) (sampleReal_KR _ exactLSQ_good).1
    obtain ⟨rfl, rfl⟩ := bestLine_exact (m := 0) (b := 1) b2 (by
      intro p hp
      have : p ∈ [((1 : ℝ), (1 : ℝ)), (2, 1), (3, 1), (4, 1), (5, 1)] := hp
      simp only [List.mem_cons, List.not_mem_nil, or_false] at this
      rcases this with rfl | rfl | rfl | rfl | rfl <;> norm_num)
    rw [(e2 le_rfl).1]
    simp

end Emva
