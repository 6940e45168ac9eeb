import Verif.Props.C29_C32

/-!
C33-C34: dark current and non-uniformities.
-/
set_option autoImplicit false
set_option linter.unusedSectionVars false
namespace Emva
open Spec Data Results Fit
variable {F : Type} [Field F] [LinearOrder F] [IsStrictOrderedRing F]

theorem val_few {r : Res F} (h : r.temporal.texp.toFinset.card ≤ 2) :
    val fewExposures r = .ok true := by
  show Except.ok (decide _) = _
  rw [decide_eq_true (by rw [nUnique_eq]; exact h)]

theorem val_many {r : Res F} (h : 2 < r.temporal.texp.toFinset.card) :
    val fewExposures r = .ok false := by
  show Except.ok (decide _) = _
  rw [decide_eq_false (by rw [nUnique_eq]; omega)]

theorem val_overK (q : LSQ F) {x : M F (PyNum F)} (hx : Stable x) (r : Res F) :
    (val x r = .ok .npnan → val (overK q x) r = .ok .npnan) ∧
    (∀ v k, val x r = .ok (.num v) → val (K q) r = .ok k →
      val (overK q x) r = .ok (.num (v / k))) := by
  have sK := stable_K q
  constructor
  · intro h
    unfold overK
    rw [val_bind_ok hx (by stab) h]
    rfl
  · intro v k h hk
    unfold overK
    rw [val_bind_ok hx (by stab) h]
    simp only
    rw [val_bind_ok sK (by stab) hk]
    rfl

/-- C33: with at most two different exposure times all four dark current figures are NaN. -/
theorem C33_few_exposures (q : LSQ F) (r : Res F) (h : r.temporal.texp.toFinset.card ≤ 2) :
    val (uIMeanDN q) r = .ok .npnan ∧ val (uIMean q) r = .ok .npnan ∧
    val (uIVarDN q) r = .ok .npnan ∧ val (uIVar q) r = .ok .npnan := by
  have sK := stable_K q
  have h1 : val (uIMeanDN q) r = .ok .npnan := by
    unfold uIMeanDN
    rw [val_bind_ok stable_few (by stab) (val_few h)]
    rfl
  have h2 : val (uIVarDN q) r = .ok .npnan := by
    unfold uIVarDN
    rw [val_bind_ok stable_few (by stab) (val_few h)]
    rfl
  exact ⟨h1, (val_overK q (stable_uIMeanDN q) r).1 h1, h2, (val_overK q (stable_uIVarDN q) r).1 h2⟩

/-- C33: with three or more exposure times and gain `k`, the figures come from the best lines through
the dark means and through the dark variances against exposure; the ones from the variance are NaN
exactly when that slope is negative. -/
theorem C33_many_exposures (q : LSQ F) (hq : q.Good) (r : Res F) (ud sd : List F)
    (hud : r.temporal.u_ydark = ud.map .fin) (hsd : r.temporal.s2_ydark = sd.map .fin)
    (hl1 : r.temporal.texp.length = ud.length) (hl2 : r.temporal.texp.length = sd.length)
    (h : 2 < r.temporal.texp.toFinset.card) (k : F) (hk : k ≠ 0)
    (hK : val (K q) r = .ok (.fin k)) :
    ∃ m b v c, BestLine (r.temporal.texp.zip ud) m b ∧ BestLine (r.temporal.texp.zip sd) v c ∧
      val (uIMeanDN q) r = .ok (.num (.fin (m * 10 ^ 9))) ∧
      val (uIMean q) r = .ok (.num (.fin (m * 10 ^ 9 / k))) ∧
      (v < 0 → val (uIVarDN q) r = .ok .npnan ∧ val (uIVar q) r = .ok .npnan) ∧
      (0 ≤ v → val (uIVarDN q) r = .ok (.num (.fin (v / k * 10 ^ 9))) ∧
        val (uIVar q) r = .ok (.num (.fin (v / k * 10 ^ 9 / k)))) := by
  have sK := stable_K q
  obtain ⟨m, b, e1, hb1⟩ := C28_best_line q hq _ ud hl1 (two_distinct h)
  obtain ⟨v, c, e2, hb2⟩ := C28_best_line q hq _ sd hl2 (two_distinct h)
  have h1 : val (uIMeanDN q) r = .ok (.num (.fin (m * 10 ^ 9))) := by
    unfold uIMeanDN
    rw [val_bind_ok stable_few (by stab) (val_many h)]
    simp only [Bool.false_eq_true, if_false]
    rw [val_bind_ok stable_temporal (by stab) rfl, hud, e1,
      val_bind_ok (Stable.lift _) (by stab) rfl, val_pure]
    rfl
  have h2 : val (uIVarDN q) r = val (if Fl.lt (.fin v : Fl F) (.fin 0) then pure .npnan else do
      let k ← K q
      pure (.num ((.fin v : Fl F) / k * .fin (10 ^ 9)))) r := by
    unfold uIVarDN
    rw [val_bind_ok stable_few (by stab) (val_many h)]
    simp only [Bool.false_eq_true, if_false]
    rw [val_bind_ok stable_temporal (by stab) rfl, hsd, e2,
      val_bind_ok (Stable.lift _) (by stab) rfl]
  refine ⟨m, b, v, c, hb1, hb2, h1, ?_, ?_, ?_⟩
  · rw [uIMean, (val_overK q (stable_uIMeanDN q) r).2 _ _ h1 hK, Fl.fin_div hk]
  · intro hv
    rw [if_pos (show Fl.lt (.fin v) (.fin 0) = true from decide_eq_true hv)] at h2
    exact ⟨h2, (val_overK q (stable_uIVarDN q) r).1 h2⟩
  · intro hv
    rw [if_neg (show ¬ Fl.lt (.fin v) (.fin 0) = true by simpa using hv),
      val_bind_ok sK (by stab) hK, val_pure, Fl.fin_div hk, Fl.fin_mul] at h2
    exact ⟨h2, by rw [uIVar, (val_overK q (stable_uIVarDN q) r).2 _ _ h2 hK, Fl.fin_div hk]⟩

theorem bestLine_exact {l : List (F × F)} {m b a c : F} (h : BestLine l a c)
    (he : ∀ p ∈ l, p.2 = m * p.1 + b) : a = m ∧ c = b := by
  by_contra hne
  have hne : (m, b) ≠ (a, c) := fun e => hne (by cases e; exact ⟨rfl, rfl⟩)
  have := h m b hne
  rw [sqErr_exact he] at this
  exact absurd (sqErr_nonneg _ _ _) (not_le.2 this)

/-- C33: for dark means and dark variances exactly affine in the exposure time (in nanoseconds), with a
variance slope that is not negative, the reported currents per second are the slopes times `10^9`,
over the gain as documented. -/
theorem C33_recovery (q : LSQ F) (hq : q.Good) (r : Res F) (ud sd : List F)
    (hud : r.temporal.u_ydark = ud.map .fin) (hsd : r.temporal.s2_ydark = sd.map .fin)
    (hl1 : r.temporal.texp.length = ud.length) (hl2 : r.temporal.texp.length = sd.length)
    (h : 2 < r.temporal.texp.toFinset.card) (k : F) (hk : k ≠ 0)
    (hK : val (K q) r = .ok (.fin k)) (m b v c : F) (hv : 0 ≤ v)
    (hm : ∀ p ∈ r.temporal.texp.zip ud, p.2 = m * p.1 + b)
    (hs : ∀ p ∈ r.temporal.texp.zip sd, p.2 = v * p.1 + c) :
    val (uIMeanDN q) r = .ok (.num (.fin (m * 10 ^ 9))) ∧
    val (uIMean q) r = .ok (.num (.fin (m * 10 ^ 9 / k))) ∧
    val (uIVarDN q) r = .ok (.num (.fin (v / k * 10 ^ 9))) ∧
    val (uIVar q) r = .ok (.num (.fin (v / k * 10 ^ 9 / k))) := by
  obtain ⟨m', b', v', c', h1, h2, e1, e2, -, e4⟩ :=
    C33_many_exposures q hq r ud sd hud hsd hl1 hl2 h k hk hK
  obtain ⟨rfl, rfl⟩ := bestLine_exact h1 hm
  obtain ⟨rfl, rfl⟩ := bestLine_exact h2 hs
  exact ⟨e1, e2, e4 hv⟩

/-! ### C34 -/

theorem val_dsnu (q : LSQ ℝ) {x : M ℝ (Fl ℝ)} (hx : Stable x) (r : Res ℝ) (v k : ℝ)
    (hv : val x r = .ok (.fin v)) (hk : k ≠ 0) (hK : val (K q) r = .ok (.fin k)) :
    val (dsnu q x) r = .ok (if v < 0 then .npnan else .num (.fin (Real.sqrt v / k))) := by
  have sK := stable_K q
  unfold dsnu
  rw [val_bind_ok hx (by stab) hv]
  by_cases h : v < 0
  · rw [if_pos (show Fl.lt (.fin v) (.fin 0) = true from decide_eq_true h), if_pos h]; rfl
  · rw [if_neg (show ¬ Fl.lt (.fin v) (.fin 0) = true by simpa using h), if_neg h,
      val_bind_ok hx (by stab) hv, val_bind_ok sK (by stab) hK, val_pure,
      Fl.sqrt_fin (not_lt.1 h), Fl.fin_div hk]

/-- C34: each DSNU is the object `np.nan` exactly when its dark variance is negative, otherwise the
square root of the variance over the gain; `DSNU1288_DN` is `DSNU1288` times the gain. -/
theorem C34_dsnu_nan_rule (q : LSQ ℝ) (r : Res ℝ) (t w c p k : ℝ) (hk : k ≠ 0)
    (hK : val (K q) r = .ok (.fin k)) (ht : val (s2Y true) r = .ok (.fin t))
    (hw : val (s2YRow true) r = .ok (.fin w)) (hc : val (s2YCol true) r = .ok (.fin c))
    (hp : val (s2YPixel true) r = .ok (.fin p)) :
    val (DSNU1288 q) r = .ok (if t < 0 then .npnan else .num (.fin (Real.sqrt t / k))) ∧
    val (DSNU1288Row q) r = .ok (if w < 0 then .npnan else .num (.fin (Real.sqrt w / k))) ∧
    val (DSNU1288Col q) r = .ok (if c < 0 then .npnan else .num (.fin (Real.sqrt c / k))) ∧
    val (DSNU1288Pixel q) r = .ok (if p < 0 then .npnan else .num (.fin (Real.sqrt p / k))) ∧
    val DSNU1288DN r = .ok (if t < 0 then .npnan else .num (.fin (Real.sqrt t))) ∧
    (0 ≤ t → ∃ a b, val (DSNU1288 q) r = .ok (.num (.fin a)) ∧ val DSNU1288DN r = .ok (.num (.fin b)) ∧
      b = a * k) := by
  have sT := stable_s2Y (F := ℝ) true
  have e1 := val_dsnu q sT r t k ht hk hK
  have e5 : val DSNU1288DN r = .ok (if t < 0 then .npnan else .num (.fin (Real.sqrt t))) := by
    unfold DSNU1288DN
    rw [val_bind_ok sT (by stab) ht]
    by_cases h : t < 0
    · rw [if_pos (show Fl.lt (.fin t) (.fin 0) = true from decide_eq_true h), if_pos h]; rfl
    · rw [if_neg (show ¬ Fl.lt (.fin t) (.fin 0) = true by simpa using h), if_neg h,
        val_bind_ok sT (by stab) ht, val_pure, Fl.sqrt_fin (not_lt.1 h)]
  refine ⟨e1, val_dsnu q (stable_s2YRow _) r w k hw hk hK, val_dsnu q (stable_s2YCol _) r c k hc hk hK,
    val_dsnu q (stable_s2YPixel _) r p k hp hk hK, e5, fun h => ?_⟩
  refine ⟨Real.sqrt t / k, Real.sqrt t, ?_, ?_, ?_⟩
  · rw [DSNU1288, e1, if_neg (not_lt.2 h)]
  · rw [e5, if_neg (not_lt.2 h)]
  · field_simp

/-- C34: when the three dark components are not negative, the squares of the DSNU components add up to
the square of the overall DSNU. -/
theorem C34_dsnu_squares (q : LSQ ℝ) (r : Res ℝ) (s : SpatialData ℝ) (hs : r.spatial.dark = s)
    (hM : 0 < s.M) (hN : 0 < s.N) (hMN : s.M * s.N ≠ s.M + s.N) (hL : 0 < s.L)
    (v w c ρ k : ℝ) (hv : s.avg_var = .fin v) (hw : s.var_mean = .fin w)
    (hc : s.avg_var_cav = .fin c) (hρ : s.avg_var_rav = .fin ρ) (hk : k ≠ 0)
    (hK : val (K q) r = .ok (.fin k))
    (hrow : ∀ x, val (s2YRow true) r = .ok (.fin x) → 0 ≤ x)
    (hcol : ∀ x, val (s2YCol true) r = .ok (.fin x) → 0 ≤ x)
    (hpix : ∀ x, val (s2YPixel true) r = .ok (.fin x) → 0 ≤ x) :
    ∃ a b d e : ℝ, val (DSNU1288 q) r = .ok (.num (.fin a)) ∧
      val (DSNU1288Row q) r = .ok (.num (.fin b)) ∧ val (DSNU1288Col q) r = .ok (.num (.fin d)) ∧
      val (DSNU1288Pixel q) r = .ok (.num (.fin e)) ∧ a ^ 2 = b ^ 2 + d ^ 2 + e ^ 2 := by
  obtain ⟨row, col, px, tot, h1, h2, h3, h4, -, hsum, -⟩ :=
    C21_decomposition r true s hs hM hN hMN hL v w c ρ hv hw hc hρ
  have p1 := hrow _ h1
  have p2 := hcol _ h2
  have p3 := hpix _ h3
  have p4 : 0 ≤ tot := by rw [← hsum]; positivity
  obtain ⟨e1, e2, e3, e4, -, -⟩ := C34_dsnu_nan_rule q r tot row col px k hk hK h4 h1 h2 h3
  rw [if_neg (not_lt.2 p4)] at e1
  rw [if_neg (not_lt.2 p1)] at e2
  rw [if_neg (not_lt.2 p2)] at e3
  rw [if_neg (not_lt.2 p3)] at e4
  refine ⟨_, _, _, _, e1, e2, e3, e4, ?_⟩
  rw [div_pow, div_pow, div_pow, div_pow, Real.sq_sqrt p4, Real.sq_sqrt p1, Real.sq_sqrt p2,
    Real.sq_sqrt p3, ← hsum]
  ring

theorem val_prnu {x : Bool → M ℝ (Fl ℝ)} (hx : ∀ d, Stable (x d)) (r : Res ℝ) (b d mb md : ℝ)
    (hb : val (x false) r = .ok (.fin b)) (hd : val (x true) r = .ok (.fin d))
    (hmb : r.spatial.bright.avg_mean = .fin mb) (hmd : r.spatial.dark.avg_mean = .fin md)
    (hne : mb ≠ md) :
    val (prnu x) r = .ok (if b < d then .nan else .fin (Real.sqrt (b - d) * 100 / (mb - md))) := by
  have h1 := hx true
  have h2 := hx false
  unfold prnu
  rw [val_bind_ok h2 (by stab) hb, val_bind_ok h1 (by stab) hd,
    val_bind_ok (stable_spat _) (by stab) rfl, val_bind_ok (stable_spat _) (by stab) rfl, val_pure]
  simp only [Bool.false_eq_true, if_false, if_true, hmb, hmd, Fl.fin_sub]
  by_cases h : b < d
  · rw [if_pos h, Fl.sqrt_neg (sub_neg.2 h), Fl.nan_mul, Fl.nan_div]
  · rw [if_neg h, Fl.sqrt_fin (sub_nonneg.2 (not_lt.1 h)), Fl.fin_mul, Fl.fin_div (sub_ne_zero.2 hne)]

/-- C34: each PRNU is a (computed) NaN exactly when the bright variance is below the dark one; when no
component is, the squares of the components add up to the square of the overall PRNU. -/
theorem C34_prnu (r : Res ℝ) (sb sd : SpatialData ℝ) (hsb : r.spatial.bright = sb)
    (hsd : r.spatial.dark = sd)
    (hM : 0 < sb.M) (hN : 0 < sb.N) (hMN : sb.M * sb.N ≠ sb.M + sb.N) (hL : 0 < sb.L)
    (hM' : 0 < sd.M) (hN' : 0 < sd.N) (hMN' : sd.M * sd.N ≠ sd.M + sd.N) (hL' : 0 < sd.L)
    (v w c ρ v' w' c' ρ' mb md : ℝ)
    (hv : sb.avg_var = .fin v) (hw : sb.var_mean = .fin w)
    (hc : sb.avg_var_cav = .fin c) (hρ : sb.avg_var_rav = .fin ρ)
    (hv' : sd.avg_var = .fin v') (hw' : sd.var_mean = .fin w')
    (hc' : sd.avg_var_cav = .fin c') (hρ' : sd.avg_var_rav = .fin ρ')
    (hmb : sb.avg_mean = .fin mb) (hmd : sd.avg_mean = .fin md) (hne : mb ≠ md) :
    ∃ t row col px t' row' col' px' : ℝ,
      val (s2Y false) r = .ok (.fin t) ∧ val (s2YRow false) r = .ok (.fin row) ∧
      val (s2YCol false) r = .ok (.fin col) ∧ val (s2YPixel false) r = .ok (.fin px) ∧
      val (s2Y true) r = .ok (.fin t') ∧ val (s2YRow true) r = .ok (.fin row') ∧
      val (s2YCol true) r = .ok (.fin col') ∧ val (s2YPixel true) r = .ok (.fin px') ∧
      (val PRNU1288 r = .ok .nan ↔ t < t') ∧ (val PRNU1288Row r = .ok .nan ↔ row < row') ∧
      (val PRNU1288Col r = .ok .nan ↔ col < col') ∧ (val PRNU1288Pixel r = .ok .nan ↔ px < px') ∧
      (row' ≤ row → col' ≤ col → px' ≤ px → ∃ a b d e : ℝ, val PRNU1288 r = .ok (.fin a) ∧
        val PRNU1288Row r = .ok (.fin b) ∧ val PRNU1288Col r = .ok (.fin d) ∧
        val PRNU1288Pixel r = .ok (.fin e) ∧ a ^ 2 = b ^ 2 + d ^ 2 + e ^ 2 ∧
        a ^ 2 * (mb - md) ^ 2 = 100 ^ 2 * (t - t')) := by
  obtain ⟨row, col, px, t, h1, h2, h3, h4, -, hsum, -⟩ :=
    C21_decomposition r false sb hsb hM hN hMN hL v w c ρ hv hw hc hρ
  obtain ⟨row', col', px', t', h1', h2', h3', h4', -, hsum', -⟩ :=
    C21_decomposition r true sd hsd hM' hN' hMN' hL' v' w' c' ρ' hv' hw' hc' hρ'
  have hmb' : r.spatial.bright.avg_mean = .fin mb := by rw [hsb, hmb]
  have hmd' : r.spatial.dark.avg_mean = .fin md := by rw [hsd, hmd]
  have e1 := val_prnu stable_s2Y r t t' mb md h4 h4' hmb' hmd' hne
  have e2 := val_prnu stable_s2YRow r row row' mb md h1 h1' hmb' hmd' hne
  have e3 := val_prnu stable_s2YCol r col col' mb md h2 h2' hmb' hmd' hne
  have e4 := val_prnu stable_s2YPixel r px px' mb md h3 h3' hmb' hmd' hne
  have nan_iff : ∀ (a b z : ℝ), (Except.ok (if a < b then Fl.nan else .fin z) : Except PyErr (Fl ℝ))
      = .ok .nan ↔ a < b := by
    intro a b z; by_cases h : a < b <;> simp [h]
  refine ⟨t, row, col, px, t', row', col', px', h4, h1, h2, h3, h4', h1', h2', h3', ?_, ?_, ?_, ?_, ?_⟩
  · rw [PRNU1288, e1, nan_iff]
  · rw [PRNU1288Row, e2, nan_iff]
  · rw [PRNU1288Col, e3, nan_iff]
  · rw [PRNU1288Pixel, e4, nan_iff]
  · intro g1 g2 g3
    have g4 : t' ≤ t := by rw [← hsum, ← hsum']; linarith
    rw [if_neg (not_lt.2 g4)] at e1
    rw [if_neg (not_lt.2 g1)] at e2
    rw [if_neg (not_lt.2 g2)] at e3
    rw [if_neg (not_lt.2 g3)] at e4
    have hz : mb - md ≠ 0 := sub_ne_zero.2 hne
    refine ⟨_, _, _, _, e1, e2, e3, e4, ?_, ?_⟩
    · simp only [div_pow, mul_pow, Real.sq_sqrt (sub_nonneg.2 g1), Real.sq_sqrt (sub_nonneg.2 g2),
        Real.sq_sqrt (sub_nonneg.2 g3), Real.sq_sqrt (sub_nonneg.2 g4)]
      rw [← hsum, ← hsum']; ring
    · rw [div_pow, mul_pow, Real.sq_sqrt (sub_nonneg.2 g4)]
      field_simp

/-! ### cases meeting the hypotheses -/

/-- dark mean `2*t + 1`, dark variance `3*t + 4`, gain 1/10 -/
def sampleDark : Res ℚ := { sampleIdeal ℚ with
  temporal := ⟨[1, 2, 3], [0, 100, 200], [3, 10, 17].map .fin, [7, 10 + 1 / 2, 14].map .fin,
    [3, 5, 7].map .fin, [7, 10, 13].map .fin⟩ }

example : val (K (exactLSQ ℚ)) sampleDark = .ok (.fin (1 / 10)) ∧
    val (uIMeanDN (exactLSQ ℚ)) sampleDark = .ok (.num (.fin (2 * 10 ^ 9))) ∧
    val (uIVar (exactLSQ ℚ)) sampleDark = .ok (.num (.fin (300 * 10 ^ 9))) := by decide +kernel

/-- negative row and column variances: their DSNU is NaN -/
example : val (s2Y true) (sampleIdeal ℚ) = .ok (.fin (9 / 2)) ∧
    val (s2YRow true) (sampleIdeal ℚ) = .ok (.fin (-13 / 10)) ∧
    val (s2YCol true) (sampleIdeal ℚ) = .ok (.fin (-14 / 10)) ∧
    val (s2YPixel true) (sampleIdeal ℚ) = .ok (.fin (36 / 5)) := by decide +kernel

/-- non-negative dark components, and bright components above them -/
def sampleUniform : Res ℚ := { sampleIdeal ℚ with
  spatial := ⟨1, 30, ⟨3, 4, fun _ _ => 10, .fin 4, 4, 3, 4, .fin 9, .fin 10, .fin 3, .fin 2⟩,
    ⟨3, 4, fun _ _ => 10, .fin 4, 4, 3, 4, .fin 17, .fin 50, .fin 6, .fin 4⟩⟩ }

example : val (s2YRow true) sampleUniform = .ok (.fin (1 / 5)) ∧
    val (s2YCol true) sampleUniform = .ok (.fin (3 / 5)) ∧
    val (s2YPixel true) sampleUniform = .ok (.fin (36 / 5)) ∧
    val (s2YRow false) sampleUniform = .ok (.fin (2 / 5)) ∧
    val (s2YCol false) sampleUniform = .ok (.fin (6 / 5)) ∧
    val (s2YPixel false) sampleUniform = .ok (.fin (72 / 5)) := by decide +kernel

end Emva
