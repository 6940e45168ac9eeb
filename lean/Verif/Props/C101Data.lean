import Verif.Props.C101

/-!
C101: all results of a measurement with more than two exposure times, in floating point arithmetic.
-/
set_option autoImplicit false
namespace Emva
open Spec Data Results Fit

section
variable {u : ℝ} (R : Rounding u)

theorem zip_distinct {X Y : List ℝ} (hl : X.length = Y.length) (h : ∃ x ∈ X, ∃ x' ∈ X, x ≠ x') :
    ∃ p ∈ X.zip Y, ∃ p' ∈ X.zip Y, p.1 ≠ p'.1 := by
  obtain ⟨x, hx, x', hx', hne⟩ := h
  rw [← List.map_fst_zip (l₁ := X) (l₂ := Y) hl.le, List.mem_map] at hx hx'
  obtain ⟨p, hp, rfl⟩ := hx
  obtain ⟨p', hp', rfl⟩ := hx'
  exact ⟨p, hp, p', hp', hne⟩

/-- the best line is the one of the exact fit -/
theorem near_exact {l : List (ℝ × ℝ)} {τ δ m b m1 b1 m0 b0 : ℝ} (hn : NearLine τ δ l m b m1 b1) (hb : BestLine l m0 b0) :
    m1 = m0 ∧ b1 = b0 := by
  refine bestLine_unique hb fun k c => ?_
  by_cases h : (k, c) = (m1, b1)
  · obtain ⟨rfl, rfl⟩ := Prod.mk.inj h
    exact le_rfl
  · exact (hn.1 k c h).le

/-- C101: the results of a measurement with more than two exposure times, in floating point with a solver of given tolerance: those
of `C95_measurement`, where the dark noise is now the offset of a fit, and the four dark currents. `(m1, b1)` and `(v1, c1)` are the
best lines through the dark values and through the dark variances against the exposure time. -/
theorem C101_measurement (hu1 : u < 1) (q' q : LSQ ℝ) (hq : q.Good) (τ δ ρ : ℝ) (hq' : q'.Near τ δ) (hτ : 0 ≤ τ) (hδ : 0 ≤ δ)
    (hρ : 0 ≤ ρ) (r : Res ℝ) (uy ud sy sd : List ℝ)
    (hacc : 3 / 4 ≤ (1 - ρ) ^ 2 * (1 - u) ^ 13) (hρ1 : ρ < 1)
    (hu : r.temporal.u_y = uy.map .fin) (hd : r.temporal.u_ydark = ud.map .fin)
    (hsy : r.temporal.s2_y = sy.map .fin) (hsd : r.temporal.s2_ydark = sd.map .fin)
    (h1 : uy.length = ud.length) (h2 : sy.length = uy.length) (h3 : sd.length = uy.length)
    (h4 : r.temporal.u_p.length = uy.length) (h5 : r.temporal.texp.length = uy.length) (hf : Floats R r.temporal.u_p)
    (many : 2 < r.temporal.texp.toFinset.card)
    (i : ℤ) (hi : val indexUysat r = .ok i) (ys : ℝ) (hys : AtIndex (diff uy ud) i ys) (hys0 : 0 ≤ ys)
    (gap : ∀ y ∈ diff uy ud, y ≤ (1 - u) ^ 4 * (7 / 10 * ys) ∨ 7 / 10 * ys < (1 - u) ^ 4 * y)
    (j : ℕ) (hj : val indexSensitivityMax r = .ok j)
    (hpos : ∀ p ∈ ((diff uy ud).zip (diff sy sd)).take (j + 1), 0 ≤ p.1 ∧ 0 ≤ p.2)
    (hpos' : ∀ p ∈ (r.temporal.u_p.zip (diff uy ud)).take (j + 1), 0 ≤ p.1 ∧ 0 ≤ p.2)
    (hx : ∃ i ≤ j, ∃ y, (diff uy ud)[i]? = some y ∧ 0 < y) (hx' : ∃ i ≤ j, ∃ y, r.temporal.u_p[i]? = some y ∧ 0 < y)
    (k m p : ℝ) (hk : val (K q) r = .ok (.fin k)) (hk0 : 0 < k) (hm : val (Results.R q) r = .ok (.fin m)) (hm0 : 0 < m)
    (hp : val uPSat r = .ok (.fin p)) (hp0 : 0 < p)
    (htol : τ * ((((diff uy ud).zip (diff sy sd)).take (j + 1)).map fun p => p.2 ^ 2).sum + δ ≤
      ρ ^ 2 * (1 - u) ^ 12 * (k ^ 2 * weight (((diff uy ud).zip (diff sy sd)).take (j + 1))))
    (htol' : τ * (((r.temporal.u_p.zip (diff uy ud)).take (j + 1)).map fun p => p.2 ^ 2).sum + δ ≤
      ρ ^ 2 * (1 - u) ^ 12 * (m ^ 2 * weight ((r.temporal.u_p.zip (diff uy ud)).take (j + 1))))
    (m1 b1 v1 c1 : ℝ) (hM : BestLine (r.temporal.texp.zip ud) m1 b1) (hV : BestLine (r.temporal.texp.zip sd) v1 c1)
    (tolM : τ * sqErr (r.temporal.texp.zip ud) m1 b1 + δ ≤ (ρ * m1) ^ 2 * spread (r.temporal.texp.zip ud))
    (tolV : τ * sqErr (r.temporal.texp.zip sd) v1 c1 + δ ≤ (ρ * v1) ^ 2 * spread (r.temporal.texp.zip sd))
    (tolC : τ * sqErr (r.temporal.texp.zip sd) v1 c1 + δ ≤ (ρ * c1) ^ 2 * lever (r.temporal.texp.zip sd))
    (e : ℝ) (he : 1 ≤ ((1 - ρ) ^ 7 * (1 - u) ^ 46) * (1 + e)) :
    (RelError e (val (Rounded.gain R q') r) (val (K q) r) ∧
    RelError e (val (Rounded.resp R q') r) (val (Results.R q) r) ∧
    RelError e (val (Rounded.inverseK R q') r) (val (inverseK q) r) ∧
    RelError e (val (Rounded.QE R q') r) (val (QE q) r) ∧
    RelError e (val (Rounded.sigmaYDark R q') r) (val (sigmaYDark q) r) ∧
    RelError e (val (Rounded.sigmaD R q') r) (val (sigmaD q) r) ∧
    RelError e (val (Rounded.uPMin R q') r) (val (uPMin q) r) ∧
    RelError e (val (Rounded.uEMin R q') r) (val (uEMin q) r) ∧
    RelError e (val (Rounded.uESat R q') r) (val (uESat q) r) ∧
    RelError e (val (Rounded.SNRMax R q') r) (val (SNRMax q) r) ∧
    RelError e (val (Rounded.inverseSNRMax R q') r) (val (inverseSNRMax q) r) ∧
    RelError e (val (Rounded.DR R q') r) (val (DR q) r)) ∧
    RelErrorNum e (val (Rounded.uIMeanDN R q') r) (val (uIMeanDN q) r) ∧
    RelErrorNum e (val (Rounded.uIMean R q') r) (val (uIMean q) r) ∧
    RelErrorNum e (val (Rounded.uIVarDN R q') r) (val (uIVarDN q) r) ∧
    RelErrorNum e (val (Rounded.uIVar R q') r) (val (uIVar q) r) ∧
    (val (Rounded.uIVarDN R q') r = .ok .npnan ↔ v1 < 0) := by
  have hs : 0 < 1 - u := by linarith
  have hs1 : 1 - u ≤ 1 := by have := R.u_nonneg; linarith
  have hj' : val (Rounded.indexSensitivityMax R) r = .ok j := by
    rw [C95_index R hu1 r uy ud hu hd h1 i hi ys hys hys0 gap, hj]
  obtain ⟨k', ek', ck⟩ := C95_gain R hu1 q' q hq τ δ ρ hq' hτ hδ hρ hρ1.le r uy ud sy sd hu hd hsy hsd h1 h2 h3 j hj hj' hpos hx k hk hk0 htol
  obtain ⟨m', em', cm⟩ := C95_responsivity R hu1 q' q hq τ δ ρ hq' hτ hδ hρ hρ1.le r uy ud hu hd h1 h4 hf j hj hj' hpos' hx' m hm hm0 htol'
  -- the two fits against the exposure time
  have hdis := two_distinct many
  obtain ⟨m2, b2, eM, bM⟩ := linearB_fin hq r.temporal.texp ud (by omega) hdis
  obtain ⟨v2, c2, eV, bV⟩ := linearB_fin hq r.temporal.texp sd (by omega) hdis
  obtain ⟨m3, b3, m4, b4, eM', nM⟩ := C94_line q' τ δ hq' r.temporal.texp ud (by omega) hdis
  obtain ⟨v3, c3, v4, c4, eV', nV⟩ := C94_line q' τ δ hq' r.temporal.texp sd (by omega) hdis
  obtain ⟨rfl, rfl⟩ := near_exact nM hM
  obtain ⟨rfl, rfl⟩ := near_exact nV hV
  have uniq : ∀ {l : List (ℝ × ℝ)} {a b a' b' : ℝ}, BestLine l a b → BestLine l a' b' → a = a' ∧ b = b' := by
    intro l a b a' b' h h'
    refine bestLine_unique h' fun k c => ?_
    by_cases hc : (k, c) = (a, b)
    · obtain ⟨rfl, rfl⟩ := Prod.mk.inj hc
      exact le_rfl
    · exact (h k c hc).le
  obtain ⟨rfl, rfl⟩ := uniq bM hM
  obtain ⟨rfl, rfl⟩ := uniq bV hV
  have sM := C101_slope _ (zip_distinct (by omega) hdis) τ δ ρ _ _ _ _ nM hρ hρ1.le tolM
  have sV := C101_slope _ (zip_distinct (by omega) hdis) τ δ ρ _ _ _ _ nV hρ hρ1.le tolV
  have sC := C101_offset _ (zip_distinct (by omega) hdis) τ δ ρ _ _ _ _ nV hρ hρ1.le tolC
  rw [← hd] at eM eM'
  rw [← hsd] at eV eV'
  have hraw : ∀ (q : LSQ ℝ) (v c : ℝ), linearB q (r.temporal.texp.map .fin) r.temporal.s2_ydark = .ok (.fin v, .fin c) →
      val (rawDark q) r = .ok (.fin c) := fun q v c h => by
    unfold rawDark
    rw [val_bind_ok stable_few (by stab) (val_many many), val_bind_ok stable_temporal (by stab) rfl]
    simp only [Bool.false_eq_true, if_false]
    rw [h, val_bind_ok (Stable.lift _) (by stab) rfl, val_pure]
  have hc : 0 < 1 - ρ := by linarith
  have hc1 : 1 - ρ ≤ 1 := by linarith
  generalize hsd' : 1 - u = s at *
  generalize 1 - ρ = c at *
  have ht : 0 < c * s ^ 4 := by positivity
  have ht1 : c * s ^ 4 ≤ 1 := mul_le_one₀ hc1 (by positivity) (pow_le_one₀ hs.le hs1)
  have htc : c * s ^ 4 ≤ c := mul_le_of_le_one_right hc.le (pow_le_one₀ hs.le hs1)
  have main := C95_results R hu1 q' q r r (c * s ^ 4) ht ht1 (by rw [hsd']; refine hacc.trans (le_of_eq ?_); ring)
    k' k m' m p p _ _ ek' hk hk0 ck em' hm hm0 cm hp hp hp0 (Close.refl hp0.le ht1) (hraw q' _ _ eV') (hraw q _ _ eV)
    (sC.mono htc).max_zero
  have cur := C101_currents R hu1 q' q r r (c * s ^ 4) ht many many k' k _ _ _ _ _ _ _ _ ek' hk hk0 ck eM' eM (sM.mono htc)
    eV' eV (sV.mono htc)
  rw [hsd'] at main cur
  have e2 : 0 ≤ 1 + e := by
    by_contra hneg
    have : c ^ 7 * s ^ 46 * (1 + e) < 0 := mul_neg_of_pos_of_neg (by positivity) (not_le.1 hneg)
    linarith
  have key : ∀ {a b : ℕ}, a ≤ 7 → 4 * a + b ≤ 46 → 1 ≤ (c * s ^ 4) ^ a * s ^ b * (1 + e) := by
    intro a b h7 h46
    have e0 : (c * s ^ 4) ^ a * s ^ b = c ^ a * s ^ (4 * a + b) := by rw [mul_pow, ← pow_mul, mul_assoc, ← pow_add]
    have e1 : c ^ 7 * s ^ 46 ≤ c ^ a * s ^ (4 * a + b) :=
      mul_le_mul (pow_le_pow_of_le_one hc.le hc1 h7) (pow_le_pow_of_le_one hs.le hs1 h46) (by positivity) (by positivity)
    rw [e0]
    exact he.trans (mul_le_mul_of_nonneg_right e1 e2)
  have fin : ∀ {a b : ℕ} {x y : Except PyErr (Fl ℝ)}, AgreeUpTo ((c * s ^ 4) ^ a * s ^ b) x y → a ≤ 7 → 4 * a + b ≤ 46 → RelError e x y :=
    fun h h7 h46 => h.relError (by positivity) (key h7 h46)
  have finN : ∀ {a b : ℕ} {x y : Except PyErr (PyNum ℝ)}, AgreeNum ((c * s ^ 4) ^ a * s ^ b) x y → a ≤ 7 → 4 * a + b ≤ 46 →
      RelErrorNum e x y :=
    fun h h7 h46 => h.relError (by positivity) (key h7 h46)
  obtain ⟨a1, a2, a3, a4, a5, a6, a7, a8, a9, a10⟩ := main
  obtain ⟨d1, d2, d3, d4, -, d6, -⟩ := cur
  refine ⟨⟨fin (a := 1) (b := 0) ⟨_, _, ek', hk, by simpa using ck⟩ (by norm_num) (by norm_num),
    fin (a := 1) (b := 0) ⟨_, _, em', hm, by simpa using cm⟩ (by norm_num) (by norm_num),
    fin (a := 1) (b := 1) (by simpa using a1) (by norm_num) (by norm_num), fin a2 (by norm_num) (by norm_num),
    fin (a := 1) (b := 2) (by simpa using a3) (by norm_num) (by norm_num), fin a4 (by norm_num) (by norm_num),
    fin a5 (by norm_num) (by norm_num), fin a6 (by norm_num) (by norm_num), fin a7 (by norm_num) (by norm_num),
    fin a8 (by norm_num) (by norm_num), fin a9 (by norm_num) (by norm_num), fin a10 (by norm_num) (by norm_num)⟩,
    finN (a := 1) (b := 1) (by simpa using d1) (by norm_num) (by norm_num), finN d2 (by norm_num) (by norm_num),
    finN d3 (by norm_num) (by norm_num), finN d4 (by norm_num) (by norm_num), d6⟩

end
end Emva
