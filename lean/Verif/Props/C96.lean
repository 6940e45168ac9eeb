import Verif.Model.RoundedSpatial
import Verif.Lemmas.OffBy
import Verif.Props.C95
import Verif.Props.C21_C25_C26

/-!
C96: the spatial results in floating point arithmetic, from the spatial data and the gain.
-/
set_option autoImplicit false
namespace Emva
open Spec Data Results

namespace Rounded
variable {u : ℝ} (R : Rounding u) (q : LSQ ℝ)

theorem stable_s2Y (d : Bool) : Stable (s2Y R d) := by
  have := stable_sigma2YStack (F := ℝ) d; have := stable_s2YMeasured (F := ℝ) d
  unfold s2Y; stab
theorem stable_intQuot (a b : ℤ) : Stable (intQuot R a b) := by unfold intQuot; stab
theorem stable_s2YCol (d : Bool) : Stable (s2YCol R d) := by
  have := stable_s2Y R d; have := stable_s2YCav (F := ℝ) d; have := stable_s2YRav (F := ℝ) d; have := stable_intQuot R
  unfold s2YCol; stab
theorem stable_s2YRow (d : Bool) : Stable (s2YRow R d) := by
  have := stable_s2Y R d; have := stable_s2YCav (F := ℝ) d; have := stable_s2YRav (F := ℝ) d; have := stable_intQuot R
  unfold s2YRow; stab
theorem stable_s2YPixel (d : Bool) : Stable (s2YPixel R d) := by
  have := stable_s2Y R d; have := stable_s2YCav (F := ℝ) d; have := stable_s2YRav (F := ℝ) d; have := stable_intQuot R
  unfold s2YPixel; stab

theorem rval_s2Y (d : Bool) (r : Res ℝ) : val (s2Y R d) r =
    .ok (rd R ((side d r.spatial).avg_var - rd R ((side d r.spatial).var_mean / .fin ((side d r.spatial).L : ℝ)))) := rfl

theorem val_intQuot {a b : ℤ} (h : b ≠ 0) (r : Res ℝ) : val (intQuot R a b) r = .ok (.fin (R.rnd ((a : ℝ) / b))) := by
  unfold intQuot
  rw [val_bind_ok (by stab) (by stab) (a := .fin ((a : ℝ) / b)) (by rw [val_lift, intDiv_ne h]), val_pure, rd]

end Rounded

section
variable {u : ℝ} (R : Rounding u)

/-- C96: the spatial variance and its parts. If variance, temporal variance and the variances of the column and row averages are
off by a factor `g` on the scales `V`, `W`, `C` and `P`, then the spatial variance is off by two more roundings on the scale
`T = V + W / L`, and its parts by six more roundings, each on the scale of the terms it is made of. -/
theorem C96_components (r' r : Res ℝ) (d : Bool) (s' s : SpatialData ℝ) (hs' : side d r'.spatial = s') (hs : side d r.spatial = s)
    (hL : s'.L = s.L) (hM : s'.M = s.M) (hN : s'.N = s.N) (hL0 : 0 < s.L) (hMN : s.M + s.N < s.M * s.N)
    (g V W C P : ℝ) (hg : 1 ≤ g) (v' v w' w c' c p' p : ℝ)
    (hv' : s'.avg_var = .fin v') (hv : s.avg_var = .fin v) (ov : OffBy g V v' v)
    (hw' : s'.var_mean = .fin w') (hw : s.var_mean = .fin w) (ow : OffBy g W w' w)
    (hc' : s'.avg_var_cav = .fin c') (hc : s.avg_var_cav = .fin c) (oc : OffBy g C c' c)
    (hp' : s'.avg_var_rav = .fin p') (hp : s.avg_var_rav = .fin p) (op : OffBy g P p' p) :
    let T := V + W / s.L
    let m : ℝ := s.M
    let n : ℝ := s.N
    let D := m * n - m - n
    OffVal (g * (1 + u) ^ 2) T (val (Rounded.s2Y R d) r') (val (s2Y d) r) ∧
    OffVal (g * (1 + u) ^ 6) ((m * n - m) / D * C + n / D * (T + P)) (val (Rounded.s2YCol R d) r') (val (s2YCol d) r) ∧
    OffVal (g * (1 + u) ^ 6) ((m * n - n) / D * P + m / D * (T + C)) (val (Rounded.s2YRow R d) r') (val (s2YRow d) r) ∧
    OffVal (g * (1 + u) ^ 6) (m * n / D * (T + C + P)) (val (Rounded.s2YPixel R d) r') (val (s2YPixel d) r) := by
  intro T m n D
  have hu := R.u_nonneg
  have U : ∀ k : ℕ, 1 ≤ (1 + u) ^ k := fun k => one_le_pow₀ (by linarith)
  have gU : ∀ k : ℕ, 1 ≤ g * (1 + u) ^ k := fun k => one_le_mul_of_one_le_of_one_le hg (U k)
  have hLR : (s.L : ℝ) ≠ 0 := by exact_mod_cast hL0.ne'
  have hz : (s.M : ℤ) * s.N - s.M - s.N ≠ 0 := by
    have : (s.M : ℤ) + s.N < s.M * s.N := by exact_mod_cast hMN
    omega
  have hD : 0 < D := by
    have : (s.M : ℝ) + s.N < s.M * s.N := by exact_mod_cast hMN
    show 0 < (s.M : ℝ) * s.N - s.M - s.N
    linarith
  have hm : 0 ≤ m := Nat.cast_nonneg _
  have hn : 0 ≤ n := Nat.cast_nonneg _
  have hm1 : 0 ≤ m * n - m := by have : 0 < m * n - m - n := hD; linarith
  have hn1 : 0 ≤ m * n - n := by have : 0 < m * n - m - n := hD; linarith
  -- growth by one rounding, and to a common factor
  have rd : ∀ {k : ℕ} {A x y : ℝ}, OffBy (g * (1 + u) ^ k) A x y → OffBy (g * (1 + u) ^ (k + 1)) A (R.rnd x) y :=
    fun {k A x y} H => by
      have := OffBy.rnd R H
      rwa [mul_assoc, ← pow_succ] at this
  have up : ∀ {k l : ℕ} {A x y : ℝ}, OffBy (g * (1 + u) ^ k) A x y → k ≤ l → OffBy (g * (1 + u) ^ l) A x y :=
    fun {k l A x y} H h => OffBy.mono H (mul_le_mul_of_nonneg_left (pow_le_pow_right₀ (by linarith) h) (by linarith)) le_rfl (gU k)
  have Z : ∀ {A x y : ℝ}, OffBy g A x y → OffBy (g * (1 + u) ^ 0) A x y := fun H => by simpa using H
  have co : ∀ {a : ℝ}, 0 ≤ a → OffBy (1 + u) a (R.rnd a) a := fun h => by
    simpa using OffBy.rnd R (OffBy.exact (abs_of_nonneg h).le)
  have mul : ∀ {k : ℕ} {a A x y : ℝ}, 0 ≤ a → OffBy (g * (1 + u) ^ k) A x y →
      OffBy (g * (1 + u) ^ (k + 2)) (a * A) (R.rnd (R.rnd a * x)) (a * y) := fun {k a A x y} h H => by
    have := rd (k := k + 1) (by
      have := OffBy.mul (co h) H (by linarith)
      rwa [show (1 + u) * (g * (1 + u) ^ k) = g * (1 + u) ^ (k + 1) by ring] at this)
    exact this
  -- the spatial variance
  have et' : val (Rounded.s2Y R d) r' = .ok (.fin (R.rnd (v' - R.rnd (w' / s.L)))) := by
    rw [Rounded.rval_s2Y, hs', hv', hw', hL, Fl.fin_div hLR, Rounded.rd, Fl.fin_sub, Rounded.rd]
  have et : val (s2Y d) r = .ok (.fin (v - w / s.L)) := by
    rw [val_s2Y, hs, hv, hw, Fl.fin_div hLR, Fl.fin_sub]
  have ot : OffBy (g * (1 + u) ^ 2) T (R.rnd (v' - R.rnd (w' / s.L))) (v - w / s.L) :=
    rd (OffBy.sub (up (Z ov) (by norm_num)) (rd (Z (OffBy.div_nat ow s.L))))
  generalize R.rnd (v' - R.rnd (w' / s.L)) = t' at et' ot
  generalize v - w / (s.L : ℝ) = t at et ot
  have sT := Rounded.stable_s2Y R d
  have sC := stable_s2YCav (F := ℝ) d
  have sP := stable_s2YRav (F := ℝ) d
  have sI := Rounded.stable_intQuot R
  have ec : val (s2YCav d) r' = .ok (.fin c') := by rw [val_cav, hs', hc']
  have ep : val (s2YRav d) r' = .ok (.fin p') := by rw [val_rav, hs', hp']
  obtain ⟨e1, e2, e3⟩ := val_rcp d r s hs
  rw [et, intDiv_ne hz, intDiv_ne hz, hc, hp] at e1 e2
  rw [et, intDiv_ne hz, hc, hp] at e3
  simp only [except_bind_ok, Fl.fin_mul, Fl.fin_sub, Int.cast_sub, Int.cast_mul, Int.cast_natCast] at e1 e2 e3
  have quot : ∀ a : ℤ, val (Rounded.intQuot R a ((s.M : ℤ) * s.N - s.M - s.N)) r' = .ok (.fin (R.rnd ((a : ℝ) / D))) := fun a => by
    rw [Rounded.val_intQuot R hz]
    push_cast
    rfl
  refine ⟨⟨t', t, et', et, ot⟩, ⟨R.rnd (R.rnd (R.rnd ((m * n - m) / D) * c') - R.rnd (R.rnd (n / D) * R.rnd (t' - p'))), _, ?_, e2,
    rd (OffBy.sub (up (mul (div_nonneg hm1 hD.le) (Z oc)) (by norm_num))
      (mul (div_nonneg hn hD.le) (rd (OffBy.sub ot (up (Z op) (by norm_num))))))⟩,
    ⟨R.rnd (R.rnd (R.rnd ((m * n - n) / D) * p') - R.rnd (R.rnd (m / D) * R.rnd (t' - c'))), _, ?_, e1,
    rd (OffBy.sub (up (mul (div_nonneg hn1 hD.le) (Z op)) (by norm_num))
      (mul (div_nonneg hm hD.le) (rd (OffBy.sub ot (up (Z oc) (by norm_num))))))⟩,
    ⟨R.rnd (R.rnd (m * n / D) * R.rnd (R.rnd (t' - c') - p')), _, ?_, e3,
    mul (div_nonneg (mul_nonneg hm hn) hD.le)
      (rd (OffBy.sub (rd (OffBy.sub ot (up (Z oc) (by norm_num)))) (up (Z op) (by norm_num))))⟩⟩
  · unfold Rounded.s2YCol
    rw [val_bind_ok (stable_spat _) (by stab) (val_spat d r')]
    simp only [hs', hM, hN]
    rw [val_bind_ok (sI _ _) (by stab) (quot _), val_bind_ok (sI _ _) (by stab) (quot _), val_bind_ok sC (by stab) ec,
      val_bind_ok sT (by stab) et', val_bind_ok sP (by stab) ep, val_pure]
    simp only [Fl.fin_mul, Fl.fin_sub, Rounded.rd]
    push_cast
    rfl
  · unfold Rounded.s2YRow
    rw [val_bind_ok (stable_spat _) (by stab) (val_spat d r')]
    simp only [hs', hM, hN]
    rw [val_bind_ok (sI _ _) (by stab) (quot _), val_bind_ok (sI _ _) (by stab) (quot _), val_bind_ok sP (by stab) ep,
      val_bind_ok sT (by stab) et', val_bind_ok sC (by stab) ec, val_pure]
    simp only [Fl.fin_mul, Fl.fin_sub, Rounded.rd]
    push_cast
    rfl
  · unfold Rounded.s2YPixel
    rw [val_bind_ok (stable_spat _) (by stab) (val_spat d r')]
    simp only [hs', hM, hN]
    rw [val_bind_ok (sI _ _) (by stab) (quot _), val_bind_ok sT (by stab) et', val_bind_ok sC (by stab) ec,
      val_bind_ok sP (by stab) ep, val_pure]
    simp only [Fl.fin_mul, Fl.fin_sub, Rounded.rd]
    push_cast
    rfl

/-- C96: the dark nonuniformities. A variance whose error is at most the fraction `ρ` of it gives the standard deviation in
electrons up to a factor `1 - ρ`, that of the gain and two roundings; in particular it is a number and not `np.nan`. -/
theorem C96_dsnu (hu : u < 1) (q' q : LSQ ℝ) (r' r : Res ℝ) (x' x : M ℝ (Fl ℝ)) (st' : Stable x') (st : Stable x)
    (h W ρ b t k' k : ℝ) (hx : OffVal h W (val x' r') (val x r)) (hb : val x r = .ok (.fin b)) (hb0 : 0 < b)
    (hρ : (h - 1) * W ≤ ρ * b) (hρ1 : ρ < 1) (ht : 0 < t)
    (hK' : val (Rounded.gain R q') r' = .ok (.fin k')) (hK : val (K q) r = .ok (.fin k)) (hk : 0 < k) (ck : Close t k' k) :
    ∃ a y, val (Rounded.dsnu R q' x') r' = .ok (.num (.fin a)) ∧ val (dsnu q x) r = .ok (.num (.fin y)) ∧
      y = Real.sqrt b / k ∧ Close ((1 - ρ) * t * (1 - u) ^ 2) a y := by
  obtain ⟨a, b', ea, eb, H⟩ := hx
  rw [hb] at eb
  obtain rfl : b = b' := by simpa using eb
  have c := H.close hb0 hρ hρ1.le
  have hs : 0 < 1 - u := by linarith
  have hρ0 : 0 < 1 - ρ := by linarith
  have ha : 0 < a := Close.pos c hρ0 hb0
  have hρn : 1 - ρ ≤ 1 := by
    have h1 := (abs_nonneg _).trans (H.1.trans hρ)
    have : 0 ≤ ρ := by
      by_contra hc
      exact absurd h1 (not_le.2 (mul_neg_of_neg_of_pos (not_le.1 hc) hb0))
    linarith
  have hk' : 0 < k' := Close.pos ck ht hk
  have sK' := Rounded.stable_gain R q'
  have sK := stable_K q
  refine ⟨R.rnd (R.rnd (Real.sqrt a) / k'), Real.sqrt b / k, ?_, ?_, rfl, ?_⟩
  · unfold Rounded.dsnu
    rw [val_bind_ok st' (by stab) ea, if_neg (by simpa using ha.le), val_bind_ok st' (by stab) ea, val_bind_ok sK' (by stab) hK',
      val_pure, Fl.sqrt_fin ha.le, Rounded.rd, Fl.fin_div hk'.ne', Rounded.rd]
  · unfold dsnu
    rw [val_bind_ok st (by stab) hb, if_neg (by simpa using hb0.le), val_bind_ok st (by stab) hb, val_bind_ok sK (by stab) hK,
      val_pure, Fl.sqrt_fin hb0.le, Fl.fin_div hk.ne']
  · have c1 := Close.sqrt c hρ0.le hρn
    have c2 := Close.trans (Close.rnd R hu.le c1.1) c1 hs.le hρ0.le
    have c3 := Close.div c2 ck (by positivity) ht hk
    have c4 := Close.trans (Close.rnd R hu.le c3.1) c3 hs.le (by positivity)
    rwa [show (1 - u) * ((1 - u) * (1 - ρ) * t) = (1 - ρ) * t * (1 - u) ^ 2 by ring] at c4

/-- C96: the photo response nonuniformities. If the error of the two variances is at most the fraction `ρ` of their difference
and that of the two means at most the fraction `σ` of theirs, the result agrees up to a factor `(1 - ρ) (1 - σ)` and three
roundings. -/
theorem C96_prnu (hu : u < 1) (r' r : Res ℝ) (x' x : Bool → M ℝ (Fl ℝ)) (st' : ∀ d, Stable (x' d)) (st : ∀ d, Stable (x d))
    (h Wb Wd ρ σ b d e : ℝ) (hb : OffVal h Wb (val (x' false) r') (val (x false) r)) (hd : OffVal h Wd (val (x' true) r') (val (x true) r))
    (eb : val (x false) r = .ok (.fin b)) (ed : val (x true) r = .ok (.fin d)) (hbd : d < b)
    (hρ : (h * (1 + u) - 1) * (Wb + Wd) ≤ ρ * (b - d)) (hρ1 : ρ < 1)
    (μb' μb μd' μd Vb Vd : ℝ)
    (eμb' : r'.spatial.bright.avg_mean = .fin μb') (eμb : r.spatial.bright.avg_mean = .fin μb) (ob : OffBy e Vb μb' μb)
    (eμd' : r'.spatial.dark.avg_mean = .fin μd') (eμd : r.spatial.dark.avg_mean = .fin μd) (od : OffBy e Vd μd' μd)
    (hμ : μd < μb) (hσ : (e * (1 + u) - 1) * (Vb + Vd) ≤ σ * (μb - μd)) (hσ1 : σ < 1) :
    ∃ a y, val (Rounded.prnu R x') r' = .ok (.fin a) ∧ val (prnu x) r = .ok (.fin y) ∧
      y = Real.sqrt (b - d) * 100 / (μb - μd) ∧ Close ((1 - ρ) * (1 - σ) * (1 - u) ^ 3) a y := by
  obtain ⟨b', b2, eb', eb2, Hb⟩ := hb
  rw [eb] at eb2
  obtain rfl : b = b2 := by simpa using eb2
  obtain ⟨d', d2, ed', ed2, Hd⟩ := hd
  rw [ed] at ed2
  obtain rfl : d = d2 := by simpa using ed2
  have hs : 0 < 1 - u := by linarith
  have hρ0 : 0 < 1 - ρ := by linarith
  have hσ0 : 0 < 1 - σ := by linarith
  have hbd0 : 0 < b - d := sub_pos.2 hbd
  have hμ0 : 0 < μb - μd := sub_pos.2 hμ
  have H1 := OffBy.rnd R (OffBy.sub Hb Hd)
  have H2 := OffBy.rnd R (OffBy.sub ob od)
  have c1 := H1.close hbd0 hρ hρ1.le
  have c2 := H2.close hμ0 hσ hσ1.le
  have hρn : 1 - ρ ≤ 1 := by
    have h1 := (abs_nonneg _).trans (H1.1.trans hρ)
    have : 0 ≤ ρ := by
      by_contra hc
      exact absurd h1 (not_le.2 (mul_neg_of_neg_of_pos (not_le.1 hc) hbd0))
    linarith
  have s1 := st' false
  have s2 := st' true
  have s3 := st false
  have s4 := st true
  have p2 := Close.pos c2 hσ0 hμ0
  refine ⟨R.rnd (R.rnd (R.rnd (Real.sqrt (R.rnd (b' - d'))) * 100) / R.rnd (μb' - μd')), Real.sqrt (b - d) * 100 / (μb - μd),
    ?_, ?_, rfl, ?_⟩
  · unfold Rounded.prnu
    rw [val_bind_ok s1 (by stab) eb', val_bind_ok s2 (by stab) ed', val_bind_ok (stable_spat _) (by stab) (val_spat false r'),
      val_bind_ok (stable_spat _) (by stab) (val_spat true r'), val_pure]
    simp only [side, Bool.false_eq_true, if_false, if_true]
    rw [eμb', eμd', Fl.fin_sub, Fl.fin_sub, Rounded.rd, Fl.sqrt_fin c1.1, Rounded.rd, Fl.fin_mul, Rounded.rd, Rounded.rd,
      Fl.fin_div p2.ne', Rounded.rd]
  · unfold prnu
    rw [val_bind_ok s3 (by stab) eb, val_bind_ok s4 (by stab) ed, val_bind_ok (stable_spat _) (by stab) (val_spat false r),
      val_bind_ok (stable_spat _) (by stab) (val_spat true r), val_pure]
    simp only [side, Bool.false_eq_true, if_false, if_true]
    rw [eμb, eμd, Fl.fin_sub, Fl.fin_sub, Fl.sqrt_fin hbd0.le, Fl.fin_mul, Fl.fin_div hμ0.ne']
  · have d1 := Close.sqrt c1 hρ0.le hρn
    have d2 := Close.trans (Close.rnd R hu.le d1.1) d1 hs.le hρ0.le
    have d3 := Close.mul d2 (Close.refl (a := (100 : ℝ)) (t := 1) (by norm_num) le_rfl) (by positivity) zero_le_one
    have d4 := Close.trans (Close.rnd R hu.le d3.1) d3 hs.le (by positivity)
    have d5 := Close.div d4 c2 (by positivity) hσ0 hμ0
    have d6 := Close.trans (Close.rnd R hu.le d5.1) d5 hs.le (by positivity)
    rwa [show (1 - u) * ((1 - u) * ((1 - u) * (1 - ρ) * 1) * (1 - σ)) = (1 - ρ) * (1 - σ) * (1 - u) ^ 3 by ring] at d6

end
end Emva
