import Verif.Model.RoundedDark
import Verif.Spec.SignedClose
import Verif.Props.C95Data

/-!
C101: the dark noise and the dark currents in floating point arithmetic.
-/
set_option autoImplicit false
namespace Emva
open Spec Data Results Fit

/-- both attributes are the object `np.nan`, or both are numbers that agree up to the factor `f` -/
def Spec.AgreeNum (f : ℝ) (x y : Except PyErr (PyNum ℝ)) : Prop :=
  (x = .ok .npnan ∧ y = .ok .npnan) ∨ ∃ a b, x = .ok (.num (.fin a)) ∧ y = .ok (.num (.fin b)) ∧ SignedClose f a b

namespace Spec.SignedClose
variable {t s a b c d : ℝ}

theorem rnd {u : ℝ} (R : Rounding u) (hu : u ≤ 1) (x : ℝ) : SignedClose (1 - u) (R.rnd x) x := by
  rcases le_total 0 x with h | h
  · exact .inl (Close.rnd R hu h)
  · refine .inr ?_
    have e := R.err x
    have h0 := R.u_nonneg
    rw [abs_of_nonpos h] at e
    obtain ⟨h1, h2⟩ := abs_le.1 e
    have h3 : 0 ≤ (1 - u) * -x := mul_nonneg (by linarith) (by linarith)
    refine ⟨by linarith, by linarith, by linarith, ?_⟩
    have h4 : (1 - u) * -R.rnd x ≤ (1 - u) * ((1 + u) * -x) := mul_le_mul_of_nonneg_left (by linarith) (by linarith)
    have h5 : 0 ≤ u ^ 2 * -x := mul_nonneg (sq_nonneg u) (by linarith)
    nlinarith

theorem trans (h : SignedClose t a b) (h' : SignedClose s b c) (ht : 0 < t) (hs : 0 < s) : SignedClose (t * s) a c := by
  have zero : ∀ {x : ℝ}, 0 ≤ x → s * x ≤ 0 → x = 0 := fun hx hsx => le_antisymm (by
    by_contra hc
    exact absurd (mul_pos hs (not_le.1 hc)) (not_lt.2 hsx)) hx
  have zero' : ∀ {x : ℝ}, 0 ≤ x → t * x ≤ 0 → x = 0 := fun hx hsx => le_antisymm (by
    by_contra hc
    exact absurd (mul_pos ht (not_le.1 hc)) (not_lt.2 hsx)) hx
  have key : ∀ {a b c : ℝ}, Close t a b → Close s (-b) (-c) → SignedClose (t * s) a c := fun {a b c} h h' => by
    obtain rfl : b = 0 := le_antisymm (by linarith [h'.1]) h.2.1
    obtain rfl : a = 0 := zero' h.1 h.2.2.2
    have hc : -c = 0 := zero h'.2.1 (by simpa using h'.2.2.1)
    obtain rfl : c = 0 := by linarith
    exact .inl ⟨le_rfl, le_rfl, by simp, by simp⟩
  rcases h with h | h <;> rcases h' with h' | h'
  · exact .inl (Close.trans h h' ht.le hs.le)
  · exact key h h'
  · have := key (a := -a) (b := -b) (c := -c) h (by simpa using h')
    rcases this with h | h
    · exact .inr h
    · exact .inl (by simpa using h)
  · exact .inr (Close.trans h h' ht.le hs.le)

theorem mul (h : SignedClose t a b) (h' : Close s c d) (ht : 0 ≤ t) (hs : 0 ≤ s) : SignedClose (t * s) (a * c) (b * d) := by
  rcases h with h | h
  · exact .inl (Close.mul h h' ht hs)
  · exact .inr (by simpa using Close.mul h h' ht hs)

theorem div (h : SignedClose t a b) (h' : Close s c d) (ht : 0 ≤ t) (hs : 0 < s) (hd : 0 < d) :
    SignedClose (t * s) (a / c) (b / d) := by
  rcases h with h | h
  · exact .inl (Close.div h h' ht hs hd)
  · refine .inr ?_
    have := Close.div h h' ht hs hd
    rwa [neg_div, neg_div] at this

theorem mono (h : SignedClose t a b) (hs : s ≤ t) : SignedClose s a b := h.imp (fun h => Close.mono h hs) (fun h => Close.mono h hs)

theorem neg_iff (h : SignedClose t a b) (ht : 0 < t) : a < 0 ↔ b < 0 := by
  rcases h with h | h
  · exact ⟨fun h' => absurd h.1 (not_le.2 h'), fun h' => absurd h.2.1 (not_le.2 h')⟩
  · constructor
    · intro h'
      have := (mul_pos ht (by linarith : 0 < -a)).trans_le h.2.2.2
      linarith
    · intro h'
      have := (mul_pos ht (by linarith : 0 < -b)).trans_le h.2.2.1
      linarith

theorem max_zero (h : SignedClose t a b) : Close t (max a 0) (max b 0) := by
  rcases h with h | h
  · rwa [max_eq_left h.1, max_eq_left h.2.1]
  · rw [max_eq_right (by linarith [h.1]), max_eq_right (by linarith [h.2.1])]
    exact ⟨le_rfl, le_rfl, by simp, by simp⟩

theorem rel (h : SignedClose t a b) (ht : 0 < t) : |a - b| ≤ (1 / t - 1) * |b| := by
  rcases h with h | h
  · rw [abs_of_nonneg h.2.1]; exact Close.rel h ht
  · have := Close.rel h ht
    rw [abs_of_nonpos (by linarith [h.2.1] : b ≤ 0)]
    rwa [show -a - -b = -(a - b) by ring, abs_neg] at this

theorem of_abs {ρ : ℝ} (h : |a - b| ≤ ρ * |b|) (hρ : ρ ≤ 1) : SignedClose (1 - ρ) a b := by
  rcases lt_trichotomy b 0 with hb | rfl | hb
  · refine .inr (Close.of_abs (by linarith) ?_ hρ)
    rw [abs_of_neg hb] at h
    rwa [show -a - -b = -(a - b) by ring, abs_neg]
  · obtain rfl : a = 0 := by simpa using h
    exact .inl ⟨le_rfl, le_rfl, by simp, by simp⟩
  · rw [abs_of_pos hb] at h
    exact .inl (Close.of_abs hb h hρ)

end Spec.SignedClose

theorem Spec.AgreeNum.relError {f e : ℝ} {x y : Except PyErr (PyNum ℝ)} (h : AgreeNum f x y) (hf : 0 < f) (he : 1 ≤ f * (1 + e)) :
    RelErrorNum e x y := by
  rcases h with h | ⟨a, b, h1, h2, c⟩
  · exact .inl h
  · refine .inr ⟨a, b, h1, h2, (c.rel hf).trans (mul_le_mul_of_nonneg_right ?_ (abs_nonneg _))⟩
    rw [sub_le_iff_le_add, div_le_iff₀ hf]
    linarith

namespace Rounded
variable {u : ℝ} (R : Rounding u) (q : LSQ ℝ)

theorem stable_uIVarDN : Stable (uIVarDN R q) := by
  have := stable_gain R q; unfold uIVarDN; stab
theorem stable_uIMeanDN : Stable (uIMeanDN R q) := by
  unfold uIMeanDN; stab

theorem val_overK {x : M ℝ (PyNum ℝ)} (hx : Stable x) (r : Res ℝ) :
    (val x r = .ok .npnan → val (Rounded.overK R q x) r = .ok .npnan) ∧
    (∀ v k, val x r = .ok (.num v) → val (gain R q) r = .ok k →
      val (Rounded.overK R q x) r = .ok (.num (rd R (v / k)))) := by
  have sK := stable_gain R q
  constructor
  · intro h
    unfold Rounded.overK
    rw [val_bind_ok hx (by rintro (_ | _ | _) <;> stab) h, val_pure]
  · intro v k h hk
    unfold Rounded.overK
    rw [val_bind_ok hx (by rintro (_ | _ | _) <;> stab) h]
    show val (do let k ← gain R q; pure (PyNum.num (rd R (v / k)))) r = _
    rw [val_bind_ok sK (by stab) hk, val_pure]

end Rounded

section
variable {u : ℝ} (R : Rounding u)

/-- C101: with at most two exposure times the four dark currents are `np.nan` in floating point, as they are in exact arithmetic. -/
theorem C101_few (q : LSQ ℝ) (r : Res ℝ) (few : r.temporal.texp.toFinset.card ≤ 2) :
    val (Rounded.uIMeanDN R q) r = .ok .npnan ∧ val (Rounded.uIMean R q) r = .ok .npnan ∧
    val (Rounded.uIVarDN R q) r = .ok .npnan ∧ val (Rounded.uIVar R q) r = .ok .npnan := by
  have hf : val (fewExposures (F := ℝ)) r = .ok true := by
    show Except.ok (decide _) = _
    rw [decide_eq_true (by rw [nUnique_eq]; exact few)]
  have sK := Rounded.stable_gain R q
  have h1 : val (Rounded.uIMeanDN R q) r = .ok .npnan := by
    unfold Rounded.uIMeanDN
    rw [val_bind_ok stable_few (by stab) hf, if_pos rfl, val_pure]
  have h2 : val (Rounded.uIVarDN R q) r = .ok .npnan := by
    unfold Rounded.uIVarDN
    rw [val_bind_ok stable_few (by stab) hf, if_pos rfl, val_pure]
  exact ⟨h1, (Rounded.val_overK R q (Rounded.stable_uIMeanDN R q) r).1 h1, h2,
    (Rounded.val_overK R q (Rounded.stable_uIVarDN R q) r).1 h2⟩

/-- C101: if the gain and the slopes of the two fits in floating point agree with the exact ones up to a factor `t`, so do the four
dark currents, up to a power of `t` and one factor `1 - u` for each operation; the currents from the variance are `np.nan` in both
arithmetics or in none, exactly if the slope is negative. -/
theorem C101_currents (hu : u < 1) (q' q : LSQ ℝ) (r' r : Res ℝ) (t : ℝ) (ht : 0 < t)
    (hT' : 2 < r'.temporal.texp.toFinset.card) (hT : 2 < r.temporal.texp.toFinset.card) (k' k m' b' m b v' c' v c : ℝ)
    (hK' : val (Rounded.gain R q') r' = .ok (.fin k')) (hK : val (K q) r = .ok (.fin k)) (hk : 0 < k) (ck : Close t k' k)
    (hM' : linearB q' (r'.temporal.texp.map .fin) r'.temporal.u_ydark = .ok (.fin m', .fin b'))
    (hM : linearB q (r.temporal.texp.map .fin) r.temporal.u_ydark = .ok (.fin m, .fin b)) (cm : SignedClose t m' m)
    (hV' : linearB q' (r'.temporal.texp.map .fin) r'.temporal.s2_ydark = .ok (.fin v', .fin c'))
    (hV : linearB q (r.temporal.texp.map .fin) r.temporal.s2_ydark = .ok (.fin v, .fin c)) (cv : SignedClose t v' v) :
    let s := 1 - u
    AgreeNum (t * s) (val (Rounded.uIMeanDN R q') r') (val (uIMeanDN q) r) ∧
    AgreeNum (t ^ 2 * s ^ 2) (val (Rounded.uIMean R q') r') (val (uIMean q) r) ∧
    AgreeNum (t ^ 2 * s ^ 2) (val (Rounded.uIVarDN R q') r') (val (uIVarDN q) r) ∧
    AgreeNum (t ^ 3 * s ^ 3) (val (Rounded.uIVar R q') r') (val (uIVar q) r) ∧
    (val (Rounded.uIMeanDN R q') r' ≠ .ok .npnan ∧ val (Rounded.uIMean R q') r' ≠ .ok .npnan) ∧
    (val (Rounded.uIVarDN R q') r' = .ok .npnan ↔ v < 0) ∧ (val (Rounded.uIVar R q') r' = .ok .npnan ↔ v < 0) := by
  intro s
  have hs : 0 < s := by show 0 < 1 - u; linarith
  have rn : ∀ x : ℝ, SignedClose s (R.rnd x) x := fun x => SignedClose.rnd R hu.le x
  have hk' : 0 < k' := Close.pos ck ht hk
  have sK' := Rounded.stable_gain R q'
  have sK := stable_K q
  have c9 : Close 1 (10 ^ 9 : ℝ) (10 ^ 9) := Close.refl (by norm_num) le_rfl
  -- the mean
  have em' : val (Rounded.uIMeanDN R q') r' = .ok (.num (.fin (R.rnd (m' * 10 ^ 9)))) := by
    unfold Rounded.uIMeanDN
    rw [val_bind_ok stable_few (by stab) (val_many hT')]
    simp only [Bool.false_eq_true, if_false]
    rw [val_bind_ok stable_temporal (by stab) rfl, hM', val_bind_ok (Stable.lift _) (by stab) rfl, val_pure]
    rfl
  have em : val (uIMeanDN q) r = .ok (.num (.fin (m * 10 ^ 9))) := by
    unfold uIMeanDN
    rw [val_bind_ok stable_few (by stab) (val_many hT)]
    simp only [Bool.false_eq_true, if_false]
    rw [val_bind_ok stable_temporal (by stab) rfl, hM, val_bind_ok (Stable.lift _) (by stab) rfl, val_pure]
    rfl
  have cm1 : SignedClose (t * s) (R.rnd (m' * 10 ^ 9)) (m * 10 ^ 9) := by
    have := (rn (m' * 10 ^ 9)).trans (cm.mul c9 ht.le zero_le_one) hs (by positivity)
    rwa [show s * (t * 1) = t * s by ring] at this
  have eM' := (Rounded.val_overK R q' (Rounded.stable_uIMeanDN R q') r').2 _ _ em' hK'
  have eM := (val_overK q (stable_uIMeanDN q) r).2 _ _ em hK
  rw [Fl.fin_div hk'.ne', Rounded.rd] at eM'
  rw [Fl.fin_div hk.ne'] at eM
  have cm2 := (rn (R.rnd (m' * 10 ^ 9) / k')).trans (cm1.div ck (by positivity) ht hk) hs (by positivity)
  rw [show s * (t * s * t) = t ^ 2 * s ^ 2 by ring] at cm2
  -- the variance
  have ev' : val (Rounded.uIVarDN R q') r' =
      .ok (if v' < 0 then .npnan else .num (.fin (R.rnd (R.rnd (v' / k') * 10 ^ 9)))) := by
    unfold Rounded.uIVarDN
    rw [val_bind_ok stable_few (by stab) (val_many hT')]
    simp only [Bool.false_eq_true, if_false]
    rw [val_bind_ok stable_temporal (by stab) rfl, hV', val_bind_ok (Stable.lift _) (by stab) rfl]
    by_cases h : v' < 0
    · rw [if_pos h, if_pos (show Fl.lt (.fin v') (.fin 0) = true from decide_eq_true h), val_pure]
    · rw [if_neg h, if_neg (show ¬ Fl.lt (.fin v') (.fin 0) = true by simpa using h), val_bind_ok sK' (by stab) hK', val_pure]
      show Except.ok (PyNum.num (Rounded.rd R (Rounded.rd R (.fin v' / .fin k') * .fin (10 ^ 9)))) = _
      rw [Fl.fin_div hk'.ne']
      rfl
  have ev : val (uIVarDN q) r = .ok (if v < 0 then .npnan else .num (.fin (v / k * 10 ^ 9))) := by
    unfold uIVarDN
    rw [val_bind_ok stable_few (by stab) (val_many hT)]
    simp only [Bool.false_eq_true, if_false]
    rw [val_bind_ok stable_temporal (by stab) rfl, hV, val_bind_ok (Stable.lift _) (by stab) rfl]
    by_cases h : v < 0
    · rw [if_pos h, if_pos (show Fl.lt (.fin v) (.fin 0) = true from decide_eq_true h), val_pure]
    · rw [if_neg h, if_neg (show ¬ Fl.lt (.fin v) (.fin 0) = true by simpa using h), val_bind_ok sK (by stab) hK, val_pure]
      show Except.ok (PyNum.num ((.fin v / .fin k : Fl ℝ) * .fin (10 ^ 9))) = _
      rw [Fl.fin_div hk.ne']
      rfl
  refine ⟨.inr ⟨_, _, em', em, cm1⟩, .inr ⟨_, _, eM', eM, cm2⟩, ?_⟩
  rw [em', show val (Rounded.uIMean R q') r' = _ from eM']
  by_cases h : v < 0
  · have h' : v' < 0 := (cv.neg_iff ht).2 h
    rw [if_pos h'] at ev'
    rw [if_pos h] at ev
    have eV' := (Rounded.val_overK R q' (Rounded.stable_uIVarDN R q') r').1 ev'
    have eV := (val_overK q (stable_uIVarDN q) r).1 ev
    exact ⟨.inl ⟨ev', ev⟩, .inl ⟨eV', eV⟩, ⟨by simp, by simp⟩, iff_of_true ev' h, iff_of_true eV' h⟩
  · have h' : ¬ v' < 0 := fun hn => h ((cv.neg_iff ht).1 hn)
    rw [if_neg h'] at ev'
    rw [if_neg h] at ev
    have eV' := (Rounded.val_overK R q' (Rounded.stable_uIVarDN R q') r').2 _ _ ev' hK'
    have eV := (val_overK q (stable_uIVarDN q) r).2 _ _ ev hK
    rw [Fl.fin_div hk'.ne', Rounded.rd] at eV'
    rw [Fl.fin_div hk.ne'] at eV
    have d1 := (rn (v' / k')).trans (cv.div ck ht.le ht hk) hs (by positivity)
    have d2 := (rn (R.rnd (v' / k') * 10 ^ 9)).trans (d1.mul c9 (by positivity) zero_le_one) hs (by positivity)
    have d3 := (rn (R.rnd (R.rnd (v' / k') * 10 ^ 9) / k')).trans (d2.div ck (by positivity) ht hk) hs (by positivity)
    rw [show s * (s * (t * t) * 1) = t ^ 2 * s ^ 2 by ring] at d2
    rw [show s * (s * (s * (t * t) * 1) * t) = t ^ 3 * s ^ 3 by ring] at d3
    refine ⟨.inr ⟨_, _, ev', ev, d2⟩, .inr ⟨_, _, eV', eV, d3⟩, ⟨by simp, by simp⟩, iff_of_false ?_ h, iff_of_false ?_ h⟩
    · rw [ev']; simp
    · rw [show val (Rounded.uIVar R q') r' = _ from eV']; simp

end

/-- C101: a line found by a solver with tolerance has nearly the slope of the best line, if the tolerance is small against the slope. -/
theorem C101_slope (l : List (ℝ × ℝ)) (hx : ∃ p ∈ l, ∃ p' ∈ l, p.1 ≠ p'.1) (τ δ ρ m b m0 b0 : ℝ) (hn : NearLine τ δ l m b m0 b0)
    (hρ : 0 ≤ ρ) (hρ1 : ρ ≤ 1) (htol : τ * sqErr l m0 b0 + δ ≤ (ρ * m0) ^ 2 * spread l) : SignedClose (1 - ρ) m m0 := by
  have hl : l ≠ [] := by obtain ⟨p, hp, -⟩ := hx; exact List.ne_nil_of_mem hp
  have hlen : 0 < (l.length : ℝ) := by exact_mod_cast List.length_pos_of_ne_nil hl
  have hs : 0 < spread l := by
    have := disc_pos hx
    rw [disc_eq l hl, ← spread_eq] at this
    exact pos_of_mul_pos_right this hlen.le
  have h := le_of_mul_le_mul_right (hn.2.2.trans htol) hs
  refine SignedClose.of_abs ?_ hρ1
  have := abs_le_of_sq_le_sq (a := m - m0) (b := |ρ * m0|) (by rwa [sq_abs]) (abs_nonneg _)
  rwa [abs_mul, abs_of_nonneg hρ] at this

theorem lever_eq (l : List (ℝ × ℝ)) (hx : ∃ p ∈ l, p.1 ≠ 0) : lever l = l.length - Sx l * Sx l / Sxx l := by
  have hp := (Sxx_pos hx).ne'
  have : lever l = S (fun p => (-(Sx l / Sxx l) * p.1 + 1) ^ 2) l := by
    refine S_congr (f := fun p => (1 - p.1 * ((l.map (·.1)).sum / weight l)) ^ 2) fun p _ => ?_
    rw [weight_eq]
    show (1 - p.1 * (Sx l / Sxx l)) ^ 2 = _
    ring
  rw [this, S_line]
  field_simp
  ring

/-- C101: it has nearly the same offset, if the tolerance is small against the offset. -/
theorem C101_offset (l : List (ℝ × ℝ)) (hx : ∃ p ∈ l, ∃ p' ∈ l, p.1 ≠ p'.1) (τ δ ρ m b m0 b0 : ℝ) (hn : NearLine τ δ l m b m0 b0)
    (hρ : 0 ≤ ρ) (hρ1 : ρ ≤ 1) (htol : τ * sqErr l m0 b0 + δ ≤ (ρ * b0) ^ 2 * lever l) : SignedClose (1 - ρ) b b0 := by
  have hx0 : ∃ p ∈ l, p.1 ≠ 0 := by
    obtain ⟨p, hp, p', hp', hne⟩ := hx
    by_cases h : p.1 = 0
    · exact ⟨p', hp', fun h' => hne (h.trans h'.symm)⟩
    · exact ⟨p, hp, h⟩
  have hp := Sxx_pos hx0
  have hlev : 0 < lever l := by
    have := disc_pos hx
    rw [lever_eq l hx0, sub_pos, div_lt_iff₀ hp]
    linarith
  have e : (l.map fun p => ((m * p.1 + b) - (m0 * p.1 + b0)) ^ 2).sum = S (fun p => ((m - m0) * p.1 + (b - b0)) ^ 2) l :=
    S_congr (f := fun p => ((m * p.1 + b) - (m0 * p.1 + b0)) ^ 2) fun p _ => by ring
  have h1 := hn.2.1
  rw [e, S_line] at h1
  have h2 : (b - b0) ^ 2 * lever l ≤ (m - m0) ^ 2 * Sxx l + 2 * (m - m0) * (b - b0) * Sx l + (b - b0) ^ 2 * l.length := by
    rw [lever_eq l hx0]
    have h3 : 0 ≤ Sxx l * ((m - m0) + (b - b0) * (Sx l / Sxx l)) ^ 2 := by positivity
    have h4 : Sxx l * ((m - m0) + (b - b0) * (Sx l / Sxx l)) ^ 2 =
        (m - m0) ^ 2 * Sxx l + 2 * (m - m0) * (b - b0) * Sx l + (b - b0) ^ 2 * (Sx l * Sx l / Sxx l) := by
      field_simp
      ring
    rw [h4] at h3
    linarith
  have h := le_of_mul_le_mul_right (h2.trans (h1.trans htol)) hlev
  refine SignedClose.of_abs ?_ hρ1
  have := abs_le_of_sq_le_sq (a := b - b0) (b := |ρ * b0|) (by rwa [sq_abs]) (abs_nonneg _)
  rwa [abs_mul, abs_of_nonneg hρ] at this

end Emva
