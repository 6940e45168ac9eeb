import Verif.Props.C109Fit

/-!
C109: the linearity in float64 with its limits: it neither overflows nor underflows, and it is accurate.
-/
set_option autoImplicit false
namespace Emva
open Spec Data Results Rounding Fit

namespace Spec

/-- photons and signal are neither tiny nor huge -/
def PlainPoint (p : ℝ × ℝ) : Prop := (1 / 2 ^ 31 ≤ p.1 ∧ p.1 ≤ 2 ^ 31) ∧ 1 / 2 ^ 31 ≤ p.2 ∧ p.2 ≤ 2 ^ 31

/-- there are no photons or neither few nor many, and the line is neither tiny nor huge -/
def PlainLine (a b : ℝ) (p : ℝ × ℝ) : Prop :=
  (p.1 = 0 ∨ 1 / 2 ^ 31 ≤ p.1 ∧ p.1 ≤ 2 ^ 31) ∧ 1 / 2 ^ 58 ≤ |a * p.1 + b| ∧ |a * p.1 + b| ≤ 2 ^ 58

end Spec

theorem Ieee.stable_linMax : Stable Ieee.indexLinearityMax := Ieee.stable_lastBelow _
theorem Ieee.stable_linMin : Stable Ieee.indexLinearityMin := by
  have := Ieee.stable_signal; unfold Ieee.indexLinearityMin; stab
theorem Ieee.stable_linearity (T : ISum) : Stable (Ieee.linearity T) := by
  have := Ieee.stable_signal; have := Ieee.stable_linMax; have := Ieee.stable_linMin; unfold Ieee.linearity; stab

theorem rounded_quot (n : ℤ) (h : |(n : ℝ)| ≤ 2 ^ (7 : ℤ)) : ∃ c, rounded (.fin ((n : ℝ) / 100)) = .fin c ∧
    Rounded.rd binary64 (.fin ((n : ℝ) / 100)) = .fin c ∧ Tame 60 4 c := by
  obtain ⟨a1, a2, a3⟩ := (Tame.int n h).div (j := 6) (m' := 7) (y := 100) (by norm_num) (by norm_num)
  refine ⟨b64 (n / 100), ?_, rfl, a3.weaken (by norm_num) (by norm_num)⟩
  exact f64_eq (a1.imp_right fun h => (two_zpow_mono (by norm_num)).trans h) (a2.trans (two_zpow_mono (by norm_num)))

section
variable {r : Res ℝ} (hy : Gridded 105 65 r.temporal.u_y) (hd : Gridded 105 65 r.temporal.u_ydark)
include hy hd

theorem ieee_linMax : val Ieee.indexLinearityMax r = val (Rounded.indexLinearityMax binary64) r := by
  have := rounded_quot 95 (by norm_num)
  push_cast at this
  exact ieee_lastBelow hy hd _ this

theorem ieee_linMin : val Ieee.indexLinearityMin r = val (Rounded.indexLinearityMin binary64) r := by
  have s1 := Ieee.stable_signal
  have s2 := Rounded.stable_signal binary64
  unfold Ieee.indexLinearityMin Rounded.indexLinearityMin
  rw [val_bind s1 (by stab), val_bind s2 (by stab), ← ieee_signal hy hd]
  cases hY : val Ieee.signal r with
  | error e => rfl
  | ok Y =>
    have hg := ieee_signal_grid hy hd hY
    show val _ r = val _ r
    rw [val_bind Stable.indexUysat (by stab), val_bind Stable.indexUysat (by stab)]
    cases hi : val (indexUysat : M ℝ ℤ) r with
    | error e => rfl
    | ok i =>
      show val _ r = val _ r
      rw [val_bind (Stable.lift _) (by stab), val_bind (Stable.lift _) (by stab), val_lift]
      cases hx : Np.idx Y i with
      | error e => rfl
      | ok X =>
        have hm : X ∈ Y := by
          rcases (Np.idx_ok_iff Y i X).1 hx with ⟨-, h⟩ | ⟨-, -, h⟩ <;> exact List.mem_of_getElem? h
        obtain ⟨x, rx⟩ := hg X hm
        obtain ⟨c, c1, c2, c3⟩ := rounded_quot 5 (by norm_num)
        push_cast at c1 c2
        have e : rounded (rounded (.fin (5 / 100)) * X) = Rounded.rd binary64 (Rounded.rd binary64 (.fin (5 / 100)) * X) := by
          have rc : Rep 60 4 (rounded (.fin (5 / 100))) c := ⟨c1, c3⟩
          rw [(rc.mul rx (by norm_num) (by norm_num)).eq, c2, rx.eq, Fl.fin_mul]
          rfl
        show val _ r = val _ r
        rw [e]

end

/-- the size of the computed line -/
theorem line_size {g V W a a' b b' x : ℝ} (hg : 1 + 31 * (2 : ℝ) ^ (-53 : ℤ) ≤ g) (hg2 : g ≤ 2) (oa : OffBy g V a' a) (ob : OffBy g W b' b)
    (hc : (g - 1) * (V * |x| + W) ≤ |a * x + b| / 2) :
    |a * x + b| ≤ 5 / 2 * |b64 (b64 (a' * x) + b')| ∧ |b64 (b64 (a' * x) + b')| ≤ 2 * |a * x + b| := by
  obtain ⟨ε, hε⟩ : ∃ ε : ℝ, ε = 2 ^ (-53 : ℤ) := ⟨_, rfl⟩
  have ε0 : 0 ≤ ε := by rw [hε]; exact (two_pos_zpow _).le
  have ε1 : ε ≤ 1 / 1000 := by rw [hε]; norm_num
  rw [← hε] at hg
  have hV : 0 ≤ V := (abs_nonneg _).trans oa.2
  have hW : 0 ≤ W := (abs_nonneg _).trans ob.2
  have hx := abs_nonneg x
  obtain ⟨f, hf⟩ : ∃ f, f = a * x + b := ⟨_, rfl⟩
  obtain ⟨t, ht⟩ : ∃ t, t = b64 (a' * x) := ⟨_, rfl⟩
  obtain ⟨f', hf'⟩ : ∃ f', f' = b64 (t + b') := ⟨_, rfl⟩
  have e1 : |t - a' * x| ≤ ε * |a' * x| := by rw [ht, hε]; exact binary64.err _
  have e2 : |f' - (t + b')| ≤ ε * |t + b'| := by rw [hf', hε]; exact binary64.err _
  rw [← hf] at hc ⊢
  rw [← ht, ← hf']
  have k1 : |a' * x| ≤ 2 * (V * |x|) := by
    rw [abs_mul, ← mul_assoc]
    refine mul_le_mul_of_nonneg_right ?_ hx
    have := abs_add_le (a' - a) a
    rw [sub_add_cancel] at this
    have h2 : (g - 1) * V ≤ 1 * V := mul_le_mul_of_nonneg_right (by linarith) hV
    linarith [oa.1, oa.2]
  have k2 : ε * |a' * x| ≤ |f| / 31 := by
    have h1 := mul_le_mul_of_nonneg_left k1 ε0
    have h2 : 31 * ε * (V * |x| + W) ≤ (g - 1) * (V * |x| + W) :=
      mul_le_mul_of_nonneg_right (by linarith) (add_nonneg (mul_nonneg hV hx) hW)
    have h3 : 0 ≤ ε * W := mul_nonneg ε0 hW
    nlinarith
  have k3 : |a' * x + b' - f| ≤ |f| / 2 := by
    refine le_trans ?_ hc
    have : a' * x + b' - f = (a' - a) * x + (b' - b) := by rw [hf]; ring
    rw [this]
    refine (abs_add_le _ _).trans ?_
    rw [abs_mul]
    have := mul_le_mul_of_nonneg_right oa.1 hx
    linarith [ob.1]
  have k4 : |t + b' - f| ≤ |f| / 2 + |f| / 31 := by
    have : t + b' - f = (t - a' * x) + (a' * x + b' - f) := by ring
    rw [this]
    refine (abs_add_le _ _).trans ?_
    linarith
  have k5 : |t + b'| ≤ 2 * |f| := by
    have := abs_add_le (t + b' - f) f
    rw [sub_add_cancel] at this
    linarith [abs_nonneg f]
  have k6 : |f' - (t + b')| ≤ |f| / 500 := by
    refine e2.trans ?_
    have := mul_le_mul ε1 k5 (abs_nonneg _) (by norm_num)
    linarith
  have k7 : |f' - f| ≤ 6 / 10 * |f| := by
    have : f' - f = (f' - (t + b')) + (t + b' - f) := by ring
    rw [this]
    refine (abs_add_le _ _).trans ?_
    linarith [abs_nonneg f]
  have a1 := abs_add_le (f' - f) f
  have a2 := abs_add_le (f - f') f'
  rw [sub_add_cancel] at a1 a2
  rw [abs_sub_comm f f'] at a2
  constructor <;> linarith [abs_nonneg f]

theorem mag_photons {x : ℝ} (h : 1 / 2 ^ 31 ≤ x ∧ x ≤ 2 ^ 31) : Mag 32 x :=
  (Mag.ofBounds 31 h.1 h.2).weaken (by norm_num)

set_option maxHeartbeats 1000000 in
/-- C109, data on a grid -/
theorem ieee_linearity (T : ISum) (r : Res ℝ) (gy : Gridded 105 65 r.temporal.u_y) (gd : Gridded 105 65 r.temporal.u_ydark)
    (uy ud : List ℝ) (hu : r.temporal.u_y = uy.map .fin)
    (hd : r.temporal.u_ydark = ud.map .fin) (h1 : uy.length = ud.length) (h2 : r.temporal.u_p.length = uy.length)
    (k : ℤ) (hk : val indexUysat r = .ok k) (ys : ℝ) (hys : AtIndex (diff uy ud) k ys) (hys0 : 0 ≤ ys)
    (gapMax : ∀ y ∈ diff uy ud, y ≤ (1 - (2 : ℝ) ^ (-53 : ℤ)) ^ 4 * (95 / 100 * ys) ∨ 95 / 100 * ys < (1 - (2 : ℝ) ^ (-53 : ℤ)) ^ 4 * y)
    (gapMin : ∀ y ∈ diff uy ud, y < (1 - (2 : ℝ) ^ (-53 : ℤ)) ^ 4 * (5 / 100 * ys) ∨ 5 / 100 * ys ≤ (1 - (2 : ℝ) ^ (-53 : ℤ)) ^ 4 * y)
    (i j : ℕ) (hi : val indexLinearityMin r = .ok i) (hj : val indexLinearityMax r = .ok j) (pts : List (ℝ × ℝ))
    (hpts : pts = ((r.temporal.u_p.zip (diff uy ud)).take (j + 1)).drop i)
    (hy : ∀ p ∈ pts, PlainPoint p) (hx : ∃ p ∈ pts, ∃ p' ∈ pts, p.1 ≠ p'.1)
    (hn : pts.length ≤ 2 ^ 20) (hT : T.depth pts.length ≤ 2 ^ 52)
    (g : ℝ) (hg : 1 ≤ (1 - (2 : ℝ) ^ (-53 : ℤ)) ^ (31 + 4 * T.depth pts.length) * g) (hg2 : g ≤ 2)
    (hdet : (g - 1) * fitTerms pts ≤ fitDet pts / 2)
    (a b : ℝ) (hab : BestRelLine pts a b) (hf : ∀ p ∈ pts, WellOn g pts a b p ∧ PlainLine a b p) :
    ∃ l l' a' b', val linearity r = .ok l ∧ val (Ieee.linearity T) r = .ok l' ∧
      l.fit_slope = .fin a ∧ l'.fit_slope = .fin a' ∧ OffBy g (slopeScale pts) a' a ∧
      l.fit_offset = .fin b ∧ l'.fit_offset = .fin b' ∧ OffBy g (offsetScale pts) b' b ∧
      (∀ (n : ℕ) (p : ℝ × ℝ), (r.temporal.u_p.zip (diff uy ud))[n]? = some p → WellOn g pts a b p → PlainLine a b p →
        ∃ d', l'.relative_deviation[n]? = some (.fin d') ∧ l.relative_deviation[n]? = some (.fin (deviation a b p)) ∧
          OffBy g (deviationScale pts a b p) d' (deviation a b p)) ∧
      ∃ lo lo' hi hi', val LEMin r = .ok (.fin lo) ∧ val (Ieee.LEMin T) r = .ok (.fin lo') ∧
        val LEMax r = .ok (.fin hi) ∧ val (Ieee.LEMax T) r = .ok (.fin hi') ∧
        ∀ W, (∀ p ∈ pts, deviationScale pts a b p ≤ W) → |lo' - lo| ≤ (g - 1) * W ∧ |hi' - hi| ≤ (g - 1) * W := by
  have hu1 : (2 : ℝ) ^ (-53 : ℤ) < 1 := by norm_num
  obtain ⟨l, l', a', b', e1, e2, es, es', oa, eo, eo', ob, dv, lo, lo', hi0, hi', m1, m2, m3, m4, m5⟩ :=
    C97_linearity binary64 T.free hu1 r uy ud hu hd h1 h2 k hk ys hys hys0 gapMax gapMin i j hi hj pts hpts
      (fun p hp => ⟨le_trans (by positivity) (hy p hp).1.1, lt_of_lt_of_le (by positivity) (hy p hp).2.1⟩) hx g hg hdet a b hab
      fun p hp => (hf p hp).1
  have hg1 : 1 + 31 * (2 : ℝ) ^ (-53 : ℤ) ≤ g := by
    obtain ⟨ε, hε⟩ : ∃ ε : ℝ, ε = 2 ^ (-53 : ℤ) := ⟨_, rfl⟩
    rw [← hε] at hg hu1 ⊢
    have ε0 : 0 ≤ ε := by rw [hε]; exact (two_pos_zpow _).le
    have g0 : 0 ≤ g := by
      by_contra hc
      have : (1 - ε) ^ (31 + 4 * T.depth pts.length) * g ≤ 0 :=
        mul_nonpos_of_nonneg_of_nonpos (pow_nonneg (by linarith) _) (not_le.1 hc).le
      linarith
    have b1 : 1 ≤ (1 - ε) ^ 31 * g := hg.trans (mul_le_mul_of_nonneg_right
      (pow_le_pow_of_le_one (by linarith) (by linarith) (by omega)) g0)
    have b2 : (1 + ε) ^ 31 * (1 - ε) ^ 31 ≤ 1 := by
      rw [← mul_pow]
      exact pow_le_one₀ (by nlinarith) (by nlinarith)
    have b3 := one_add_mul_le_pow (a := ε) (by linarith) 31
    have b4 : (1 + ε) ^ 31 ≤ g := by
      have c1 : (1 + ε) ^ 31 * 1 ≤ (1 + ε) ^ 31 * ((1 - ε) ^ 31 * g) := mul_le_mul_of_nonneg_left b1 (by positivity)
      have c2 := mul_le_mul_of_nonneg_right b2 g0
      linarith
    push_cast at b3
    linarith
  have hi1 := C97_index_min binary64 hu1 r uy ud hu hd h1 k hk ys hys hys0 gapMin
  have hj1 := C97_index_max binary64 hu1 r uy ud hu hd h1 k hk ys hys hys0 gapMax
  rw [hi] at hi1
  rw [hj] at hj1
  have sig := rsignal_fin binary64 r uy ud hu hd h1
  have sig' : val Ieee.signal r = .ok ((rdiff binary64 uy ud).map .fin) := (ieee_signal gy gd).trans sig
  have grid := ieee_signal_grid gy gd sig'
  -- the points of the fit
  have hsl : pts = (Np.slice r.temporal.u_p i (j + 1)).zip (Np.slice (diff uy ud) i (j + 1)) := by
    rw [← slice_zip, hpts]; rfl
  have hlen : (Np.slice r.temporal.u_p i (j + 1)).length = (Np.slice (diff uy ud) i (j + 1)).length := by
    simp [Np.slice, diff_length _ _ h1, h2]
  obtain ⟨P, hP⟩ : ∃ P, P = pts.map fun p : ℝ × ℝ => (p.1, b64 p.2) := ⟨_, rfl⟩
  have hX : Np.slice (r.temporal.u_p.map Fl.fin) i (j + 1) = P.map fun p => Fl.fin p.1 := by
    rw [Np.slice_map, hP, List.map_map, hsl]
    conv_lhs => rw [← List.map_fst_zip (l₁ := Np.slice r.temporal.u_p i (j + 1)) (l₂ := Np.slice (diff uy ud) i (j + 1)) hlen.le]
    rw [List.map_map]
    rfl
  have hY : Np.slice ((rdiff binary64 uy ud).map Fl.fin) i (j + 1) = P.map fun p => Fl.fin p.2 := by
    rw [rdiff, Np.slice_map, Np.slice_map, hP, List.map_map, hsl]
    conv_lhs => rw [← List.map_snd_zip (l₁ := Np.slice r.temporal.u_p i (j + 1)) (l₂ := Np.slice (diff uy ud) i (j + 1)) hlen.ge]
    rw [List.map_map, List.map_map]
    rfl
  have hPm : ∀ p ∈ P, Mag 32 p.1 ∧ Mag 32 p.2 := by
    intro p hp
    rw [hP] at hp
    obtain ⟨q, hq, rfl⟩ := List.mem_map.1 hp
    exact ⟨mag_photons (hy q hq).1, (Mag.ofBounds 31 (hy q hq).2.1 (hy q hq).2.2).rnd⟩
  have hPl : P.length = pts.length := by rw [hP, List.length_map]
  -- the fit
  have sS := Rounded.stable_signal binary64
  have sMin := Rounded.stable_rlinMin binary64
  have sMax := Rounded.stable_rlinMax binary64
  have hfit : Rounded.linFit binary64 T.free (Np.slice (r.temporal.u_p.map Fl.fin) i (j + 1))
      (Np.slice ((rdiff binary64 uy ud).map Fl.fin) i (j + 1)) = .ok (.fin a', .fin b') ∧
      l'.relative_deviation = List.zipWith (fun y x => Rounded.dev binary64 (.fin a') (.fin b') y x) ((rdiff binary64 uy ud).map .fin)
        (r.temporal.u_p.map .fin) ∧
      Np.amin (Np.slice l'.relative_deviation i (j + 1)) = .ok l'.linearity_error_min ∧
      Np.amax (Np.slice l'.relative_deviation i (j + 1)) = .ok l'.linearity_error_max := by
    have e3 := e2
    unfold Rounded.linearity at e3
    rw [val_bind_ok sS (by stab) sig, val_bind_ok stable_photons (by stab) rfl, val_bind_ok sMax (by stab) hj1,
      val_bind_ok sMin (by stab) hi1, val_bind (Stable.lift _) (by stab), val_lift] at e3
    simp only at e3
    generalize hF : Rounded.linFit binary64 T.free (Np.slice (r.temporal.u_p.map Fl.fin) i (j + 1))
      (Np.slice ((rdiff binary64 uy ud).map Fl.fin) i (j + 1)) = F at e3 ⊢
    cases F with
    | error e => cases e3
    | ok ab =>
      obtain ⟨A, B⟩ := ab
      rw [except_bind_ok] at e3
      simp only at e3
      rw [val_bind (Stable.lift _) (by stab), val_lift, Np.bin_eq_len _ _ _ (by simp [rdiff, diff_length _ _ h1, h2]), except_bind_ok,
        val_bind (Stable.lift _) (by stab), val_lift] at e3
      generalize hLo : Np.amin (Np.slice (List.zipWith (fun y x => Rounded.dev binary64 A B y x) ((rdiff binary64 uy ud).map .fin)
        (r.temporal.u_p.map .fin)) i (j + 1)) = Lo at e3
      cases Lo with
      | error e => cases e3
      | ok lo1 =>
        rw [except_bind_ok, val_bind (Stable.lift _) (by stab), val_lift] at e3
        generalize hHi : Np.amax (Np.slice (List.zipWith (fun y x => Rounded.dev binary64 A B y x) ((rdiff binary64 uy ud).map .fin)
          (r.temporal.u_p.map .fin)) i (j + 1)) = Hi at e3
        cases Hi with
        | error e => cases e3
        | ok hi1 =>
          have e4 := Except.ok.inj e3
          subst e4
          simp only at es' eo'
          subst es' eo'
          exact ⟨rfl, rfl, hLo, hHi⟩
  obtain ⟨hfit, hdev, hmin, hmax⟩ := hfit
  obtain ⟨hfit', ta, tb⟩ := ieee_linFit T P hPm (by rwa [hPl]) (by rwa [hPl]) _ _ hX hY a' b' hfit
  -- the deviations
  have key : ∀ p : ℝ × ℝ, Tame 105 67 (b64 p.2) → WellOn g pts a b p → PlainLine a b p →
      Ieee.dev (.fin a') (.fin b') (.fin (b64 p.2)) (.fin p.1) = Rounded.dev binary64 (.fin a') (.fin b') (.fin (b64 p.2)) (.fin p.1) := by
    intro p hp hw hl
    obtain ⟨z1, z2⟩ := line_size hg1 hg2 oa ob hw.2
    refine ieee_dev ta tb (hl.1.imp_right mag_photons) hp ?_ ?_
    · have e : (2 : ℝ) ^ (-60 : ℤ) = 1 / 4 * (1 / 2 ^ 58) := by norm_num
      rw [e]
      linarith only [hl.2.1, z1]
    · have e : (2 : ℝ) ^ (60 : ℤ) = 4 * 2 ^ 58 := by norm_num
      rw [e]
      linarith only [hl.2.2, z2, abs_nonneg (a * p.1 + b)]
  have grid' : ∀ y ∈ diff uy ud, Tame 105 67 (b64 y) := by
    intro y hy
    obtain ⟨z, hz⟩ := grid (.fin (b64 y)) (List.mem_map_of_mem (List.mem_map_of_mem (f := b64) hy))
    rw [Fl.fin_injective hz.eq]
    exact hz.tame
  obtain ⟨dI, hdI⟩ : ∃ dI, dI = List.zipWith (fun y x => Ieee.dev (.fin a') (.fin b') y x) ((rdiff binary64 uy ud).map .fin)
    (r.temporal.u_p.map .fin) := ⟨_, rfl⟩
  have hslice : Np.slice dI i (j + 1) = Np.slice l'.relative_deviation i (j + 1) := by
    have hz : ∀ op : Fl ℝ → Fl ℝ → Fl ℝ, Np.slice (List.zipWith op ((rdiff binary64 uy ud).map Fl.fin) (r.temporal.u_p.map .fin)) i (j + 1) =
        P.map fun p => op (.fin p.2) (.fin p.1) := by
      intro op
      have : Np.slice (List.zipWith op ((rdiff binary64 uy ud).map Fl.fin) (r.temporal.u_p.map .fin)) i (j + 1) =
          List.zipWith op (Np.slice ((rdiff binary64 uy ud).map Fl.fin) i (j + 1)) (Np.slice (r.temporal.u_p.map .fin) i (j + 1)) := by
        simp only [Np.slice, List.take_zipWith, List.drop_zipWith]
      rw [this, hX, hY, List.zipWith_map, List.zipWith_self]
    rw [hdI, hdev, hz, hz, hP, List.map_map, List.map_map]
    refine List.map_congr_left fun p hp => key p (grid' _ ?_) (hf p hp).1 (hf p hp).2
    rw [hpts] at hp
    exact (List.of_mem_zip (List.mem_of_mem_take (List.mem_of_mem_drop hp))).2
  -- the linearity
  have hv : val (Ieee.linearity T) r = .ok ⟨.fin a', .fin b', dI, l'.linearity_error_min, l'.linearity_error_max⟩ := by
    have s1 := Ieee.stable_signal
    have s2 := Ieee.stable_linMax
    have s3 := Ieee.stable_linMin
    unfold Ieee.linearity
    rw [val_bind_ok s1 (by stab) sig', val_bind_ok stable_photons (by stab) rfl,
      val_bind_ok s2 (by stab) ((ieee_linMax gy gd).trans hj1), val_bind_ok s3 (by stab) ((ieee_linMin gy gd).trans hi1),
      val_bind (Stable.lift _) (by stab), val_lift]
    simp only
    rw [hfit', except_bind_ok]
    simp only
    rw [val_bind (Stable.lift _) (by stab), val_lift, Np.bin_eq_len _ _ _ (by simp [rdiff, diff_length _ _ h1, h2]), except_bind_ok,
      val_bind (Stable.lift _) (by stab), val_lift, ← hdI, hslice, hmin, except_bind_ok, val_bind (Stable.lift _) (by stab), val_lift,
      hmax]
    rfl
  have sR : Stable (Rounded.linearity binary64 T.free) := by unfold Rounded.linearity; stab
  have q1 : l'.linearity_error_min = .fin lo' := by
    unfold Rounded.LEMin at m2
    rw [val_bind_ok sR (by stab) e2, val_pure] at m2
    exact Except.ok.inj m2
  have q2 : l'.linearity_error_max = .fin hi' := by
    unfold Rounded.LEMax at m4
    rw [val_bind_ok sR (by stab) e2, val_pure] at m4
    exact Except.ok.inj m4
  refine ⟨l, _, a', b', e1, hv, es, rfl, oa, eo, rfl, ob, ?_, lo, lo', hi0, hi', m1, ?_, m3, ?_, m5⟩
  · intro n p hn hw hl
    obtain ⟨d', d1, d2, d3⟩ := dv n p hn hw
    refine ⟨d', ?_, d2, d3⟩
    rw [← d1, hdev, hdI]
    rw [List.getElem?_zip_eq_some] at hn
    rw [List.getElem?_zipWith, List.getElem?_zipWith, rdiff, List.getElem?_map, List.getElem?_map, List.getElem?_map, hn.1, hn.2]
    simp only [Option.map_some]
    exact congrArg some (key p (grid' _ (List.mem_of_getElem? hn.2)) hw hl)
  · unfold Ieee.LEMin
    rw [val_bind_ok (Ieee.stable_linearity T) (by stab) hv, val_pure, ← q1]
  · unfold Ieee.LEMax
    rw [val_bind_ok (Ieee.stable_linearity T) (by stab) hv, val_pure, ← q2]

/-- the mean gray values of the images in float64 are the exact ones, rounded once -/
theorem ieee_means (T : ISum) {h w : ℕ} {B : ℤ} {l : List Shot} (ok : ShotsOK h w B l) (h0 : 0 < h * w) (hd : T.depth (h * w) ≤ 2 ^ 52) :
    (Ieee.temporal T h w l).u_y = (l.map fun s => b64 (imagesMean h w s.bright₁ s.bright₂)).map .fin ∧
    (Ieee.temporal T h w l).u_ydark = (l.map fun s => b64 (imagesMean h w s.dark₁ s.dark₂)).map .fin := by
  have hn : h * w ≤ 2 ^ 51 := by exact_mod_cast ok.size
  have hu : (2 : ℝ) ^ (-53 : ℤ) ≤ 1 / 100 := by norm_num
  rw [C106_data T h0 hn hd ok.sized]
  constructor
  · show l.map _ = _
    rw [List.map_map]
    exact List.map_congr_left fun s hs =>
      congrArg Fl.fin (C83_temporal binary64 T.free hu h w B _ _ (ok.bright s hs) ok.size ok.range).1
  · show l.map _ = _
    rw [List.map_map]
    exact List.map_congr_left fun s hs =>
      congrArg Fl.fin (C83_temporal binary64 T.free hu h w B _ _ (ok.dark s hs) ok.size ok.range).1

/-- the mean signal of a point from the mean gray values as the computer holds them -/
noncomputable def Spec.heldSignal (h w : ℕ) (s : Shot) : ℝ :=
  b64 (imagesMean h w s.bright₁ s.bright₂) - b64 (imagesMean h w s.dark₁ s.dark₂)

/-- C109: line, deviations and linearity errors of a measurement, computed in float64 from its images, neither overflow nor
underflow, and they are accurate. -/
theorem C109_linearity (T : ISum) {h w : ℕ} {B : ℤ} {l : List Shot} (ok : ShotsOK h w B l) (hd : T.depth (h * w) ≤ 2 ^ 52)
    (r : Res ℝ) (ht : r.temporal = Ieee.temporal T h w l) (k : ℤ) (hk : val indexUysat r = .ok k) (ys : ℝ)
    (hys : AtIndex (l.map (heldSignal h w)) k ys) (hys0 : 0 ≤ ys)
    (gapMax : ∀ s ∈ l, heldSignal h w s ≤ (1 - (2 : ℝ) ^ (-53 : ℤ)) ^ 4 * (95 / 100 * ys) ∨
      95 / 100 * ys < (1 - (2 : ℝ) ^ (-53 : ℤ)) ^ 4 * heldSignal h w s)
    (gapMin : ∀ s ∈ l, heldSignal h w s < (1 - (2 : ℝ) ^ (-53 : ℤ)) ^ 4 * (5 / 100 * ys) ∨
      5 / 100 * ys ≤ (1 - (2 : ℝ) ^ (-53 : ℤ)) ^ 4 * heldSignal h w s)
    (i j : ℕ) (hi : val indexLinearityMin r = .ok i) (hj : val indexLinearityMax r = .ok j) (pts : List (ℝ × ℝ))
    (hpts : pts = (((l.map fun s => (s.photons, heldSignal h w s))).take (j + 1)).drop i)
    (hy : ∀ p ∈ pts, PlainPoint p) (hx : ∃ p ∈ pts, ∃ p' ∈ pts, p.1 ≠ p'.1)
    (hn : pts.length ≤ 2 ^ 20) (hT : T.depth pts.length ≤ 2 ^ 52)
    (g : ℝ) (hg : 1 ≤ (1 - (2 : ℝ) ^ (-53 : ℤ)) ^ (31 + 4 * T.depth pts.length) * g) (hg2 : g ≤ 2)
    (hdet : (g - 1) * fitTerms pts ≤ fitDet pts / 2)
    (a b : ℝ) (hab : BestRelLine pts a b) (hf : ∀ p ∈ pts, WellOn g pts a b p ∧ PlainLine a b p) :
    ∃ q q' a' b', val linearity r = .ok q ∧ val (Ieee.linearity T) r = .ok q' ∧
      q.fit_slope = .fin a ∧ q'.fit_slope = .fin a' ∧ OffBy g (slopeScale pts) a' a ∧
      q.fit_offset = .fin b ∧ q'.fit_offset = .fin b' ∧ OffBy g (offsetScale pts) b' b ∧
      (∀ (n : ℕ) (s : Shot), l[n]? = some s → WellOn g pts a b (s.photons, heldSignal h w s) →
        PlainLine a b (s.photons, heldSignal h w s) →
        ∃ d', q'.relative_deviation[n]? = some (.fin d') ∧
          q.relative_deviation[n]? = some (.fin (deviation a b (s.photons, heldSignal h w s))) ∧
          OffBy g (deviationScale pts a b (s.photons, heldSignal h w s)) d' (deviation a b (s.photons, heldSignal h w s))) ∧
      ∃ lo lo' hi hi', val LEMin r = .ok (.fin lo) ∧ val (Ieee.LEMin T) r = .ok (.fin lo') ∧
        val LEMax r = .ok (.fin hi) ∧ val (Ieee.LEMax T) r = .ok (.fin hi') ∧
        ∀ W, (∀ p ∈ pts, deviationScale pts a b p ≤ W) → |lo' - lo| ≤ (g - 1) * W ∧ |hi' - hi| ≤ (g - 1) * W := by
  obtain ⟨s₀, hm₀⟩ : ∃ s, s ∈ l := by
    obtain ⟨p, hp, -⟩ := hx
    rw [hpts] at hp
    obtain ⟨s, hs, -⟩ := List.mem_map.1 (List.mem_of_mem_take (List.mem_of_mem_drop hp))
    exact ⟨s, hs⟩
  have h0 : 0 < h * w := (ok.bright s₀ hm₀).pos
  have hn' : h * w ≤ 2 ^ 51 := by exact_mod_cast ok.size
  obtain ⟨gy, gd, -, -⟩ := shots_gridded T h0 hn' hd ok.sized
  obtain ⟨m1, m2⟩ := ieee_means T ok h0 hd
  rw [← ht] at gy gd m1 m2
  have hp : r.temporal.u_p = l.map Shot.photons := by rw [ht]; rfl
  have hdiff : diff (l.map fun s => b64 (imagesMean h w s.bright₁ s.bright₂)) (l.map fun s => b64 (imagesMean h w s.dark₁ s.dark₂)) =
      l.map (heldSignal h w) := diff_map _ _ _
  have hz : r.temporal.u_p.zip (l.map (heldSignal h w)) = l.map fun s => (s.photons, heldSignal h w s) := by
    rw [hp, List.zip_map']
  have main := ieee_linearity T r gy gd _ _ m1 m2 (by simp) (by rw [hp]; simp) k hk ys (by rw [hdiff]; exact hys) hys0
    (by rw [hdiff]; intro y hy; obtain ⟨s, hs, rfl⟩ := List.mem_map.1 hy; exact gapMax s hs)
    (by rw [hdiff]; intro y hy; obtain ⟨s, hs, rfl⟩ := List.mem_map.1 hy; exact gapMin s hs)
    i j hi hj pts (by rw [hdiff, hz]; exact hpts) hy hx hn hT g hg hg2 hdet a b hab hf
  obtain ⟨q, q', a', b', e1, e2, es, es', oa, eo, eo', ob, dv, rest⟩ := main
  refine ⟨q, q', a', b', e1, e2, es, es', oa, eo, eo', ob, fun n s hs => dv n _ ?_, rest⟩
  rw [hdiff, hz, List.getElem?_map, hs]
  rfl

end Emva
