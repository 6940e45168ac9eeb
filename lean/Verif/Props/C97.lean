import Verif.Lemmas.RoundedFit
import Verif.Spec.LinearityScale

/-!
C97: accuracy of the linearity in floating point arithmetic.
-/
set_option autoImplicit false
namespace Emva
open Spec Data Results Fit

section
variable {u : ℝ} (R : Rounding u) (S' : RSum R)

theorem Rounded.stable_rlinMin : Stable (Rounded.indexLinearityMin R) := by
  have := Rounded.stable_signal R
  unfold Rounded.indexLinearityMin
  stab

theorem Rounded.stable_rlinMax : Stable (Rounded.indexLinearityMax R) := by
  have := Rounded.stable_signal R
  unfold Rounded.indexLinearityMax Rounded.lastBelow
  stab

/-- C97: `index_linearity_max` is the same in floating point unless a signal is next to 95 % of saturation. -/
theorem C97_index_max (hu1 : u < 1) (r : Res ℝ) (uy ud : List ℝ) (hu : r.temporal.u_y = uy.map .fin)
    (hd : r.temporal.u_ydark = ud.map .fin) (hl : uy.length = ud.length) (k : ℤ) (hk : val indexUysat r = .ok k) (ys : ℝ)
    (hys : AtIndex (diff uy ud) k ys) (h0 : 0 ≤ ys)
    (gap : ∀ y ∈ diff uy ud, y ≤ (1 - u) ^ 4 * (95 / 100 * ys) ∨ 95 / 100 * ys < (1 - u) ^ 4 * y) :
    val (Rounded.indexLinearityMax R) r = val indexLinearityMax r :=
  lastBelow_same R hu1 (95 / 100) (by norm_num) r uy ud hu hd hl k hk ys hys h0 gap

/-- C97: `index_linearity_min` is the same in floating point unless a signal is next to 5 % of saturation. -/
theorem C97_index_min (hu1 : u < 1) (r : Res ℝ) (uy ud : List ℝ) (hu : r.temporal.u_y = uy.map .fin)
    (hd : r.temporal.u_ydark = ud.map .fin) (hl : uy.length = ud.length) (k : ℤ) (hk : val indexUysat r = .ok k) (ys : ℝ)
    (hys : AtIndex (diff uy ud) k ys) (h0 : 0 ≤ ys)
    (gap : ∀ y ∈ diff uy ud, y < (1 - u) ^ 4 * (5 / 100 * ys) ∨ 5 / 100 * ys ≤ (1 - u) ^ 4 * y) :
    val (Rounded.indexLinearityMin R) r = val indexLinearityMin r := by
  have hs : 0 < 1 - u := by linarith
  have rn : ∀ {x : ℝ}, 0 ≤ x → Close (1 - u) (R.rnd x) x := fun h => Close.rnd R hu1.le h
  have hidx : Np.idx ((rdiff R uy ud).map Fl.fin) k = .ok (.fin (R.rnd ys)) := by
    have h1 := (Np.idx_ok_iff _ _ _).2 hys
    rw [rdiff, List.map_map, Np.idx_map, h1]
    rfl
  have e1 : val (Rounded.indexLinearityMin R) r =
      Np.minI (Np.argwhere (fun y => Fl.le (.fin (R.rnd (R.rnd (5 / 100) * R.rnd ys))) y) ((rdiff R uy ud).map .fin)) := by
    unfold Rounded.indexLinearityMin
    rw [val_bind_ok (Rounded.stable_signal R) (by stab) (rsignal_fin R r uy ud hu hd hl),
      val_bind_ok Stable.indexUysat (by stab) hk, val_bind_ok (x := lift (Np.idx _ k)) (Stable.lift _) (by stab) hidx, val_lift]
    rfl
  have e2 : val indexLinearityMin r = Np.minI (Np.argwhere (fun y => Fl.le (.fin (5 / 100 * ys)) y) ((diff uy ud).map .fin)) := by
    unfold indexLinearityMin
    rw [val_bind_ok stable_signal (by stab) (signal_fin r uy ud hu hd hl),
      val_bind_ok Stable.indexUysat (by stab) hk, val_bind_ok (x := lift (Np.idx _ k)) (Stable.lift _) (by stab) (idx_fin hys), val_lift]
    rfl
  rw [e1, e2, rdiff, List.map_map, argwhere_map, argwhere_map]
  congr 1
  refine argwhere_congr fun y hy => ?_
  have cm := Close.mul (rn (by norm_num : (0 : ℝ) ≤ 5 / 100)) (rn h0) hs.le hs.le
  have cm' := Close.trans (rn cm.1) cm hs.le (by positivity)
  set M' := R.rnd (R.rnd (5 / 100) * R.rnd ys)
  set M := 5 / 100 * ys
  set s := 1 - u with hsd
  show decide (M' ≤ R.rnd y) = decide (M ≤ y)
  have hM : 0 ≤ M := cm'.2.1
  have h4 : s ^ 4 ≤ 1 := pow_le_one₀ hs.le (by have := R.u_nonneg; linarith)
  rcases gap y hy with h | h
  · have a1 : ¬ M ≤ y := not_le.2 (h.trans_le (mul_le_of_le_one_left hM h4))
    have a2 : ¬ M' ≤ R.rnd y := not_le.2 (by
      rcases lt_or_ge y 0 with hn | hn
      · have h1 := (abs_le.1 (R.err y)).2
        rw [abs_of_neg hn] at h1
        have h2 : s * y < 0 := mul_neg_of_pos_of_neg hs hn
        have h3 := cm'.1
        have : R.rnd y ≤ s * y := by rw [hsd]; linarith
        linarith
      · have h1 := (rn hn).2.2.2
        have h2 := mul_le_mul_of_nonneg_left cm'.2.2.1 hs.le
        have e : s * (s * (s * s) * M) = s ^ 4 * M := by ring
        have : s * R.rnd y < s * M' := by linarith
        exact lt_of_mul_lt_mul_left this hs.le)
    rw [decide_eq_false a1, decide_eq_false a2]
  · have hy0 : 0 ≤ y := by
      by_contra hc
      have : s ^ 4 * y < 0 := mul_neg_of_pos_of_neg (by positivity) (not_le.1 hc)
      linarith
    have a1 : M ≤ y := h.trans (mul_le_of_le_one_left hy0 h4)
    have a2 : M' ≤ R.rnd y := by
      have h1 := (rn hy0).2.2.1
      have h2 := cm'.2.2.2
      have e : s * (s * s) * (s * y) = s ^ 4 * y := by ring
      have h3 : s * (s * s) * M' ≤ s * (s * s) * (s * y) := by rw [e]; exact h2.trans h
      exact (le_of_mul_le_mul_left h3 (by positivity)).trans h1
    rw [decide_eq_true a1, decide_eq_true a2]

theorem val_rlinearity (r : Res ℝ) (uy ud : List ℝ) (hu : r.temporal.u_y = uy.map .fin)
    (hd : r.temporal.u_ydark = ud.map .fin) (h1 : uy.length = ud.length)
    (h2 : r.temporal.u_p.length = uy.length) (i j : ℕ) (hi : val (Rounded.indexLinearityMin R) r = .ok i)
    (hj : val (Rounded.indexLinearityMax R) r = .ok j) (a b : ℝ)
    (hfit : Rounded.linFit R S' ((Np.slice r.temporal.u_p i (j + 1)).map .fin)
      (((Np.slice (diff uy ud) i (j + 1)).map R.rnd).map .fin) = .ok (.fin a, .fin b))
    (dev : List (Fl ℝ))
    (hdev : dev = List.zipWith (fun y x => Rounded.dev R (.fin a) (.fin b) y x) ((rdiff R uy ud).map .fin) (r.temporal.u_p.map .fin)) :
    val (Rounded.linearity R S') r = (do
      let lo ← Np.amin (Np.slice dev i (j + 1))
      let hi ← Np.amax (Np.slice dev i (j + 1))
      pure ⟨.fin a, .fin b, dev, lo, hi⟩) := by
  have sS := Rounded.stable_signal R
  have sMin := Rounded.stable_rlinMin R
  have sMax := Rounded.stable_rlinMax R
  have hbin : Np.bin (fun y x => Rounded.dev R (.fin a) (.fin b) y x) ((rdiff R uy ud).map .fin) (r.temporal.u_p.map .fin) = .ok dev := by
    rw [Np.bin_eq_len _ _ _ (by simp [rdiff, diff_length _ _ h1, h2]), hdev]
  unfold Rounded.linearity
  rw [val_bind_ok sS (by stab) (rsignal_fin R r uy ud hu hd h1), val_bind_ok stable_photons (by stab) rfl,
    val_bind_ok sMax (by stab) hj, val_bind_ok sMin (by stab) hi]
  have hfit' : Rounded.linFit R S' (Np.slice ((fun r : Res ℝ => List.map Fl.fin r.temporal.u_p) r) i (j + 1))
      (Np.slice (List.map Fl.fin (rdiff R uy ud)) i (j + 1)) = .ok (.fin a, .fin b) := by
    rw [rdiff, Np.slice_map, Np.slice_map, Np.slice_map]
    exact hfit
  rw [val_bind (Stable.lift _) (by stab), val_lift, hfit', except_bind_ok]
  simp only
  rw [val_bind (Stable.lift _) (by stab), val_lift, hbin, except_bind_ok, val_bind (Stable.lift _) (by stab), val_lift]
  refine congrArg _ (funext fun lo => ?_)
  rw [val_bind (Stable.lift _) (by stab), val_lift]
  rfl

/-- C97: the line, the deviations and the linearity errors in floating point, for a summation of known depth. -/
theorem C97_linearity (hu1 : u < 1) (r : Res ℝ) (uy ud : List ℝ) (hu : r.temporal.u_y = uy.map .fin)
    (hd : r.temporal.u_ydark = ud.map .fin) (h1 : uy.length = ud.length) (h2 : r.temporal.u_p.length = uy.length)
    (k : ℤ) (hk : val indexUysat r = .ok k) (ys : ℝ) (hys : AtIndex (diff uy ud) k ys) (hys0 : 0 ≤ ys)
    (gapMax : ∀ y ∈ diff uy ud, y ≤ (1 - u) ^ 4 * (95 / 100 * ys) ∨ 95 / 100 * ys < (1 - u) ^ 4 * y)
    (gapMin : ∀ y ∈ diff uy ud, y < (1 - u) ^ 4 * (5 / 100 * ys) ∨ 5 / 100 * ys ≤ (1 - u) ^ 4 * y)
    (i j : ℕ) (hi : val indexLinearityMin r = .ok i) (hj : val indexLinearityMax r = .ok j) (pts : List (ℝ × ℝ))
    (hpts : pts = ((r.temporal.u_p.zip (diff uy ud)).take (j + 1)).drop i)
    (hy : ∀ p ∈ pts, 0 ≤ p.1 ∧ 0 < p.2) (hx : ∃ p ∈ pts, ∃ p' ∈ pts, p.1 ≠ p'.1)
    (g : ℝ) (hg : 1 ≤ (1 - u) ^ (31 + 4 * S'.depth pts.length) * g)
    (hdet : (g - 1) * fitTerms pts ≤ fitDet pts / 2)
    (a b : ℝ) (hab : BestRelLine pts a b) (hf : ∀ p ∈ pts, WellOn g pts a b p) :
    ∃ l l' a' b', val linearity r = .ok l ∧ val (Rounded.linearity R S') r = .ok l' ∧
      l.fit_slope = .fin a ∧ l'.fit_slope = .fin a' ∧ OffBy g (slopeScale pts) a' a ∧
      l.fit_offset = .fin b ∧ l'.fit_offset = .fin b' ∧ OffBy g (offsetScale pts) b' b ∧
      (∀ (n : ℕ) (p : ℝ × ℝ), (r.temporal.u_p.zip (diff uy ud))[n]? = some p → WellOn g pts a b p →
        ∃ d', l'.relative_deviation[n]? = some (.fin d') ∧ l.relative_deviation[n]? = some (.fin (deviation a b p)) ∧
          OffBy g (deviationScale pts a b p) d' (deviation a b p)) ∧
      ∃ lo lo' hi hi', val LEMin r = .ok (.fin lo) ∧ val (Rounded.LEMin R S') r = .ok (.fin lo') ∧
        val LEMax r = .ok (.fin hi) ∧ val (Rounded.LEMax R S') r = .ok (.fin hi') ∧
        ∀ W, (∀ p ∈ pts, deviationScale pts a b p ≤ W) → |lo' - lo| ≤ (g - 1) * W ∧ |hi' - hi| ≤ (g - 1) * W := by
  have h0 := R.u_nonneg
  have hs : 0 < 1 - u := by linarith
  have he : 1 ≤ 1 / (1 - u) := by rw [le_div_iff₀ hs]; linarith
  have hyn : ∀ p ∈ pts, p.2 ≠ 0 := fun p hp => (hy p hp).2.ne'
  have hi' : val (Rounded.indexLinearityMin R) r = .ok i := by
    rw [C97_index_min R hu1 r uy ud hu hd h1 k hk ys hys hys0 gapMin, hi]
  have hj' : val (Rounded.indexLinearityMax R) r = .ok j := by
    rw [C97_index_max R hu1 r uy ud hu hd h1 k hk ys hys hys0 gapMax, hj]
  obtain ⟨a0, b0, best, n1, n2, rest⟩ := C35_best_relative_line r uy ud hu hd h1 h2 i j hi hj pts hpts hyn hx
  have hab0 : (a, b) = (a0, b0) := by
    by_contra hne
    exact lt_asymm (best a b hne) (hab a0 b0 (Ne.symm hne))
  cases hab0
  obtain ⟨l, lo, hi0, hl, es, eo, elo, ehi, hdev, hlo1, hlo2, hhi1, hhi2⟩ := rest fun p hp => (hf p hp).1
  -- the factor
  obtain ⟨N, hN⟩ : ∃ N, N = 5 + S'.depth pts.length := ⟨_, rfl⟩
  have hgN : ∀ {n : ℕ}, n ≤ 4 * N + 11 → (1 / (1 - u)) ^ n ≤ g := fun {n} hn => by
    refine (pow_le_pow_right₀ he hn).trans ?_
    rw [one_div_pow, div_le_iff₀ (pow_pos hs _), show 4 * N + 11 = 31 + 4 * S'.depth pts.length by omega]
    linarith
  have up : ∀ {n : ℕ} {V x y : ℝ}, OffBy ((1 / (1 - u)) ^ n) V x y → n ≤ 4 * N + 11 → OffBy g V x y := fun H hn =>
    H.mono (hgN hn) le_rfl (one_le_pow₀ he)
  have hsl : pts = (Np.slice r.temporal.u_p i (j + 1)).zip (Np.slice (diff uy ud) i (j + 1)) := by
    rw [← slice_zip, hpts]; rfl
  have hlen : (Np.slice r.temporal.u_p i (j + 1)).length = (Np.slice (diff uy ud) i (j + 1)).length := by
    simp [Np.slice, diff_length _ _ h1, h2]
  have hT : 0 ≤ fitTerms pts := by
    have hE : 0 ≤ sumYY pts := S_nonneg (f := fun p : ℝ × ℝ => 1 / (p.2 * p.2)) (fun p => by have := mul_self_nonneg p.2; positivity) pts
    have hC : 0 ≤ sumXXYY pts := S_nonneg (f := fun p : ℝ × ℝ => p.1 / p.2 * (p.1 / p.2)) (fun p => mul_self_nonneg _) pts
    exact add_nonneg (mul_self_nonneg _) (mul_nonneg hC hE)
  have hcond : ((1 / (1 - u)) ^ (2 * N + 2) - 1) * (Lin.B pts * Lin.B pts + Lin.C pts * Lin.E pts) ≤
      (Lin.C pts * Lin.E pts - Lin.B pts * Lin.B pts) / 2 :=
    (mul_le_mul_of_nonneg_right (sub_le_sub_right (hgN (by omega : 2 * N + 2 ≤ 4 * N + 11)) 1) hT).trans hdet
  obtain ⟨a', b', hfit, ob, oa⟩ := rlinFit_fin R S' hu1 _ _ hlen (by rw [← hsl]; exact hy) (by rw [← hsl]; exact hx) a b pts hsl n1 n2
    N hN hcond _ rfl
  have ob' : OffBy ((1 / (1 - u)) ^ (2 * N + 3)) (offsetScale pts) b' b := ob
  have oa' : OffBy ((1 / (1 - u)) ^ (4 * N + 6)) (slopeScale pts) a' a := oa
  clear ob oa
  -- the deviations
  have hL : ∀ x, 0 ≤ lineScale pts x := fun x => add_nonneg (mul_nonneg oa'.scale (abs_nonneg _)) ob'.scale
  have key : ∀ p : ℝ × ℝ, WellOn g pts a b p → ∃ d', Rounded.dev R (.fin a') (.fin b') (.fin (R.rnd p.2)) (.fin p.1) = .fin d' ∧
      OffBy g (deviationScale pts a b p) d' (deviation a b p) := by
    intro p hp
    have hc : ((1 / (1 - u)) ^ (4 * N + 10) - 1) * (slopeScale pts * |p.1| + offsetScale pts) ≤ |a * p.1 + b| / 2 :=
      (mul_le_mul_of_nonneg_right (sub_le_sub_right (hgN (by omega : 4 * N + 10 ≤ 4 * N + 11)) 1) (hL p.1)).trans hp.2
    obtain ⟨f0, o⟩ := dev_err (R := R) (y := p.2) hu1 ob' oa' hp.1 hc
    refine ⟨_, ?_, up o le_rfl⟩
    simp only [Rounded.dev, Rounded.rd, Fl.fin_mul, Fl.fin_add, Fl.fin_sub]
    rw [Fl.fin_div f0]
  choose! D hD1 hD2 using key
  have hv := val_rlinearity R S' r uy ud hu hd h1 h2 i j hi' hj' a' b' hfit _ rfl
  have hslice : Np.slice (List.zipWith (fun y x => Rounded.dev R (.fin a') (.fin b') y x) ((rdiff R uy ud).map .fin)
      (r.temporal.u_p.map .fin)) i (j + 1) = (pts.map D).map .fin := by
    have : Np.slice (List.zipWith (fun y x => Rounded.dev R (.fin a') (.fin b') y x) ((rdiff R uy ud).map .fin)
        (r.temporal.u_p.map .fin)) i (j + 1)
        = List.zipWith (fun x y => Rounded.dev R (.fin a') (.fin b') y x) ((Np.slice r.temporal.u_p i (j + 1)).map .fin)
          (((Np.slice (diff uy ud) i (j + 1)).map R.rnd).map .fin) := by
      rw [List.zipWith_comm, rdiff]
      simp only [Np.slice, List.take_zipWith, List.drop_zipWith, List.map_take, List.map_drop]
    rw [this, zipWith_rnd R _ D, ← hsl]
    intro p hp
    rw [← hsl] at hp
    exact hD1 p (hf p hp)
  have hne : pts.map D ≠ [] := by
    obtain ⟨p, hp, -⟩ := hx
    intro h
    rw [List.map_eq_nil_iff] at h
    rw [h] at hp; exact List.not_mem_nil hp
  obtain ⟨lo', l1, l2, l3⟩ := Lin.amin_fin hne
  obtain ⟨hi1, m1, m2, m3⟩ := Lin.amax_fin hne
  rw [hslice, l1, m1] at hv
  have sL : Stable (Rounded.linearity R S') := by
    have sS := Rounded.stable_signal R
    have sMin := Rounded.stable_rlinMin R
    have sMax := Rounded.stable_rlinMax R
    unfold Rounded.linearity
    stab
  refine ⟨l, _, a', b', hl, hv, es, rfl, up oa' (by omega), eo, rfl, up ob' (by omega), ?_, lo, lo', hi0, hi1, ?_, ?_, ?_, ?_, ?_⟩
  · intro n p hn hp
    refine ⟨D p, ?_, hdev n p hn hp.1, hD2 p hp⟩
    rw [List.getElem?_zip_eq_some] at hn
    simp only
    rw [List.getElem?_zipWith, rdiff, List.getElem?_map, List.getElem?_map, List.getElem?_map, hn.1, hn.2]
    simp only [Option.map_some]
    rw [hD1 p hp]
  · unfold LEMin
    rw [val_bind_ok stable_linearity (by stab) hl, val_pure, elo]
  · unfold Rounded.LEMin
    rw [val_bind_ok sL (by stab) hv, val_pure]
  · unfold LEMax
    rw [val_bind_ok stable_linearity (by stab) hl, val_pure, ehi]
  · unfold Rounded.LEMax
    rw [val_bind_ok sL (by stab) hv, val_pure]
  · intro W hW
    have g1 : 0 ≤ g - 1 := by
      have := hgN (n := 0) (by omega)
      rw [pow_zero] at this
      linarith
    have near : ∀ p ∈ pts, |D p - deviation a b p| ≤ (g - 1) * W := fun p hp =>
      (hD2 p (hf p hp)).1.trans (mul_le_mul_of_nonneg_left (hW p hp) g1)
    obtain ⟨p1, q1, rfl⟩ := List.mem_map.1 l2
    obtain ⟨p2, q2, rfl⟩ := List.mem_map.1 m2
    obtain ⟨p3, q3, rfl⟩ := hlo1
    obtain ⟨p4, q4, rfl⟩ := hhi1
    have b1 := abs_le.1 (near p1 q1)
    have b2 := abs_le.1 (near p2 q2)
    have b3 := abs_le.1 (near p3 q3)
    have b4 := abs_le.1 (near p4 q4)
    have c1 := hlo2 p1 q1
    have c2 := hhi2 p2 q2
    have c3 := l3 _ (List.mem_map_of_mem q3)
    have c4 := m3 _ (List.mem_map_of_mem q4)
    constructor <;> rw [abs_le] <;> constructor <;> linarith

end
end Emva
