import Verif.Model.Plots
import Verif.Spec.Plots
import Verif.Props.C29_C32

/-!
C59: the curves of the SNR plot.
-/
set_option autoImplicit false
namespace Emva
namespace Snr

theorem total_le_camera {η v d p x : ℝ} (hη : 0 < η) (hv : 0 ≤ v) (hx : 0 < x) :
    total η v d p x ≤ camera η v x := by
  unfold total camera
  have h : 0 < η * x := mul_pos hη hx
  have h1 : 0 < v + η * x := by linarith
  refine div_le_div_of_nonneg_left h.le (Real.sqrt_pos.2 h1) (Real.sqrt_le_sqrt ?_)
  nlinarith [sq_nonneg d, sq_nonneg (p * (η * x))]

theorem camera_le_ideal {η v x : ℝ} (hη : 0 < η) (h1 : η ≤ 1) (hv : 0 ≤ v) (hx : 0 < x) :
    camera η v x ≤ ideal x := by
  unfold camera ideal
  have h : 0 < η * x := mul_pos hη hx
  rw [div_le_iff₀ (Real.sqrt_pos.2 (by linarith)), ← Real.sqrt_mul hx.le]
  apply Real.le_sqrt_of_sq_le
  have hle : η * x ≤ x := by nlinarith
  have : (η * x) ^ 2 = η * x * (η * x) := by ring
  rw [this]
  calc η * x * (η * x) ≤ x * (η * x) := by nlinarith
    _ ≤ x * (v + η * x) := by nlinarith

theorem camera_sq {η v x : ℝ} (h : 0 < v + η * x) : camera η v x ^ 2 = (η * x) ^ 2 / (v + η * x) := by
  unfold camera
  rw [div_pow, Real.sq_sqrt h.le]

theorem camera_lt {η v x y : ℝ} (hη : 0 < η) (hv : 0 ≤ v) (hx : 0 < x) (hxy : x < y) :
    camera η v x < camera η v y := by
  have h1 : 0 < η * x := mul_pos hη hx
  have h2 : η * x < η * y := by nlinarith
  have hx' : 0 < v + η * x := by linarith
  have hy' : 0 < v + η * y := by linarith
  have hny : 0 ≤ camera η v y := div_nonneg (by linarith) (Real.sqrt_nonneg _)
  refine lt_of_pow_lt_pow_left₀ 2 hny ?_
  rw [camera_sq hx', camera_sq hy', div_lt_div_iff₀ hx' hy']
  set s := η * x
  set t := η * y
  have : t ^ 2 * (v + s) - s ^ 2 * (v + t) = (t - s) * (v * (t + s) + s * t) := by ring
  have h3 : 0 < (t - s) * (v * (t + s) + s * t) := by
    apply mul_pos (by linarith)
    have : 0 < s * t := mul_pos h1 (by linarith)
    have : 0 ≤ v * (t + s) := mul_nonneg hv (by linarith)
    linarith
  linarith

theorem camera_threshold {η s : ℝ} (hη : 0 < η) (hs : 0 ≤ s) :
    Real.sqrt (1 / 2) ≤ camera η (s ^ 2) ((s + 1 / 2) / η) ∧ camera η (s ^ 2) ((s + 1 / 2) / η) < 1 := by
  have e : η * ((s + 1 / 2) / η) = s + 1 / 2 := by field_simp
  have hp : 0 < s ^ 2 + η * ((s + 1 / 2) / η) := by rw [e]; positivity
  have hsq := camera_sq hp
  have hn : 0 ≤ camera η (s ^ 2) ((s + 1 / 2) / η) :=
    div_nonneg (by rw [e]; positivity) (Real.sqrt_nonneg _)
  rw [e] at hsq hp
  constructor
  · apply Real.sqrt_le_iff.2
    refine ⟨hn, ?_⟩
    rw [hsq, le_div_iff₀ hp]
    nlinarith
  · refine lt_of_pow_lt_pow_left₀ 2 zero_le_one ?_
    rw [hsq, div_lt_iff₀ hp]
    nlinarith

end Snr

namespace Plots
open Results

theorem arange_hundred (a b : ℝ) (h : a ≠ b) : Np.arange (.fin a) (.fin b) ((.fin b - .fin a) / .fin 100) =
    .ok (((List.range 100).map fun i : ℕ => a + i * ((b - a) / 100)).map .fin) := by
  have h0 : (b - a) / 100 ≠ 0 := div_ne_zero (sub_ne_zero.2 (Ne.symm h)) (by norm_num)
  unfold Np.arange
  rw [Fl.fin_sub, Fl.fin_div (by norm_num), Fl.fin_div h0]
  have e : (b - a) / ((b - a) / 100) = ((100 : ℤ) : ℝ) := by
    have : b - a ≠ 0 := sub_ne_zero.2 (Ne.symm h)
    push_cast
    field_simp
  simp only [e, Int.ceil_intCast]
  rw [show (100 : ℤ).toNat = 100 from rfl, List.map_map]
  rfl

theorem take_nonzero {α : Type} (l : List α) (s : List (Fl ℝ)) (h : l.length = s.length) :
    ∃ l', Np.take l (Np.nonzero s) = .ok l' ∧ l'.length = (Np.nonzero s).length ∧
      ∀ j i : ℕ, (Np.nonzero s)[j]? = some i → l'[j]? = l[i]? := by
  have hlt : ∀ i ∈ Np.nonzero s, i < l.length := by
    intro i hi
    unfold Np.nonzero at hi
    obtain ⟨x, hx, -⟩ := (Np.mem_argwhere _ _ _).1 hi
    rw [h]; exact (List.getElem?_eq_some_iff.1 hx).1
  generalize Np.nonzero s = ix at hlt
  induction ix with
  | nil => exact ⟨[], rfl, rfl, by simp⟩
  | cons i ix ih =>
    obtain ⟨l', h1, h2, h3⟩ := ih fun i hi => hlt i (by simp [hi])
    have hi : l[i]? = some (l[i]'(hlt i (by simp))) := List.getElem?_eq_getElem (hlt i (by simp))
    refine ⟨l[i]'(hlt i (by simp)) :: l', ?_, by simp [h2], ?_⟩
    · unfold Np.take at h1 ⊢
      rw [List.mapM_cons, Np.idx_of_some hi, h1]; rfl
    · intro j i' hj
      cases j with
      | zero => simp only [List.getElem?_cons_zero, Option.some.injEq] at hj; subst hj; simp [hi]
      | succ j => simpa using h3 j i' (by simpa using hj)

theorem axPlot_eq {x y : List (Fl ℝ)} {label : String} (h : x.length = y.length) :
    axPlot x y label = .ok (.line x y label) := if_pos h

theorem dsnu_ne_none (q : LSQ ℝ) {x : M ℝ (Fl ℝ)} (hx : Stable x) (r : Res ℝ) :
    val (dsnu q x) r ≠ .ok .none := by
  intro h
  have sK := stable_K q
  unfold dsnu at h
  rw [val_bind hx (by stab)] at h
  cases hv : val x r with
  | error e => rw [hv] at h; cases h
  | ok v =>
    rw [hv, except_bind_ok] at h
    split at h
    · cases h
    · rw [val_bind hx (by stab), hv, except_bind_ok, val_bind sK (by stab)] at h
      cases hk : val (K q) r with
      | error e => rw [hk] at h; cases h
      | ok k => rw [hk] at h; cases h

theorem val_lift_ok {F α β : Type} [Field F] [LinearOrder F] {x : Except PyErr α} {a : α} (h : x = .ok a)
    {f : α → M F β} (hf : ∀ a, Stable (f a)) (r : Res F) : val (lift x >>= f) r = val (f a) r := by
  rw [val_bind (Stable.lift x) hf, val_lift, h]; rfl

theorem stable_snrData : Stable snrData := by unfold snrData; stab
theorem stable_snrTheoretical (q : LSQ ℝ) (X : List (Fl ℝ)) : Stable (snrTheoretical q X) := by
  have sQ := stable_QE q
  have sK := stable_K q
  have sD := stable_sigmaD q
  unfold snrTheoretical; stab
theorem stable_DSNU1288 (q : LSQ ℝ) : Stable (DSNU1288 q) := stable_dsnu q (stable_s2Y true)
theorem stable_PRNU1288 : Stable PRNU1288 := stable_prnu fun d => stable_s2Y d
theorem stable_snrTotal (q : LSQ ℝ) (X : List (Fl ℝ)) : Stable (snrTotal q X) := by
  have sQ := stable_QE q
  have sK := stable_K q
  have sD := stable_sigmaD q
  have sN := stable_DSNU1288 q
  have sR := stable_PRNU1288
  unfold snrTotal; stab

theorem val_snrData (r : Res ℝ) {Y up ys s2 snr : List (Fl ℝ)} (hY : val signal r = .ok Y)
    (h1 : Np.take (r.temporal.u_p.map Fl.fin) (Np.nonzero r.temporal.s2_y) = .ok up)
    (h2 : Np.take Y (Np.nonzero r.temporal.s2_y) = .ok ys)
    (h3 : Np.take r.temporal.s2_y (Np.nonzero r.temporal.s2_y) = .ok s2)
    (h4 : Np.bin (· / ·) ys (s2.map Fl.sqrt) = .ok snr) : val snrData r = axPlot up snr "Data" := by
  unfold snrData
  rw [val_bind_ok stable_temporal (by stab) rfl, val_bind_ok stable_photons (by stab) (val_photons r),
    val_lift_ok h1 (by stab), val_bind_ok stable_signal (by stab) hY, val_lift_ok h2 (by stab),
    val_lift_ok h3 (by stab), val_lift_ok h4 (by stab), val_lift]

theorem val_snrTheoretical (q : LSQ ℝ) (r : Res ℝ) (X : List (Fl ℝ)) {e sd k : Fl ℝ} (he : val (QE q) r = .ok e)
    (hs : val (sigmaD q) r = .ok sd) (hk : val (K q) r = .ok k) : val (snrTheoretical q X) r =
    axPlot X (X.map fun x => e / .fin 100 * x / Fl.sqrt (theoNoise e sd k x)) "Theoretical" := by
  have sQ := stable_QE q
  have sK := stable_K q
  have sD := stable_sigmaD q
  unfold snrTheoretical
  rw [val_bind_ok sQ (by stab) he, val_bind_ok sD (by stab) hs, val_bind_ok sK (by stab) hk, val_lift]

theorem val_snrTotal (q : LSQ ℝ) (r : Res ℝ) (X : List (Fl ℝ)) {e sd k D p : Fl ℝ} {d : PyNum ℝ}
    (he : val (QE q) r = .ok e) (hs : val (sigmaD q) r = .ok sd) (hk : val (K q) r = .ok k)
    (hd : val (DSNU1288 q) r = .ok d) (hD : arith d = .ok D) (hp : val PRNU1288 r = .ok p) :
    val (snrTotal q X) r = axPlot X (X.map fun x => e / .fin 100 * x /
      Fl.sqrt (theoNoise e sd k x + Fl.sq D + Fl.sq (p / .fin 100 * (e / .fin 100) * x))) "Total SNR" := by
  have sQ := stable_QE q
  have sK := stable_K q
  have sD := stable_sigmaD q
  have sN := stable_DSNU1288 q
  have sR := stable_PRNU1288
  unfold snrTotal
  rw [val_bind_ok sQ (by stab) he, val_bind_ok sD (by stab) hs, val_bind_ok sK (by stab) hk,
    val_bind_ok sN (by stab) hd, val_lift_ok hD (by stab), val_bind_ok sR (by stab) hp, val_lift]

theorem val_plotSNR (q : LSQ ℝ) (r : Res ℝ) : val (plotSNR q) r = (do
    let a ← val (uPMin q) r
    let b ← val uPSat r
    let X ← Np.arange a b ((b - a) / .fin 100)
    let d1 ← val snrData r
    let d2 ← val (snrTheoretical q X) r
    let d3 ← snrIdeal X
    let d4 ← val (snrTotal q X) r
    pure [d1, d2, d3, .vline a, .vline b, d4]) := by
  have t4 : ∀ X a b d1 d2 d3, Stable (snrTotal q X >>= fun d4 =>
      (pure [d1, d2, d3, Drawn.vline a, .vline b, d4] : M ℝ (List Drawn))) :=
    fun X _ _ _ _ _ => (stable_snrTotal q X).bind fun _ => Stable.pure _
  have t3 := fun X a b d1 d2 => (Stable.lift (F := ℝ) (snrIdeal X)).bind fun d3 => t4 X a b d1 d2 d3
  have t2 := fun X a b d1 => (stable_snrTheoretical q X).bind fun d2 => t3 X a b d1 d2
  have t1 := fun X a b => stable_snrData.bind fun d1 => t2 X a b d1
  have t0 := fun a b : Fl ℝ => (Stable.lift (F := ℝ) (Np.arange a b ((b - a) / .fin 100))).bind fun X => t1 X a b
  unfold plotSNR
  rw [val_bind (stable_uPMin q) fun a => stable_uPSat.bind fun b => t0 a b]
  refine congrArg _ (funext fun a => ?_)
  rw [val_bind stable_uPSat fun b => t0 a b]
  refine congrArg _ (funext fun b => ?_)
  rw [val_bind (Stable.lift _) fun X => t1 X a b, val_lift]
  refine congrArg _ (funext fun X => ?_)
  rw [val_bind stable_snrData fun d1 => t2 X a b d1]
  refine congrArg _ (funext fun d1 => ?_)
  rw [val_bind (stable_snrTheoretical q X) fun d2 => t3 X a b d1 d2]
  refine congrArg _ (funext fun d2 => ?_)
  rw [val_bind (Stable.lift _) fun d3 => t4 X a b d1 d2 d3, val_lift]
  refine congrArg _ (funext fun d3 => ?_)
  rw [val_bind (stable_snrTotal q X) fun _ => Stable.pure _]
  rfl

theorem nonzero_sorted (l : List (Fl ℝ)) : (Np.nonzero l).Pairwise (· < ·) :=
  List.Pairwise.filter _ List.pairwise_lt_range

theorem mem_nonzero (l : List (Fl ℝ)) (i : ℕ) : i ∈ Np.nonzero l ↔ ∃ v, l[i]? = some v ∧ v ≠ .fin 0 := by
  unfold Np.nonzero Np.argwhere
  rw [List.mem_filter, List.mem_range]
  constructor
  · rintro ⟨h, h'⟩
    refine ⟨l[i], List.getElem?_eq_getElem h, ?_⟩
    rw [List.getElem?_eq_getElem h] at h'
    intro e
    simp [e] at h'
  · rintro ⟨v, h, h'⟩
    refine ⟨(List.getElem?_eq_some_iff.1 h).1, ?_⟩
    rw [h]
    cases v with
    | nan => rfl
    | inf s => rfl
    | fin x =>
      have : x ≠ 0 := fun e => h' (by rw [e])
      simp [this]

/-- the real values of a drawn curve -/
def curve (f : ℝ → ℝ) (xs : List ℝ) : List (Fl ℝ) := xs.map fun x => .fin (f x)

end Plots

open Results Plots

/-- C59: the curves of the SNR plot for positive gain and responsivity of at most the gain, arrays of one
length: one hundred photon counts starting at `u_p_min` in steps of a hundredth of the way to `u_p_sat`;
over them the theoretical curve, which is the SNR of the camera model, and the ideal one.  The data points
are the measured SNR of exactly the points with a non-zero variance. -/
theorem C59_curves (q : LSQ ℝ) (hq : q.Good) (r : Res ℝ) (sd : List ℝ) (k m ps : ℝ) (d : PyNum ℝ) (p : Fl ℝ)
    (hsd : r.temporal.s2_ydark = sd.map .fin) (hl : r.temporal.texp.length = sd.length) (hne : sd ≠ [])
    (hk : 0 < k) (hm : 0 < m) (hK : val (K q) r = .ok (.fin k)) (hR : val (R q) r = .ok (.fin m))
    (hp : val uPSat r = .ok (.fin ps)) (hps : 0 < ps)
    (hd : val (DSNU1288 q) r = .ok d) (hpr : val PRNU1288 r = .ok p)
    (l1 : r.temporal.u_p.length = r.temporal.s2_y.length) (l2 : r.temporal.u_y.length = r.temporal.s2_y.length)
    (l3 : r.temporal.u_ydark.length = r.temporal.s2_y.length) :
    ∃ σ pm, val (sigmaYDark q) r = .ok (.fin σ) ∧ 0 < σ ∧ val (uPMin q) r = .ok (.fin pm) ∧ 0 < pm ∧
      pm = (σ / k + 1 / 2) / (m / k) ∧
      (pm = ps → val (plotSNR q) r = .error .valueError) ∧
      (pm ≠ ps → ∃ (up snr : List (Fl ℝ)) (xs : List ℝ) (S : List (Fl ℝ)), val (plotSNR q) r = .ok [.line up snr "Data",
          .line (xs.map .fin) (curve (Snr.camera (m / k) ((σ / k) ^ 2)) xs) "Theoretical",
          .line (xs.map .fin) (curve Snr.ideal xs) "Ideal", .vline (.fin pm), .vline (.fin ps),
          .line (xs.map .fin) S "Total SNR"] ∧
        (xs.length = 100 ∧ ∀ i : ℕ, i < 100 → xs[i]? = some (pm + i * ((ps - pm) / 100))) ∧
        (∀ d' p' : ℝ, d = .num (.fin d') → p = .fin p' →
          S = curve (Snr.total (m / k) ((σ / k) ^ 2) d' (p' / 100)) xs) ∧
        (d = .npnan ∨ p = .nan → ∀ y ∈ S, y = .nan) ∧
        (∃ nz : List ℕ, nz.Pairwise (· < ·) ∧
          (∀ i, i ∈ nz ↔ ∃ v, r.temporal.s2_y[i]? = some v ∧ v ≠ .fin 0) ∧
          up.length = snr.length ∧ up.length = nz.length ∧
          ∀ (j i : ℕ) (x : ℝ) (y z v : Fl ℝ), nz[j]? = some i → r.temporal.u_p[i]? = some x →
            r.temporal.u_y[i]? = some y → r.temporal.u_ydark[i]? = some z → r.temporal.s2_y[i]? = some v →
            up[j]? = some (.fin x) ∧ snr[j]? = some ((y - z) / Fl.sqrt v))) := by
  obtain ⟨v, σ, -, hs, hσ, -, h24, -⟩ := C31_lower_limit q hq r sd hsd hl hne
  have hpos : 0 < σ * σ - 1 / 12 := by nlinarith
  have sQ := stable_QE q
  have sK := stable_K q
  have sS := stable_sigmaYDark q
  have sD := stable_sigmaD q
  have sP := stable_uPMin q
  have sPs := stable_uPSat (F := ℝ)
  have sN : Stable (DSNU1288 q) := stable_dsnu q (stable_s2Y true)
  have sR : Stable PRNU1288 := stable_prnu fun d => stable_s2Y d
  have hqe := val_QE q r hk.ne' hK hR
  have hqe0 : 0 < 100 * m / k := by positivity
  have hη : 0 < m / k := by positivity
  have hpm : val (uPMin q) r = .ok (.fin ((σ / k + 1 / 2) / (m / k))) := by
    unfold uPMin
    rw [val_bind_ok sQ (by stab) hqe, val_bind_ok sS (by stab) hs, val_bind_ok sK (by stab) hK,
      val_pure, Fl.fin_div hqe0.ne', Fl.fin_div hk.ne', Fl.fin_add, Fl.fin_mul]
    congr 2; field_simp
  have hsig : val (sigmaD q) r = .ok (.fin (Real.sqrt (σ * σ - 1 / 12) / k)) := by
    unfold sigmaD
    rw [val_bind_ok sS (by stab) hs, val_bind_ok sK (by stab) hK, val_pure, Fl.sq_fin, Fl.fin_sub,
      Fl.sqrt_fin hpos.le, Fl.fin_div hk.ne']
  have hsignal : val signal r = .ok (List.zipWith (· - ·) r.temporal.u_y r.temporal.u_ydark) := by
    rw [val_signal, Np.bin_eq_len _ _ _ (by rw [l2, l3])]
  set pm := (σ / k + 1 / 2) / (m / k) with hpmdef
  have hpm0 : 0 < pm := by positivity
  refine ⟨σ, pm, hs, hσ, hpm, hpm0, rfl, ?_, ?_⟩
  · intro h
    rw [val_plotSNR, hpm, except_bind_ok, hp, except_bind_ok]
    have : Np.arange (.fin pm) (.fin ps) ((.fin ps - .fin pm) / .fin 100) = .error .valueError := by
      rw [h]
      unfold Np.arange
      rw [Fl.fin_sub, sub_self, Fl.fin_div (by norm_num), zero_div, Fl.zero_div_zero]
    rw [this]; rfl
  · intro h
    have hd0 : d ≠ .none := fun e => dsnu_ne_none q (stable_s2Y true) r (by rw [← e]; exact hd)
    obtain ⟨D, hD, hD1, hD2⟩ : ∃ D : Fl ℝ, arith d = .ok D ∧ (∀ d', d = .num (.fin d') → D = .fin d') ∧
        (d = .npnan → D = .nan) := by
      cases d with
      | none => exact absurd rfl hd0
      | npnan => exact ⟨.nan, rfl, by simp, by simp⟩
      | num x => exact ⟨x, rfl, fun d' h => by cases h; rfl, by simp⟩
    obtain ⟨up, hup, lup, gup⟩ := take_nonzero (r.temporal.u_p.map Fl.fin) r.temporal.s2_y (by simp [l1])
    obtain ⟨ys, hys, lys, gys⟩ := take_nonzero (List.zipWith (· - ·) r.temporal.u_y r.temporal.u_ydark)
      r.temporal.s2_y (by simp [l2, l3])
    obtain ⟨s2, hs2, ls2, gs2⟩ := take_nonzero r.temporal.s2_y r.temporal.s2_y rfl
    have hbin := Np.bin_eq_len (fun a b : Fl ℝ => a / b) ys (s2.map Fl.sqrt) (by simp [lys, ls2])
    set xs : List ℝ := (List.range 100).map fun i : ℕ => pm + i * ((ps - pm) / 100) with hxs
    have hX := arange_hundred pm ps h
    have hxpos : ∀ x ∈ xs, 0 < x := by
      intro x hx
      obtain ⟨i, hi, rfl⟩ := List.mem_map.1 hx
      have hi' : (i : ℝ) < 100 := by exact_mod_cast List.mem_range.1 hi
      have h0 : (0 : ℝ) ≤ i := Nat.cast_nonneg i
      nlinarith
    have hnoise : ∀ x, theoNoise (.fin (100 * m / k)) (.fin (Real.sqrt (σ * σ - 1 / 12) / k)) (.fin k) (.fin x) =
        .fin ((σ / k) ^ 2 + m / k * x) := by
      intro x
      unfold theoNoise
      rw [Fl.sq_fin, Fl.sq_fin, Fl.fin_div (mul_pos hk hk).ne', Fl.fin_add, Fl.fin_div (by norm_num), Fl.fin_mul,
        Fl.fin_add]
      congr 1
      have : Real.sqrt (σ * σ - 1 / 12) * Real.sqrt (σ * σ - 1 / 12) = σ * σ - 1 / 12 := Real.mul_self_sqrt hpos.le
      rw [div_mul_div_comm, this]
      field_simp
      ring
    have hsignalx : ∀ x, (Fl.fin (100 * m / k) : Fl ℝ) / .fin 100 * .fin x = .fin (m / k * x) := by
      intro x
      rw [Fl.fin_div (by norm_num), Fl.fin_mul]
      congr 1; field_simp
    have htheo : ((xs.map Fl.fin).map fun x => Fl.fin (100 * m / k) / .fin 100 * x /
        Fl.sqrt (theoNoise (.fin (100 * m / k)) (.fin (Real.sqrt (σ * σ - 1 / 12) / k)) (.fin k) x)) =
        curve (Snr.camera (m / k) ((σ / k) ^ 2)) xs := by
      rw [List.map_map]
      unfold curve
      refine List.map_congr_left fun x hx => ?_
      have hx0 := hxpos x hx
      have hp' : 0 < (σ / k) ^ 2 + m / k * x := by positivity
      rw [Function.comp, hsignalx, hnoise, Fl.sqrt_fin hp'.le, Fl.fin_div (Real.sqrt_pos.2 hp').ne']
      rfl
    have hideal : (xs.map Fl.fin).map Fl.sqrt = curve Snr.ideal xs := by
      rw [List.map_map]
      exact List.map_congr_left fun x hx => Fl.sqrt_fin (hxpos x hx).le
    have hidx : ∃ z, Np.idx (curve Snr.ideal xs) (-1) = .ok z := by
      have hlen : (curve Snr.ideal xs).length = 100 := by simp [curve, hxs]
      obtain ⟨w, hw⟩ : ∃ w, (curve Snr.ideal xs)[99]? = some w :=
        ⟨_, List.getElem?_eq_getElem (by rw [hlen]; norm_num)⟩
      refine ⟨w, (Np.idx_ok_iff _ _ _).2 (.inr ⟨by norm_num, ?_, ?_⟩)⟩
      · rw [hlen]; norm_num
      · rw [hlen]; exact hw
    obtain ⟨z, hz⟩ := hidx
    have hA : val snrData r = .ok (.line up (List.zipWith (fun a b => a / b) ys (s2.map Fl.sqrt)) "Data") := by
      rw [val_snrData r hsignal hup hys hs2 hbin, axPlot_eq (by simp [lup, lys, ls2])]
    have hB : val (snrTheoretical q (xs.map Fl.fin)) r = .ok (.line (xs.map .fin)
        (curve (Snr.camera (m / k) ((σ / k) ^ 2)) xs) "Theoretical") := by
      rw [val_snrTheoretical q r _ hqe hsig hK, htheo, axPlot_eq (by simp [curve])]
    have hI : snrIdeal (xs.map Fl.fin) = .ok (.line (xs.map .fin) (curve Snr.ideal xs) "Ideal") := by
      rw [snrIdeal, hideal, hz, except_bind_ok, axPlot_eq (by simp [curve])]
    have hT := val_snrTotal q r (xs.map Fl.fin) hqe hsig hK hd hD hpr
    rw [axPlot_eq (by simp)] at hT
    refine ⟨up, List.zipWith (fun a b => a / b) ys (s2.map Fl.sqrt), xs,
      (xs.map Fl.fin).map fun x => Fl.fin (100 * m / k) / .fin 100 * x / Fl.sqrt (theoNoise (.fin (100 * m / k))
        (.fin (Real.sqrt (σ * σ - 1 / 12) / k)) (.fin k) x + Fl.sq D + Fl.sq (p / .fin 100 * (Fl.fin (100 * m / k) / .fin 100) * x)),
      ?_, ⟨by simp [hxs], ?_⟩, ?_, ?_, _, nonzero_sorted _, mem_nonzero _, by simp [lup, lys, ls2], lup, ?_⟩
    · rw [val_plotSNR, hpm, except_bind_ok, hp, except_bind_ok, hX, except_bind_ok, hA, except_bind_ok, hB,
        except_bind_ok, hI, except_bind_ok, hT, except_bind_ok]
      rfl
    · intro i hi
      simp [hxs, hi]
    · intro d' p' h1 h2
      rw [hD1 d' h1, h2, List.map_map]
      unfold curve
      refine List.map_congr_left fun x hx => ?_
      have hx0 := hxpos x hx
      have hp' : 0 < (σ / k) ^ 2 + m / k * x + d' ^ 2 + (p' / 100 * (m / k * x)) ^ 2 := by positivity
      have e1 : (Fl.fin p' : Fl ℝ) / .fin 100 * (.fin (100 * m / k) / .fin 100) * .fin x =
          .fin (p' / 100 * (m / k * x)) := by
        rw [Fl.fin_div (by norm_num), Fl.fin_div (by norm_num), Fl.fin_mul, Fl.fin_mul]
        congr 1; field_simp
      rw [Function.comp, hsignalx, hnoise, e1, Fl.sq_fin, Fl.sq_fin, Fl.fin_add, Fl.fin_add, ← sq, ← sq,
        Fl.sqrt_fin hp'.le, Fl.fin_div (Real.sqrt_pos.2 hp').ne']
      rfl
    · intro hnan y hy
      obtain ⟨x, hx, rfl⟩ := List.mem_map.1 hy
      obtain ⟨x, hx, rfl⟩ := List.mem_map.1 hx
      have hsqrt : Fl.sqrt (.nan : Fl ℝ) = .nan := rfl
      have hsqn : Fl.sq (.nan : Fl ℝ) = .nan := rfl
      rcases hnan with h1 | h1
      · rw [hD2 h1, hsqn, Fl.add_nan, Fl.nan_add, hsqrt, Fl.div_nan]
      · rw [h1, Fl.nan_div, Fl.nan_mul, Fl.nan_mul, hsqn, Fl.add_nan, hsqrt, Fl.div_nan]
    · intro j i x y z v hj hx hy hz hv
      constructor
      · rw [gup j i hj]; simp [hx]
      · have e1 := gys j i hj
        have e2 := gs2 j i hj
        rw [List.getElem?_zipWith, hy, hz] at e1
        rw [hv] at e2
        rw [List.getElem?_zipWith, e1, List.getElem?_map, e2]
        rfl

/-- C59: at every plotted photon count the total SNR is at most the theoretical one and this one at most
the ideal one (quantum efficiency at most 100 %); the theoretical curve increases; it starts, at `u_p_min`,
between the root of one half and one. -/
theorem C59_order (q : LSQ ℝ) (hq : q.Good) (r : Res ℝ) (sd : List ℝ) (k m ps d p : ℝ)
    (hsd : r.temporal.s2_ydark = sd.map .fin) (hl : r.temporal.texp.length = sd.length) (hne : sd ≠ [])
    (hk : 0 < k) (hm : 0 < m) (hK : val (K q) r = .ok (.fin k)) (hR : val (R q) r = .ok (.fin m))
    (hp : val uPSat r = .ok (.fin ps)) (hps : 0 < ps)
    (hd : val (DSNU1288 q) r = .ok (.num (.fin d))) (hpr : val PRNU1288 r = .ok (.fin p))
    (l1 : r.temporal.u_p.length = r.temporal.s2_y.length) (l2 : r.temporal.u_y.length = r.temporal.s2_y.length)
    (l3 : r.temporal.u_ydark.length = r.temporal.s2_y.length) (hmk : m ≤ k)
    (hsat : ∀ pm, val (uPMin q) r = .ok (.fin pm) → pm < ps) :
    ∃ (data : Drawn) (pm : ℝ) (xs T I S : List ℝ), val (plotSNR q) r = .ok [data,
        .line (xs.map .fin) (T.map .fin) "Theoretical", .line (xs.map .fin) (I.map .fin) "Ideal",
        .vline (.fin pm), .vline (.fin ps), .line (xs.map .fin) (S.map .fin) "Total SNR"] ∧
      xs.length = 100 ∧ T.length = 100 ∧ I.length = 100 ∧ S.length = 100 ∧
      xs.Pairwise (· < ·) ∧ T.Pairwise (· < ·) ∧ (∀ x ∈ xs, pm ≤ x ∧ x < ps) ∧ xs[0]? = some pm ∧
      (∀ (i : ℕ) (t i' s : ℝ), T[i]? = some t → I[i]? = some i' → S[i]? = some s → s ≤ t ∧ t ≤ i') ∧
      ∀ t, T[0]? = some t → Real.sqrt (1 / 2) ≤ t ∧ t < 1 := by
  obtain ⟨σ, pm, -, hσ, hpm, hpm0, hpmdef, -, h⟩ := C59_curves q hq r sd k m ps _ _ hsd hl hne hk hm hK hR hp hps
    hd hpr l1 l2 l3
  have hlt := hsat pm hpm
  obtain ⟨up, snr, xs, S, h1, ⟨h2, h3⟩, h4, -, -⟩ := h hlt.ne
  have h4 := h4 d p rfl rfl
  subst h4
  have hη : 0 < m / k := by positivity
  have hη1 : m / k ≤ 1 := (div_le_one hk).2 hmk
  have hv : 0 ≤ (σ / k) ^ 2 := by positivity
  have hxs : ∀ (i : ℕ) (x : ℝ), xs[i]? = some x → x = pm + i * ((ps - pm) / 100) ∧ i < 100 := by
    intro i x hx
    have hi : i < 100 := by rw [← h2]; exact (List.getElem?_eq_some_iff.1 hx).1
    rw [h3 i hi] at hx
    exact ⟨(Option.some.inj hx).symm, hi⟩
  have hrange : ∀ x ∈ xs, pm ≤ x ∧ x < ps := by
    intro x hx
    obtain ⟨i, hi⟩ := List.mem_iff_getElem?.1 hx
    obtain ⟨rfl, hi'⟩ := hxs i x hi
    have hi2 : (i : ℝ) < 100 := by exact_mod_cast hi'
    have hi3 : (0 : ℝ) ≤ i := Nat.cast_nonneg i
    constructor <;> nlinarith
  have hsort : xs.Pairwise (· < ·) := by
    rw [List.pairwise_iff_getElem]
    intro i j hi hj hij
    have e1 := (hxs i _ (List.getElem?_eq_getElem hi)).1
    have e2 := (hxs j _ (List.getElem?_eq_getElem hj)).1
    rw [e1, e2]
    have : (i : ℝ) < j := by exact_mod_cast hij
    nlinarith
  have hx0 : xs[0]? = some pm := by rw [h3 0 (by norm_num)]; simp
  refine ⟨.line up snr "Data", pm, xs, xs.map (Snr.camera (m / k) ((σ / k) ^ 2)), xs.map Snr.ideal,
    xs.map (Snr.total (m / k) ((σ / k) ^ 2) d (p / 100)), ?_, h2, by simp [h2], by simp [h2], by simp [h2], hsort, ?_,
    hrange, hx0, ?_, ?_⟩
  · rw [h1]; simp only [curve, List.map_map]; rfl
  · rw [List.pairwise_map]
    refine hsort.imp_of_mem fun {x y} hx _ hxy => Snr.camera_lt hη hv (hpm0.trans_le (hrange x hx).1) hxy
  · intro i t i' s ht hi hs
    rw [List.getElem?_map] at ht hi hs
    cases hx : xs[i]? with
    | none => rw [hx] at ht; cases ht
    | some x =>
      rw [hx] at ht hi hs
      cases ht; cases hi; cases hs
      have hx0 : 0 < x := hpm0.trans_le (hrange x (List.mem_of_getElem? hx)).1
      exact ⟨Snr.total_le_camera hη hv hx0, Snr.camera_le_ideal hη hη1 hv hx0⟩
  · intro t ht
    rw [List.getElem?_map, hx0] at ht
    cases ht
    rw [hpmdef]
    exact Snr.camera_threshold hη (by positivity)

end Emva
