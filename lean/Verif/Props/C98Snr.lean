import Verif.Props.C98
import Verif.Props.C59Example

/-!
C98: the limits of the y axis of the SNR plot.
-/
set_option autoImplicit false
namespace Emva
open Results Plots Spec

theorem val_plotSNRAxis (q : LSQ ℝ) (r : Res ℝ) (tops : List (Fl ℝ)) {ds : List Drawn} {a b t : Fl ℝ} {X : List (Fl ℝ)}
    {top : ℝ} (h1 : val (plotSNR q) r = .ok ds) (ha : val (uPMin q) r = .ok a) (hb : val uPSat r = .ok b)
    (hX : Np.arange a b ((b - a) / .fin 100) = .ok X) (ht : Np.idx (X.map Fl.sqrt) (-1) = .ok t)
    (htop : Py.flMax (tops ++ [t]) = .ok (.fin top)) :
    val (plotSNRAxis q tops) r = .ok (ds, tops ++ [t], (1, top)) := by
  have sP := stable_uPMin q
  have sPs := stable_uPSat (F := ℝ)
  have sS : Stable (plotSNR q) := sP.bind fun _ => sPs.bind fun _ => (Stable.lift _).bind fun X =>
    stable_snrData.bind fun _ => (stable_snrTheoretical q X).bind fun _ => (Stable.lift _).bind fun _ =>
    (stable_snrTotal q X).bind fun _ => Stable.pure _
  have t5 := fun (d : List Drawn) (t : Fl ℝ) (top : Fl ℝ) => (Stable.lift (F := ℝ) (Py.setAxis (.fin (1 : ℝ)) top)).bind
    fun ax => Stable.pure (F := ℝ) (d, tops ++ [t], ax)
  have t4 := fun (d : List Drawn) (t : Fl ℝ) => (Stable.lift (F := ℝ) (Py.flMax (tops ++ [t]))).bind fun top => t5 d t top
  have t3 := fun (d : List Drawn) (X : List (Fl ℝ)) => (Stable.lift (F := ℝ) (Np.idx (X.map Fl.sqrt) (-1))).bind fun t => t4 d t
  have t2 := fun (d : List Drawn) (a b : Fl ℝ) => (Stable.lift (F := ℝ) (Np.arange a b ((b - a) / .fin 100))).bind fun X => t3 d X
  have t1 := fun (d : List Drawn) (a : Fl ℝ) => sPs.bind fun b => t2 d a b
  unfold plotSNRAxis
  rw [val_bind_ok sS (fun d => sP.bind fun a => t1 d a) h1, val_bind_ok sP (fun a => t1 ds a) ha,
    val_bind_ok sPs (fun b => t2 ds a b) hb, val_lift_ok hX (fun X => t3 ds X),
    val_lift_ok ht (fun t => t4 ds t), val_lift_ok htop (fun top => t5 ds t top)]
  rfl

/-- C98: the SNR plot.  `tops` are the upper ends of the ideal curves of the tests already in the figure.  The y axis
goes from 1 to the greatest of them and of the new one.  All three curves stay below the upper limit, the ideal curve
ends at a value that counts for it.  The theoretical and the total curve begin outside: at the sensitivity threshold
they are below both limits. -/
theorem C98_snr (q : LSQ ℝ) (hq : q.Good) (r : Res ℝ) (sd : List ℝ) (k m ps d p : ℝ)
    (hsd : r.temporal.s2_ydark = sd.map .fin) (hl : r.temporal.texp.length = sd.length) (hne : sd ≠ [])
    (hk : 0 < k) (hm : 0 < m) (hK : val (K q) r = .ok (.fin k)) (hR : val (R q) r = .ok (.fin m))
    (hp : val uPSat r = .ok (.fin ps)) (hps : 0 < ps)
    (hd : val (DSNU1288 q) r = .ok (.num (.fin d))) (hpr : val PRNU1288 r = .ok (.fin p))
    (l1 : r.temporal.u_p.length = r.temporal.s2_y.length) (l2 : r.temporal.u_y.length = r.temporal.s2_y.length)
    (l3 : r.temporal.u_ydark.length = r.temporal.s2_y.length) (hmk : m ≤ k)
    (hsat : ∀ pm, val (uPMin q) r = .ok (.fin pm) → pm < ps) (tops : List ℝ) :
    ∃ (data : Drawn) (pm : ℝ) (xs T I S : List ℝ) (top t : ℝ), val (plotSNRAxis q (tops.map .fin)) r = .ok ([data,
        .line (xs.map .fin) (T.map .fin) "Theoretical", .line (xs.map .fin) (I.map .fin) "Ideal",
        .vline (.fin pm), .vline (.fin ps), .line (xs.map .fin) (S.map .fin) "Total SNR"],
        (tops ++ [t]).map .fin, (1, top)) ∧
      I.getLast? = some t ∧ top ∈ tops ++ [t] ∧ (∀ x ∈ tops ++ [t], x ≤ top) ∧
      (∀ v, v ∈ T ∨ v ∈ I ∨ v ∈ S → v ≤ top) ∧
      (∀ v, T[0]? = some v ∨ S[0]? = some v → ¬ Visible (1, top) v) ∧
      ∀ v, v ∈ T ∨ v ∈ I ∨ v ∈ S → 1 ≤ v → Visible (1, top) v := by
  obtain ⟨σ, pm, -, hσ, hpm, hpm0, hpmdef, -, h⟩ := C59_curves q hq r sd k m ps _ _ hsd hl hne hk hm hK hR hp hps
    hd hpr l1 l2 l3
  have hlt := hsat pm hpm
  obtain ⟨up, snr, xs, S, h1, ⟨h2, h3⟩, h4, -, -⟩ := h hlt.ne
  have h4 := h4 d p rfl rfl
  subst h4
  have hη : 0 < m / k := by positivity
  have hη1 : m / k ≤ 1 := (div_le_one hk).2 hmk
  have hv : 0 ≤ (σ / k) ^ 2 := by positivity
  have hxs : ∀ (i : ℕ) (x : ℝ), xs[i]? = some x → x = pm + i * ((ps - pm) / 100) ∧ i < 100 := by
    intro i x hx
    have hi : i < 100 := by rw [← h2]; exact (List.getElem?_eq_some_iff.1 hx).1
    rw [h3 i hi] at hx
    exact ⟨(Option.some.inj hx).symm, hi⟩
  -- the last position
  obtain ⟨x9, hx9⟩ : ∃ x, x = pm + (99 : ℕ) * ((ps - pm) / 100) := ⟨_, rfl⟩
  have hx9' : xs[99]? = some x9 := by rw [h3 99 (by norm_num), hx9]
  have hle : ∀ x ∈ xs, 0 < x ∧ x ≤ x9 := by
    intro x hx
    obtain ⟨i, hi⟩ := List.mem_iff_getElem?.1 hx
    obtain ⟨rfl, hi'⟩ := hxs i x hi
    have hi2 : (i : ℝ) ≤ 99 := by exact_mod_cast Nat.lt_succ_iff.1 hi'
    have hi3 : (0 : ℝ) ≤ i := Nat.cast_nonneg i
    rw [hx9]
    push_cast
    constructor <;> nlinarith
  have hx0 : xs[0]? = some pm := by rw [h3 0 (by norm_num)]; simp
  have hlast : (xs.map Snr.ideal).getLast? = some (Snr.ideal x9) := by
    rw [List.getLast?_eq_getElem?, List.length_map, h2, List.getElem?_map, hx9']; rfl
  obtain ⟨top, t1, t2, t3⟩ : ∃ top, Py.flMax ((tops ++ [Snr.ideal x9]).map Fl.fin) = .ok (.fin top) ∧
      top ∈ tops ++ [Snr.ideal x9] ∧ ∀ x ∈ tops ++ [Snr.ideal x9], x ≤ top := by
    generalize hL : tops ++ [Snr.ideal x9] = L
    cases L with
    | nil => simp at hL
    | cons y L =>
      obtain ⟨top, e1, e2, e3⟩ := Profiles.flMax_fin y (L.map Fl.fin) fun z hz => by
        obtain ⟨v, -, rfl⟩ := List.mem_map.1 hz; exact .inr ⟨v, rfl⟩
      rw [← List.map_cons] at e1 e2 e3
      refine ⟨top, e1, ?_, fun x hx => e3 x (List.mem_map.2 ⟨x, hx, rfl⟩)⟩
      obtain ⟨z, hz, e⟩ := List.mem_map.1 e2
      cases e; exact hz
  have htop : Snr.ideal x9 ≤ top := t3 _ (by simp)
  have up1 : ∀ x ∈ xs, Snr.ideal x ≤ top := fun x hx => (Real.sqrt_le_sqrt (hle x hx).2).trans htop
  have up2 : ∀ x ∈ xs, Snr.camera (m / k) ((σ / k) ^ 2) x ≤ top := fun x hx =>
    (Snr.camera_le_ideal hη hη1 hv (hle x hx).1).trans (up1 x hx)
  have up3 : ∀ x ∈ xs, Snr.total (m / k) ((σ / k) ^ 2) d (p / 100) x ≤ top := fun x hx =>
    (Snr.total_le_camera hη hv (hle x hx).1).trans (up2 x hx)
  have hall : ∀ v, v ∈ xs.map (Snr.camera (m / k) ((σ / k) ^ 2)) ∨ v ∈ xs.map Snr.ideal ∨
      v ∈ xs.map (Snr.total (m / k) ((σ / k) ^ 2) d (p / 100)) → v ≤ top := by
    rintro v (hv | hv | hv) <;> obtain ⟨x, hx, rfl⟩ := List.mem_map.1 hv
    · exact up2 x hx
    · exact up1 x hx
    · exact up3 x hx
  have hstart : Snr.camera (m / k) ((σ / k) ^ 2) pm < 1 ∧ Snr.camera (m / k) ((σ / k) ^ 2) pm < top := by
    constructor
    · rw [hpmdef]
      exact (Snr.camera_threshold hη (by positivity)).2
    · refine (Snr.camera_le_ideal hη hη1 hv hpm0).trans_lt (lt_of_lt_of_le ?_ htop)
      refine Real.sqrt_lt_sqrt hpm0.le ?_
      rw [hx9]; push_cast; nlinarith
  refine ⟨.line up snr "Data", pm, xs, xs.map (Snr.camera (m / k) ((σ / k) ^ 2)), xs.map Snr.ideal,
    xs.map (Snr.total (m / k) ((σ / k) ^ 2) d (p / 100)), top, Snr.ideal x9, ?_, hlast, t2, t3, hall, ?_, ?_⟩
  · have hxeq : xs = (List.range 100).map fun i : ℕ => pm + i * ((ps - pm) / 100) := by
      apply List.ext_getElem?
      intro i
      by_cases hi : i < 100
      · rw [h3 i hi, List.getElem?_map, List.getElem?_range hi]; rfl
      · rw [List.getElem?_eq_none (by omega), List.getElem?_eq_none (by simp; omega)]
    have hA := arange_hundred pm ps hlt.ne
    rw [← hxeq] at hA
    have hsq : (xs.map (Fl.fin : ℝ → Fl ℝ)).map Fl.sqrt = (xs.map Snr.ideal).map .fin := by
      rw [List.map_map, List.map_map]
      exact List.map_congr_left fun x hx => Fl.sqrt_fin (hle x hx).1.le
    have hI : Np.idx ((xs.map (Fl.fin : ℝ → Fl ℝ)).map Fl.sqrt) (-1) = .ok (.fin (Snr.ideal x9)) := by
      rw [hsq]
      unfold Np.idx
      simp only [List.length_map, h2, List.getElem?_map]
      rw [show (if (-1 : ℤ) < 0 then -1 + ((100 : ℕ) : ℤ) else -1) = 99 by norm_num]
      rw [if_neg (by norm_num), show (99 : ℤ).toNat = 99 from rfl, hx9']
      rfl
    have hT : Py.flMax (tops.map (Fl.fin : ℝ → Fl ℝ) ++ [.fin (Snr.ideal x9)]) = .ok (.fin top) := by
      rw [← t1, List.map_append]; rfl
    rw [val_plotSNRAxis q r (tops.map .fin) h1 hpm hp hA hI hT, List.map_append]
    simp only [curve, List.map_map]
    rfl
  · rintro v (hv' | hv') ⟨i1, -⟩ <;> rw [List.getElem?_map, hx0] at hv' <;> cases hv'
    · exact absurd (lt_min hstart.1 hstart.2) (not_lt.2 i1)
    · have := Snr.total_le_camera (d := d) (p := p / 100) hη hv hpm0
      exact absurd (lt_min (this.trans_lt hstart.1) (this.trans_lt hstart.2)) (not_lt.2 i1)
  · intro v hv' h1'
    exact ⟨(min_le_left _ _).trans h1', (hall v hv').trans (le_max_right _ _)⟩

/-- a second test in a figure whose ideal curve went up to 20 -/
example (q : LSQ ℝ) (hq : q.Good) : ∃ lines tops top, val (plotSNRAxis q [.fin 20]) sampleReal = .ok (lines, tops, (1, top)) ∧
    20 ≤ top := by
  obtain ⟨hK, hR⟩ := sampleReal_KR q hq
  obtain ⟨h1, h2⟩ := sampleReal_s2
  have hd := val_dsnu q (stable_s2Y (F := ℝ) true) sampleReal (9 / 2) (1 / 10) h1 (by norm_num) hK
  rw [if_neg (by norm_num)] at hd
  have hp := val_prnu stable_s2Y sampleReal 8 (9 / 2) 50 10 h2 h1 rfl rfl (by norm_num)
  rw [if_neg (by norm_num)] at hp
  suffices hsat : ∀ pm, val (uPMin q) sampleReal = .ok (.fin pm) → pm < 300 by
    obtain ⟨data, pm, xs, T, I, S, top, t, h1, -, -, h4, -, h6, -⟩ := C98_snr q hq sampleReal [1, 1, 1, 1, 1] (1 / 10)
      (1 / 10 * (1 / 2)) 300 _ _ rfl rfl (by simp) (by norm_num) (by norm_num) hK hR sampleReal_psat (by norm_num) hd hp
      rfl rfl rfl (by norm_num) hsat [20]
    exact ⟨_, _, top, h1, h4 20 (by simp)⟩
  intro pm hpm
  obtain ⟨σ, pm', hs, hσ, hpm', -, rfl, -⟩ := C59_curves q hq sampleReal [1, 1, 1, 1, 1] (1 / 10) (1 / 10 * (1 / 2))
    300 _ _ rfl rfl (by simp) (by norm_num) (by norm_num) hK hR sampleReal_psat (by norm_num) hd hp rfl rfl rfl
  rw [hpm] at hpm'
  cases hpm'
  obtain ⟨v, σ', hv, hs', -, h24, -⟩ := C31_lower_limit q hq sampleReal [1, 1, 1, 1, 1] rfl rfl (by simp)
  rw [hs] at hs'
  cases hs'
  have hv1 : v = 1 := by
    rcases hv with ⟨-, h⟩ | ⟨-, m, h⟩
    · cases h; rfl
    · refine (bestLine_exact h (m := 0) (b := 1) ?_).2
      intro p hp
      have := (List.of_mem_zip hp).2
      simp at this
      simp [this]
  rw [hv1, max_eq_left (by norm_num)] at h24
  have : σ = 1 := by nlinarith
  rw [this]; norm_num

end Emva
