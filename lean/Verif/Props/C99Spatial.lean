import Verif.Props.C99Example
import Verif.Props.C33_C34

/-!
C99, continued: the nonuniformities and the dark current.
-/
set_option autoImplicit false
namespace Emva
namespace Nearby
open Results Data Spec Filter Topology Asymptotics

variable {r : Res ℝ} {uy ud sy sd : List ℝ}

/-- the number in a float -/
def real : Fl ℝ → ℝ
  | .fin x => x
  | _ => 0

theorem within_real {δ : ℝ} {a b : Fl ℝ} (h : Within δ a b) : b = .fin (real b) ∧ |real b - real a| ≤ δ := by
  obtain ⟨x, y, rfl, rfl, h⟩ := h
  exact ⟨rfl, h⟩

theorem side_near (d : Bool) : ∀ᶠ p in vic r, NearbySide p.1 (side d r.spatial) (side d p.2.spatial) := by
  filter_upwards [vic_near] with p hp
  cases d
  · exact hp.2.bright
  · exact hp.2.dark

theorem ty_side (d : Bool) (f : SpatialData ℝ → Fl ℝ) (h : ∀ δ s s', NearbySide δ s s' → Within δ (f s) (f s')) :
    Ty r (fun p => real (f (side d p.2.spatial))) (real (f (side d r.spatial))) :=
  Ty.of_le <| (side_near d).mono fun _ hp => (within_real (h _ _ _ hp)).2

theorem s2Y_near (d : Bool) (hL : 0 < (side d r.spatial).L) : ∃ x, LipM r (val (s2Y d)) x := by
  have hL' : ((side d r.spatial).L : ℝ) ≠ 0 := by exact_mod_cast hL.ne'
  refine ⟨_, _, ?_, (ty_side d (·.avg_var) fun _ _ _ h => h.avg_var).sub
    ((ty_side d (·.var_mean) fun _ _ _ h => h.var_mean).div (Ty.const ((side d r.spatial).L : ℝ)) hL')⟩
  filter_upwards [side_near d] with p hp
  show (Except.ok ((side d p.2.spatial).avg_var - (side d p.2.spatial).var_mean / .fin ((side d p.2.spatial).L : ℝ)) :
    Except PyErr (Fl ℝ)) = _
  rw [(within_real hp.avg_var).1, (within_real hp.var_mean).1, hp.size.1, Fl.fin_div hL', Fl.fin_sub]
  rfl

theorem rcp_near (d : Bool) (hL : 0 < (side d r.spatial).L) (hMN : (side d r.spatial).M * (side d r.spatial).N ≠
    (side d r.spatial).M + (side d r.spatial).N) : (∃ x, LipM r (val (s2YRow d)) x) ∧ (∃ x, LipM r (val (s2YCol d)) x) ∧
      ∃ x, LipM r (val (s2YPixel d)) x := by
  have hz : ((side d r.spatial).M : ℤ) * (side d r.spatial).N - (side d r.spatial).M - (side d r.spatial).N ≠ 0 := by
    intro h0
    apply hMN
    have : ((side d r.spatial).M : ℤ) * (side d r.spatial).N = (side d r.spatial).M + (side d r.spatial).N := by linarith
    exact_mod_cast this
  obtain ⟨t, yt, et, tt⟩ := s2Y_near d hL
  have tc := ty_side (r := r) d (·.avg_var_cav) fun _ _ _ h => h.avg_var_cav
  have tr := ty_side (r := r) d (·.avg_var_rav) fun _ _ _ h => h.avg_var_rav
  set m : ℤ := ((side d r.spatial).M : ℤ) with hm
  set n : ℤ := ((side d r.spatial).N : ℤ) with hn
  have ev : ∀ᶠ p in vic r, val (s2YRow d) p.2 = .ok (.fin (((m * n - n : ℤ) : ℝ) / ((m * n - m - n : ℤ) : ℝ) *
        real (side d p.2.spatial).avg_var_rav - (m : ℝ) / ((m * n - m - n : ℤ) : ℝ) * (yt p - real (side d p.2.spatial).avg_var_cav))) ∧
      val (s2YCol d) p.2 = .ok (.fin (((m * n - m : ℤ) : ℝ) / ((m * n - m - n : ℤ) : ℝ) *
        real (side d p.2.spatial).avg_var_cav - (n : ℝ) / ((m * n - m - n : ℤ) : ℝ) * (yt p - real (side d p.2.spatial).avg_var_rav))) ∧
      val (s2YPixel d) p.2 = .ok (.fin (((m * n : ℤ) : ℝ) / ((m * n - m - n : ℤ) : ℝ) *
        (yt p - real (side d p.2.spatial).avg_var_cav - real (side d p.2.spatial).avg_var_rav))) := by
    filter_upwards [side_near d, et] with p hp ep
    obtain ⟨e1, e2, e3⟩ := val_rcp d p.2 _ rfl
    obtain ⟨-, hM, hN⟩ := hp.size
    have hc := (within_real hp.avg_var_cav).1
    have hv := (within_real hp.avg_var_rav).1
    generalize real (side d p.2.spatial).avg_var_cav = c at hc ⊢
    generalize real (side d p.2.spatial).avg_var_rav = v at hv ⊢
    rw [ep, hc, hv, hM, hN, ← hm, ← hn, intDiv_ne hz, intDiv_ne hz] at e1 e2
    rw [ep, hc, hv, hM, hN, ← hm, ← hn, intDiv_ne hz] at e3
    simp only [except_bind_ok, Fl.fin_sub, Fl.fin_mul] at e1 e2 e3
    exact ⟨e1, e2, e3⟩
  exact ⟨⟨_, _, ev.mono fun p h => h.1, ((Ty.const _).mul tr).sub ((Ty.const _).mul (tt.sub tc))⟩,
    ⟨_, _, ev.mono fun p h => h.2.1, ((Ty.const _).mul tc).sub ((Ty.const _).mul (tt.sub tr))⟩,
    ⟨_, _, ev.mono fun p h => h.2.2, (Ty.const _).mul ((tt.sub tc).sub tr)⟩⟩

theorem dsnu_near (q : LSQ ℝ) {x : M ℝ (Fl ℝ)} (hx : Stable x) {v g : ℝ} (hv : 0 < v) (hg : 0 < g) (h : LipM r (val x) v)
    (hK : LipM r (val (K q)) g) : LipN r (val (dsnu q x)) (Real.sqrt v / g) := by
  obtain ⟨y, e, t⟩ := h
  obtain ⟨yk, ek, tk⟩ := hK
  refine ⟨_, ?_, (t.sqrt hv.ne').div tk hg.ne'⟩
  filter_upwards [e, ek, t.tendsto.eventually_const_lt hv, tk.tendsto.eventually_const_lt hg] with p h1 h2 h3 h4
  rw [val_dsnu q hx p.2 _ _ h1 h4.ne' h2, if_neg (not_lt.2 h3.le)]

theorem dsnu_nan (q : LSQ ℝ) {x : M ℝ (Fl ℝ)} (hx : Stable x) {v : ℝ} (hv : v < 0) (h : LipM r (val x) v) :
    ∀ᶠ p in vic r, val (dsnu q x) p.2 = .ok .npnan := by
  obtain ⟨y, e, t⟩ := h
  have sK := stable_K q
  filter_upwards [e, t.tendsto.eventually_lt_const hv] with p h1 h3
  unfold dsnu
  rw [val_bind_ok hx (by stab) h1, if_pos (show Fl.lt (.fin (y p)) (.fin 0) = true from decide_eq_true h3)]
  rfl

theorem prnu_near {x : Bool → M ℝ (Fl ℝ)} (hx : ∀ d, Stable (x d)) {b d : ℝ} (hbd : d < b)
    (hne : r.spatial.bright.avg_mean ≠ r.spatial.dark.avg_mean) (hfin : Spec.Nearby 0 r r)
    (hb : LipM r (val (x false)) b) (hd : LipM r (val (x true)) d) : ∃ z, LipM r (val (prnu x)) z := by
  obtain ⟨yb, eb, tb⟩ := hb
  obtain ⟨yd, ed, td⟩ := hd
  have t1 := ty_side (r := r) false (·.avg_mean) fun _ _ _ h => h.avg_mean
  have t2 := ty_side (r := r) true (·.avg_mean) fun _ _ _ h => h.avg_mean
  have hm : real (side false r.spatial).avg_mean ≠ real (side true r.spatial).avg_mean := by
    intro e
    apply hne
    rw [(within_real hfin.bright.avg_mean).1, (within_real hfin.dark.avg_mean).1]
    exact congrArg _ e
  refine ⟨_, _, ?_, ((((tb.sub td).sqrt (sub_pos.2 hbd).ne').mul (Ty.const 100)).div (t1.sub t2) (sub_ne_zero.2 hm))⟩
  filter_upwards [eb, ed, side_near (r := r) false, side_near (r := r) true, td.tendsto.eventually_lt tb.tendsto hbd,
    (t1.sub t2).tendsto.eventually_ne (sub_ne_zero.2 hm)] with p h1 h2 h3 h4 h5 h6
  rw [val_prnu hx p.2 _ _ _ _ h1 h2 (within_real h3.avg_mean).1 (within_real h4.avg_mean).1 (sub_ne_zero.1 h6),
    if_neg (not_lt.2 h5.le)]

end Nearby
open Nearby Results Data Spec Filter Topology

theorem lip_of {r : Res ℝ} {f : Res ℝ → Except PyErr (Fl ℝ)} (hfin : Spec.Nearby 0 r r) (h : ∃ x, LipM r f x) {v : ℝ}
    (hv : f r = .ok (.fin v)) : LipM r f v := by
  obtain ⟨x, h⟩ := h
  have : x = v := by have := (h.value hfin).symm.trans hv; simpa using this
  rwa [this] at h

/-- C99: the variances of the nonuniformities move at most in proportion to the changes of the data; so does each DSNU as long as
its variance is positive (for a negative variance the result stays `np.nan`), and each PRNU as long as the bright variance exceeds
the dark one and the two mean values differ. -/
theorem C99_spatial_partial (q : LSQ ℝ) (hq : q.Good) (r : Res ℝ) (uy ud sy sd : List ℝ) (ys : ℝ) (j : ℕ)
    (hr : Regular r uy ud sy sd ys j) (hMN : ∀ d, (side d r.spatial).M * (side d r.spatial).N ≠
      (side d r.spatial).M + (side d r.spatial).N) (g : ℝ) (hg : 0 < g) (hK : val (K q) r = .ok (.fin g)) :
    ∀ x ∈ [s2Y, s2YRow, s2YCol, s2YPixel (F := ℝ)],
      (∀ d, Steady (val (x d)) r) ∧
      ∀ v, val (x true) r = .ok (.fin v) →
        (0 < v → SteadyNum (val (dsnu q (x true))) r) ∧
        (v < 0 → ∃ δ₀ > 0, ∀ δ r', 0 ≤ δ → δ ≤ δ₀ → Spec.Nearby δ r r' → val (dsnu q (x true)) r' = .ok .npnan) ∧
        ∀ b, val (x false) r = .ok (.fin b) → v < b → r.spatial.bright.avg_mean ≠ r.spatial.dark.avg_mean →
          Steady (val (prnu x)) r := by
  have hfin := hr.finite
  have hL : ∀ d, 0 < (side d r.spatial).L := by
    intro d
    cases d
    · exact (hr.data.size _ (.inl rfl)).2.2
    · exact (hr.data.size _ (.inr rfl)).2.2
  have LK := hr.gain hq hK
  have key : ∀ x : Bool → M ℝ (Fl ℝ), (∀ d, Stable (x d)) → (∀ d, ∃ z, LipM r (val (x d)) z) →
      (∀ d, Steady (val (x d)) r) ∧
      ∀ v, val (x true) r = .ok (.fin v) →
        (0 < v → SteadyNum (val (dsnu q (x true))) r) ∧
        (v < 0 → ∃ δ₀ > 0, ∀ δ r', 0 ≤ δ → δ ≤ δ₀ → Spec.Nearby δ r r' → val (dsnu q (x true)) r' = .ok .npnan) ∧
        ∀ b, val (x false) r = .ok (.fin b) → v < b → r.spatial.bright.avg_mean ≠ r.spatial.dark.avg_mean →
          Steady (val (prnu x)) r := by
    intro x sx hx
    refine ⟨fun d => ?_, fun v hv => ⟨fun h0 => ?_, fun h0 => ?_, fun b hb hvb hne => ?_⟩⟩
    · obtain ⟨z, hz⟩ := hx d
      exact hz.steady hfin
    · exact (dsnu_near q (sx true) h0 hg (lip_of hfin (hx true) hv) LK).steady hfin
    · obtain ⟨δ₀, h1, h2⟩ := vic_elim (dsnu_nan q (sx true) h0 (lip_of hfin (hx true) hv))
      exact ⟨δ₀, h1, h2⟩
    · obtain ⟨z, hz⟩ := prnu_near sx hvb hne hfin (lip_of hfin (hx false) hb) (lip_of hfin (hx true) hv)
      exact hz.steady hfin
  intro x hx
  simp only [List.mem_cons, List.not_mem_nil, or_false] at hx
  rcases hx with rfl | rfl | rfl | rfl
  · exact key _ stable_s2Y fun d => s2Y_near d (hL d)
  · exact key _ stable_s2YRow fun d => (rcp_near d (hL d) (hMN d)).1
  · exact key _ stable_s2YCol fun d => (rcp_near d (hL d) (hMN d)).2.1
  · exact key _ stable_s2YPixel fun d => (rcp_near d (hL d) (hMN d)).2.2

/-- C99: with more than two exposure times the dark current from the mean values, and the one from the variances where it is
positive, move at most in proportion to the changes of the data. -/
theorem C99_dark_partial (q : LSQ ℝ) (hq : q.Good) (r : Res ℝ) (uy ud sy sd : List ℝ) (ys : ℝ) (j : ℕ)
    (hr : Regular r uy ud sy sd ys j) (g : ℝ) (hg : 0 < g) (hK : val (K q) r = .ok (.fin g))
    (hmany : 2 < r.temporal.texp.toFinset.card) :
    SteadyNum (val (uIMeanDN q)) r ∧ SteadyNum (val (uIMean q)) r ∧
    ∀ m b, BestLine (r.temporal.texp.zip sd) m b → 0 < m →
      SteadyNum (val (uIVarDN q)) r ∧ SteadyNum (val (uIVar q)) r := by
  have hfin := hr.finite
  have h := hr.data
  have sK := stable_K q
  obtain ⟨yk, ek, tk⟩ := hr.gain hq hK
  have hfew : ¬ Np.nUnique r.temporal.texp ≤ 2 := by rw [nUnique_eq]; omega
  have hX := two_distinct hmany
  have over : ∀ (x : M ℝ (PyNum ℝ)) (z : ℝ), Stable x → LipN r (val x) z → LipN r (val (overK q x)) (z / g) := by
    rintro x z sx ⟨y, e, t⟩
    refine ⟨_, ?_, t.div tk hg.ne'⟩
    filter_upwards [e, ek, tk.tendsto.eventually_const_lt hg] with p h1 h2 h3
    unfold overK
    rw [val_bind_ok sx (by stab) h1]
    dsimp only
    rw [val_bind_ok sK (by stab) h2, val_pure, Fl.fin_div h3.ne']
  have mean : ∃ z, LipN r (val (uIMeanDN q)) z := by
    obtain ⟨m, b, ym, yb, tm, -, e⟩ := line_near (r := r) q hq r.temporal.texp hX (g := fun r' => entry r'.temporal.u_ydark) ty_ud
    refine ⟨_, _, ?_, tm.mul (Ty.const (10 ^ 9))⟩
    filter_upwards [vic_near, shape_near h] with p hp hs
    have e' := e p
    rw [h.texp, ← hs.u_ydark, ← hp.2.texp] at e'
    unfold uIMeanDN
    rw [val_bind_ok stable_few (by stab) rfl, if_neg (by simp only [hp.2.texp]; simpa using hfew),
      val_bind_ok stable_temporal (by stab) rfl, e']
    rfl
  obtain ⟨z, hz⟩ := mean
  refine ⟨hz.steady hfin, (over _ _ (stable_uIMeanDN q) hz).steady hfin, fun m b hb hm => ?_⟩
  have var : ∃ z, LipN r (val (uIVarDN q)) z := by
    obtain ⟨m', b', ym, yb, tm, tb, e⟩ := line_near (r := r) q hq r.temporal.texp hX (g := fun r' => entry r'.temporal.s2_ydark) ty_sd
    have hmm : m' = m := by
      have e0 := e (0, r)
      rw [h.texp, ← (shape_self h).s2_ydark, h.s2_ydark] at e0
      obtain ⟨m1, b1, e1, hb1⟩ := C28_best_line q hq r.temporal.texp sd (by rw [h.texp, h.vard]) hX
      rw [e1] at e0
      have hy : ym (0, r) = m' := by
        obtain ⟨C, hC⟩ := Asymptotics.IsBigO.bound tm
        obtain ⟨δ₀, h0, H⟩ := vic_elim hC
        have := H 0 r le_rfl h0.le hfin
        have : ym (0, r) - m' = 0 := by simpa using this
        linarith
      have hu := Fit.bestLine_unique hb fun k c => by
        by_cases hk : (k, c) = (m1, b1)
        · cases hk; exact le_rfl
        · exact (hb1 k c hk).le
      have : m1 = ym (0, r) := by
        have := congrArg Prod.fst (Except.ok.inj e0)
        simpa using this
      rw [← hy, ← this, hu.1]
    subst hmm
    refine ⟨_, _, ?_, (tm.div tk hg.ne').mul (Ty.const (10 ^ 9))⟩
    filter_upwards [vic_near, shape_near h, ek, tk.tendsto.eventually_const_lt hg, tm.tendsto.eventually_const_lt hm] with p hp hs h1 h2 h3
    have e' := e p
    rw [h.texp, ← hs.s2_ydark, ← hp.2.texp] at e'
    unfold uIVarDN
    rw [val_bind_ok stable_few (by stab) rfl, if_neg (by simp only [hp.2.texp]; simpa using hfew),
      val_bind_ok stable_temporal (by stab) rfl, e', val_bind_ok (Stable.lift _) (by stab) (val_lift _ _),
      if_neg (by simpa using h3.le), val_bind_ok sK (by stab) h1, val_pure, Fl.fin_div h2.ne', Fl.fin_mul]
  obtain ⟨z, hz⟩ := var
  exact ⟨hz.steady hfin, (over _ _ (stable_uIVarDN q) hz).steady hfin⟩

/-- C99: the DSNU in digital numbers. -/
theorem C99_dsnu_dn_partial (r : Res ℝ) (uy ud sy sd : List ℝ) (h : DataOk r uy ud sy sd) (hfin : Spec.Nearby 0 r r) (v : ℝ)
    (hv : val (s2Y true) r = .ok (.fin v)) (h0 : 0 < v) : SteadyNum (val DSNU1288DN) r := by
  obtain ⟨y, e, t⟩ := lip_of hfin (s2Y_near true (h.size _ (.inr rfl)).2.2) hv
  refine LipN.steady hfin ⟨_, ?_, t.sqrt h0.ne'⟩
  have s1 := stable_s2Y (F := ℝ) true
  filter_upwards [e, t.tendsto.eventually_const_lt h0] with p h1 h2
  unfold DSNU1288DN
  rw [val_bind_ok s1 (by stab) h1, if_neg (by simpa using h2.le), val_bind_ok s1 (by stab) h1, val_pure, Fl.sqrt_fin h2.le]

/-- C99: a result per pixel area is as steady as the result itself. -/
theorem C99_area_partial (x : M ℝ (Fl ℝ)) (hx : Stable x) (r : Res ℝ) (a : ℝ) (ha : r.pixel_area = some a) (h0 : a ≠ 0)
    (h : Steady (val x) r) : SteadyNum (val (perArea x)) r := by
  obtain ⟨z, C, δ₀, hδ, hz, H⟩ := h
  refine ⟨z / a, C / |a|, δ₀, hδ, ?_, fun δ r' h1 h2 hn => ?_⟩
  · rw [(val_perArea x hx r).2.2 a ha h0, hz]
    simp [Except.map, Fl.fin_div h0]
  · obtain ⟨z', hz', hle⟩ := H δ r' h1 h2 hn
    refine ⟨z' / a, ?_, ?_⟩
    · rw [(val_perArea x hx r').2.2 a (hn.area.trans ha) h0, hz']
      simp [Except.map, Fl.fin_div h0]
    · rw [← sub_div, abs_div, div_mul_eq_mul_div]
      gcongr

/-- the hypotheses hold for the sample -/
example (q : LSQ ℝ) (hq : q.Good) : SteadyNum (val (DSNU1288 q)) sampleReal ∧ Steady (val PRNU1288) sampleReal ∧
    SteadyNum (val (uIMean q)) sampleReal := by
  obtain ⟨hK, hR⟩ := sampleReal_KR q hq
  obtain ⟨h1, h2⟩ := sampleReal_s2
  have h := C99_spatial_partial q hq sampleReal _ _ _ _ _ _ sampleReal_regular (by intro d; cases d <;> decide) (1 / 10) (by norm_num) hK
    s2Y (by simp)
  obtain ⟨a, -, b⟩ := h.2 _ h1
  refine ⟨a (by norm_num), b 8 h2 (by norm_num) ?_, ?_⟩
  · show (Fl.fin 50 : Fl ℝ) ≠ .fin 10
    rw [Ne, Fl.fin_inj]; norm_num
  · refine (C99_dark_partial q hq sampleReal _ _ _ _ _ _ sampleReal_regular (1 / 10) (by norm_num) hK ?_).2.1
    show 2 < ([1, 2, 3, 4, 5] : List ℝ).toFinset.card
    rw [List.toFinset_card_of_nodup (by norm_num)]
    norm_num

example : SteadyNum (val DSNU1288DN) sampleReal :=
  C99_dsnu_dn_partial sampleReal _ _ _ _ sampleReal_consistent (sampleReal_near 0 le_rfl) _ sampleReal_s2.1 (by norm_num)

example (q : LSQ ℝ) (hq : q.Good) : SteadyNum (val (uPMinArea q)) sampleReal := by
  obtain ⟨hK, hR⟩ := sampleReal_KR q hq
  exact C99_area_partial _ (stable_uPMin q) sampleReal 4 rfl (by norm_num)
    (C99_steady_partial q hq sampleReal _ _ _ _ _ _ sampleReal_regular (1 / 10) (1 / 10 * (1 / 2)) 300 (by norm_num)
      (by norm_num) (by norm_num) hK hR sampleReal_psat).2.2.2.2.2.2.1

end Emva
