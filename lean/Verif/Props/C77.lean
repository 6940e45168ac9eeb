import Verif.Props.C21_C25_C26
import Verif.Props.C29_C32
import Verif.Props.C22_C24
import Verif.Props.C59
import Verif.Props.C37
import Verif.Props.C17_C18
import Verif.Props.C19_C20

/-!
C77: when every result can be computed.
-/
set_option autoImplicit false
namespace Emva
open Results Data Spec Routines Py

namespace Spec

/-- The data of an evaluation as `Data1288` produces them: six temporal arrays of one length with finite values, two images
of the same shape with `M` rows and `N` columns. -/
structure DataOk (r : Res ℝ) (uy ud sy sd : List ℝ) : Prop where
  u_y : r.temporal.u_y = uy.map .fin
  u_ydark : r.temporal.u_ydark = ud.map .fin
  s2_y : r.temporal.s2_y = sy.map .fin
  s2_ydark : r.temporal.s2_ydark = sd.map .fin
  dark : ud.length = uy.length
  var : sy.length = uy.length
  vard : sd.length = uy.length
  photons : r.temporal.u_p.length = uy.length
  texp : r.temporal.texp.length = uy.length
  shape : r.spatial.bright.h = r.spatial.dark.h ∧ r.spatial.bright.w = r.spatial.dark.w
  size : ∀ s, s = r.spatial.bright ∨ s = r.spatial.dark → s.M = s.h ∧ s.N = s.w ∧ 0 < s.L

end Spec

namespace Results

/-- the computation raises no exception -/
def Computes {α : Type} (m : M ℝ α) (r : Res ℝ) : Prop := ∃ v, val m r = .ok v

theorem Computes.pure {α : Type} (a : α) (r : Res ℝ) : Computes (pure a : M ℝ α) r := ⟨a, rfl⟩

theorem Computes.ask {α : Type} (f : Res ℝ → α) (r : Res ℝ) : Computes (ask f) r := ⟨f r, rfl⟩

theorem Computes.lift {α : Type} {x : Except PyErr α} {a : α} (h : x = .ok a) (r : Res ℝ) : Computes (lift x : M ℝ α) r :=
  ⟨a, h⟩

theorem Computes.bind {α β : Type} {x : M ℝ α} {f : α → M ℝ β} {r : Res ℝ} (sx : Stable x) (sf : ∀ a, Stable (f a))
    (hx : Computes x r) (hf : ∀ a, val x r = .ok a → Computes (f a) r) : Computes (x >>= f) r := by
  obtain ⟨a, ha⟩ := hx
  obtain ⟨b, hb⟩ := hf a ha
  exact ⟨b, by rw [val_bind_ok sx sf ha, hb]⟩

theorem Computes.of_bind {α β : Type} {x : M ℝ α} {f : α → M ℝ β} {r : Res ℝ} (h : Computes (x >>= f) r) :
    Computes x r := by
  obtain ⟨b, hb⟩ := h
  unfold val at hb
  rw [bind_def] at hb
  rcases hx : x r with ⟨v, r'⟩
  rw [hx] at hb
  cases v with
  | error e => cases hb
  | ok a => exact ⟨a, by unfold val; rw [hx]⟩

theorem Computes.as {α : Type} {x : M ℝ α} {f : α → Value} {r : Res ℝ} (sx : Stable x) (hx : Computes x r) :
    Computes (x.as f) r := Computes.bind sx (fun _ => Stable.pure _) hx fun _ _ => Computes.pure _ _

theorem Computes.perArea {x : M ℝ (Fl ℝ)} {r : Res ℝ} (sx : Stable x) (hx : Computes x r) : Computes (perArea x) r := by
  refine Computes.bind stable_area (by intro a; stab) (Computes.ask _ _) fun a _ => ?_
  cases a with
  | none => exact Computes.pure _ _
  | some a =>
    by_cases h0 : a = 0
    · simp only [h0, if_true]; exact Computes.pure _ _
    · simp only [if_neg h0]
      exact Computes.bind sx (fun _ => Stable.pure _) hx fun _ _ => Computes.pure _ _

variable {r : Res ℝ} {uy ud sy sd : List ℝ}

theorem slice_nonempty {α : Type} (l : List α) (i j : ℕ) (hj : j < l.length) (hij : i ≤ j) : Np.slice l i (j + 1) ≠ [] := by
  intro h
  have := congrArg List.length h
  simp [Np.slice] at this
  omega

theorem slice_length {α β : Type} (a : List α) (b : List β) (h : a.length = b.length) (i j : ℕ) :
    (Np.slice a i j).length = (Np.slice b i j).length := by
  simp [Np.slice, h]

theorem linearB0_ok (q : LSQ ℝ) (X Y : List (Fl ℝ)) (h : X.length = Y.length) (hne : X ≠ []) :
    linearB0 q X Y = .ok (q.b0 X Y) := by
  unfold linearB0
  rw [Np.bin_eq_len _ _ _ h]
  have : 0 < X.length := List.length_pos_of_ne_nil hne
  simp only [List.length_zipWith]
  rw [if_neg (by omega)]

theorem linearB_ok (q : LSQ ℝ) (X Y : List (Fl ℝ)) (h : X.length = Y.length) (h2 : 2 ≤ X.length) :
    linearB q X Y = .ok (q.b X Y) := by
  unfold linearB
  rw [Np.bin_eq_len _ _ _ h]
  simp only [List.length_zipWith]
  rw [if_neg (by omega)]

theorem signal_ok (h : DataOk r uy ud sy sd) : val signal r = .ok ((diff uy ud).map .fin) := by
  show Np.bin (· - ·) r.temporal.u_y r.temporal.u_ydark = _
  exact signal_fin r uy ud h.u_y h.u_ydark h.dark.symm

theorem diff_length (h : ud.length = uy.length) : (diff uy ud).length = uy.length := by
  simp [diff, h]

theorem LastWhere.lt {α : Type} {P : α → Prop} {l : List α} {k : ℕ} (h : LastWhere P l k) : k < l.length := by
  obtain ⟨⟨x, hx, -⟩, -⟩ := h
  exact (List.getElem?_eq_some_iff.1 hx).1

/-- the gain fit -/
theorem computes_K (q : LSQ ℝ) (h : DataOk r uy ud sy sd) {j : ℕ} (hj : val indexSensitivityMax r = .ok j)
    (hlt : j < uy.length) : Computes (K q) r := by
  unfold K
  have h1 := signal_ok h
  refine Computes.bind stable_signal (by intro a; have := @stable_smax ℝ _ _; stab) ⟨_, h1⟩ fun X hX => ?_
  rw [h1] at hX; cases hX
  refine Computes.bind stable_temporal (by intro a; have := @stable_smax ℝ _ _; stab) (Computes.ask _ _) fun t ht => ?_
  cases ht
  have h2 : Np.bin (fun a b : Fl ℝ => a - b) r.temporal.s2_y r.temporal.s2_ydark =
      .ok ((diff sy sd).map .fin) := by
    rw [Np.bin_eq_len _ _ _ (by rw [h.s2_y, h.s2_ydark]; simp [h.var, h.vard]), h.s2_y, h.s2_ydark, diff]
    simp [List.zipWith_map, List.map_zipWith]
  refine Computes.bind (Stable.lift _) (by intro a; have := @stable_smax ℝ _ _; stab) (Computes.lift h2 _) fun Y hY => ?_
  have hY' : Y = (diff sy sd).map .fin := by
    have := h2.symm.trans (show _ = Except.ok Y from hY)
    exact (Except.ok.inj this).symm
  subst hY'
  refine Computes.bind stable_smin (by intro a; have := @stable_smax ℝ _ _; stab) (Computes.pure _ _) fun i hi => ?_
  cases hi
  refine Computes.bind stable_smax (by stab) ⟨_, hj⟩ fun j' hj' => ?_
  rw [hj] at hj'; cases hj'
  refine Computes.lift (linearB0_ok q _ _ ?_ ?_) _
  · refine slice_length _ _ ?_ _ _
    simp [diff, h.dark, h.var, h.vard]
  · refine slice_nonempty _ _ _ ?_ (Nat.zero_le _)
    simpa [diff, h.dark] using hlt

/-- the responsivity fit -/
theorem computes_R (q : LSQ ℝ) (h : DataOk r uy ud sy sd) {j : ℕ} (hj : val indexSensitivityMax r = .ok j)
    (hlt : j < uy.length) : Computes (R q) r := by
  unfold R
  have h1 := signal_ok h
  refine Computes.bind stable_signal (by intro a; have := @stable_smax ℝ _ _; stab) ⟨_, h1⟩ fun X hX => ?_
  rw [h1] at hX; cases hX
  refine Computes.bind stable_photons (by intro a; have := @stable_smax ℝ _ _; stab) (Computes.ask _ _) fun t ht => ?_
  cases ht
  refine Computes.bind stable_smin (by intro a; have := @stable_smax ℝ _ _; stab) (Computes.pure _ _) fun i hi => ?_
  cases hi
  refine Computes.bind stable_smax (by stab) ⟨_, hj⟩ fun j' hj' => ?_
  rw [hj] at hj'; cases hj'
  refine Computes.lift (linearB0_ok q _ _ ?_ ?_) _
  · refine slice_length _ _ ?_ _ _
    simp [diff, h.dark, h.photons]
  · refine slice_nonempty _ _ _ ?_ (Nat.zero_le _)
    simpa [h.photons] using hlt

/-- more than two exposure times: at least three points -/
theorem many_exposures (h : DataOk r uy ud sy sd) (hf : ¬ Np.nUnique r.temporal.texp ≤ 2) : 2 ≤ uy.length := by
  have h1 : r.temporal.texp.dedup.length ≤ r.temporal.texp.length := (List.dedup_sublist _).length_le
  have h2 := h.texp
  unfold Np.nUnique at hf
  omega

theorem fit_ok (q : LSQ ℝ) (h : DataOk r uy ud sy sd) (hf : ¬ Np.nUnique r.temporal.texp ≤ 2) :
    (∃ p, linearB q (r.temporal.texp.map .fin) r.temporal.s2_ydark = .ok p) ∧
    ∃ p, linearB q (r.temporal.texp.map .fin) r.temporal.u_ydark = .ok p := by
  have h2 := many_exposures h hf
  refine ⟨⟨_, linearB_ok q _ _ ?_ ?_⟩, ⟨_, linearB_ok q _ _ ?_ ?_⟩⟩
  · rw [h.s2_ydark]; simp [h.texp, h.vard]
  · simpa [h.texp] using h2
  · rw [h.u_ydark]; simp [h.texp, h.dark]
  · simpa [h.texp] using h2

theorem computes_rawDark (q : LSQ ℝ) (h : DataOk r uy ud sy sd) (hne : 0 < uy.length) : Computes (rawDark q) r := by
  unfold rawDark
  refine Computes.bind stable_few (by intro a; stab) (Computes.ask _ _) fun few hfew => ?_
  refine Computes.bind stable_temporal (by intro a; stab) (Computes.ask _ _) fun t ht => ?_
  cases ht
  have hfew' : decide (Np.nUnique r.temporal.texp ≤ 2) = few := Except.ok.inj hfew
  subst hfew'
  by_cases hf : Np.nUnique r.temporal.texp ≤ 2
  · rw [if_pos (decide_eq_true hf)]
    cases hsd : sd with
    | nil => have := h.vard; rw [hsd] at this; simp at this; omega
    | cons x l =>
      refine Computes.lift (a := .fin x) ?_ _
      rw [h.s2_ydark, hsd]; rfl
  · rw [if_neg (by simpa using hf)]
    obtain ⟨⟨p, hp⟩, -⟩ := fit_ok q h hf
    exact Computes.bind (Stable.lift _) (fun _ => Stable.pure _) (Computes.lift hp _) fun _ _ => Computes.pure _ _

theorem computes_uPSat (h : DataOk r uy ud sy sd) {k : ℤ} {ys : ℝ} (hk : val indexUysat r = .ok k)
    (hys : AtIndex (diff uy ud) k ys) : Computes uPSat r := by
  unfold uPSat
  refine Computes.bind stable_temporal (by intro a; stab) (Computes.ask _ _) fun t ht => ?_
  cases ht
  refine Computes.bind Stable.indexUysat (by stab) ⟨_, hk⟩ fun k' hk' => ?_
  rw [hk] at hk'; cases hk'
  have hlen : r.temporal.u_p.length = (diff uy ud).length := by rw [diff_length h.dark, h.photons]
  have hok : ∃ x, Np.idx r.temporal.u_p k = .ok x := by
    rcases hys with ⟨h0, e⟩ | ⟨h0, h1, e⟩
    · have := (List.getElem?_eq_some_iff.1 e).1
      rw [← hlen] at this
      exact ⟨_, (Np.idx_ok_iff _ _ _).2 (.inl ⟨h0, List.getElem?_eq_getElem this⟩)⟩
    · have := (List.getElem?_eq_some_iff.1 e).1
      rw [← hlen] at this h1
      exact ⟨_, (Np.idx_ok_iff _ _ _).2 (.inr ⟨h0, h1, List.getElem?_eq_getElem this⟩)⟩
  obtain ⟨x, hx⟩ := hok
  exact Computes.bind (Stable.lift _) (fun _ => Stable.pure _) (Computes.lift hx _) fun _ _ => Computes.pure _ _

theorem linFit_ok (X Y : List (Fl ℝ)) (h : X.length = Y.length) : ∃ p, linFit X Y = .ok p := by
  unfold linFit
  simp only [Np.bin_eq_len _ _ _ h]
  exact ⟨_, rfl⟩

theorem linearity_steps (h : DataOk r uy ud sy sd) {i j : ℕ} (hi : val indexLinearityMin r = .ok i)
    (hj : val indexLinearityMax r = .ok j) : ∃ (a b : Fl ℝ), val linearity r = (do
      let dev ← Np.bin (fun y x => .fin 100 * (y - (a * x + b)) / (a * x + b)) ((diff uy ud).map Fl.fin)
        (r.temporal.u_p.map Fl.fin)
      let lo ← Np.amin (Np.slice dev i (j + 1))
      let hi ← Np.amax (Np.slice dev i (j + 1))
      pure ⟨a, b, dev, lo, hi⟩) := by
  have h1 := signal_ok h
  have sl := @stable_linMin ℝ _ _
  have sx := @stable_linMax ℝ _ _
  obtain ⟨⟨a, b⟩, hfit⟩ := linFit_ok (Np.slice (r.temporal.u_p.map Fl.fin) i (j + 1))
    (Np.slice ((diff uy ud).map Fl.fin) i (j + 1)) (slice_length _ _ (by simp [diff, h.dark, h.photons]) _ _)
  refine ⟨a, b, ?_⟩
  unfold linearity
  rw [val_bind_ok stable_signal (by stab) h1,
    val_bind_ok stable_photons (by stab) (show val photons r = .ok (r.temporal.u_p.map Fl.fin) from rfl),
    val_bind_ok stable_linMax (by stab) hj]
  dsimp only
  rw [val_bind_ok stable_linMin (by stab) hi, val_bind (Stable.lift _) (by stab), val_lift, hfit, except_bind_ok]
  dsimp only
  rw [val_bind (Stable.lift _) (by stab), val_lift]
  refine congrArg _ (funext fun dev => ?_)
  rw [val_bind (Stable.lift _) (by stab), val_lift]
  refine congrArg _ (funext fun lo => ?_)
  rw [val_bind (Stable.lift _) (by stab), val_lift]
  rfl

/-- the linearity fit: the range between the two indices must not be empty -/
theorem computes_linearity_iff (h : DataOk r uy ud sy sd) {i j : ℕ} (hi : val indexLinearityMin r = .ok i)
    (hj : val indexLinearityMax r = .ok j) (hjl : j < uy.length) :
    (i ≤ j → Computes linearity r) ∧ (j < i → val linearity r = .error .valueError) := by
  obtain ⟨a, b, e⟩ := linearity_steps h hi hj
  have hbin := Np.bin_eq_len (fun y x : Fl ℝ => .fin 100 * (y - (a * x + b)) / (a * x + b)) ((diff uy ud).map Fl.fin)
        (r.temporal.u_p.map Fl.fin) (by simp [diff, h.dark, h.photons])
  rw [hbin, except_bind_ok] at e
  refine ⟨fun hij => ?_, fun hij => ?_⟩
  rotate_left
  · have hs : ∀ dev : List (Fl ℝ), Np.slice dev i (j + 1) = [] := by
      intro dev
      simp only [Np.slice, List.drop_eq_nil_iff, List.length_take]
      omega
    rw [e, hs]
    rfl
  · set dev := List.zipWith (fun y x : Fl ℝ => .fin 100 * (y - (a * x + b)) / (a * x + b)) ((diff uy ud).map Fl.fin)
        (r.temporal.u_p.map Fl.fin) with hdev
    have hne : Np.slice dev i (j + 1) ≠ [] :=
      slice_nonempty _ _ _ (by simp [dev, diff, h.dark, h.photons]; omega) hij
    obtain ⟨x, l, hx⟩ := List.exists_cons_of_ne_nil hne
    rw [hx] at e
    exact ⟨_, e⟩

theorem computes_s2Y (d : Bool) (r : Res ℝ) : Computes (s2Y d) r := ⟨_, rfl⟩

theorem computes_rcp (d : Bool) (r : Res ℝ) (h : (side d r.spatial).M * (side d r.spatial).N ≠
    (side d r.spatial).M + (side d r.spatial).N) :
    Computes (s2YRow d) r ∧ Computes (s2YCol d) r ∧ Computes (s2YPixel d) r := by
  have hz : ((side d r.spatial).M : ℤ) * (side d r.spatial).N - (side d r.spatial).M - (side d r.spatial).N ≠ 0 := by
    intro h0
    apply h
    have : ((side d r.spatial).M : ℤ) * (side d r.spatial).N = (side d r.spatial).M + (side d r.spatial).N := by linarith
    exact_mod_cast this
  obtain ⟨e1, e2, e3⟩ := val_rcp d r _ rfl
  obtain ⟨t, ht⟩ := computes_s2Y d r
  rw [ht, intDiv_ne hz, intDiv_ne hz] at e1 e2
  rw [ht, intDiv_ne hz] at e3
  exact ⟨⟨_, e1⟩, ⟨_, e2⟩, ⟨_, e3⟩⟩

theorem exists_firstWhere {α : Type} (P : α → Prop) (l : List α) (h : ∃ y ∈ l, P y) : ∃ i, FirstWhere P l i := by
  classical
  obtain ⟨y, hy, hp⟩ := h
  obtain ⟨m, hm⟩ := List.mem_iff_getElem?.1 hy
  have hex : ∃ i, ∃ x, l[i]? = some x ∧ P x := ⟨m, y, hm, hp⟩
  exact ⟨Nat.find hex, Nat.find_spec hex, fun j x hj hx hp => Nat.find_min hex hj ⟨x, hx, hp⟩⟩

theorem exists_lastWhere {α : Type} (P : α → Prop) (l : List α) (h : ∃ y ∈ l, P y) : ∃ i, LastWhere P l i := by
  classical
  obtain ⟨y, hy, hp⟩ := h
  obtain ⟨m, hm⟩ := List.mem_iff_getElem?.1 hy
  have hb : ∀ i, (∃ x, l[i]? = some x ∧ P x) → i ≤ l.length := by
    rintro i ⟨x, hx, -⟩
    exact (List.getElem?_eq_some_iff.1 hx).1.le
  refine ⟨Nat.findGreatest (fun i => ∃ x, l[i]? = some x ∧ P x) l.length, ?_, ?_⟩
  · exact Nat.findGreatest_spec (P := fun i => ∃ x, l[i]? = some x ∧ P x) (hb m ⟨y, hm, hp⟩) ⟨y, hm, hp⟩
  · intro j x hj hx hpx
    exact Nat.findGreatest_is_greatest hj (hb j ⟨x, hx, hpx⟩) ⟨x, hx, hpx⟩

/-! ### all the attributes -/

theorem Computes.map {α β : Type} {x : M ℝ α} {f : α → β} (sx : Stable x) (hx : Computes x r) :
    Computes (do let a ← x; Pure.pure (f a) : M ℝ β) r :=
  Computes.bind sx (fun _ => Stable.pure _) hx fun _ _ => Computes.pure _ _

theorem Computes.map2 {α β γ : Type} {x : M ℝ α} {y : M ℝ β} {f : α → β → γ} (sx : Stable x) (sy : Stable y)
    (hx : Computes x r) (hy : Computes y r) : Computes (do let a ← x; let b ← y; Pure.pure (f a b) : M ℝ γ) r :=
  Computes.bind sx (fun _ => sy.bind fun _ => Stable.pure _) hx fun _ _ => Computes.map sy hy

theorem Computes.map3 {α β γ δ : Type} {x : M ℝ α} {y : M ℝ β} {z : M ℝ γ} {f : α → β → γ → δ} (sx : Stable x)
    (sy : Stable y) (sz : Stable z) (hx : Computes x r) (hy : Computes y r) (hz : Computes z r) :
    Computes (do let a ← x; let b ← y; let c ← z; Pure.pure (f a b c) : M ℝ δ) r :=
  Computes.bind sx (fun _ => sy.bind fun _ => sz.bind fun _ => Stable.pure _) hx fun _ _ => Computes.map2 sy sz hy hz

theorem computes_uIVarDN (q : LSQ ℝ) (h : DataOk r uy ud sy sd) (hK : Computes (K q) r) :
    Computes (uIVarDN q) r ∧ val (uIVarDN q) r ≠ .ok .none := by
  have sK := stable_K q
  have key : ∃ v, val (uIVarDN q) r = .ok v ∧ v ≠ .none := by
    unfold uIVarDN
    rw [val_bind stable_few (by intro a; stab)]
    show ∃ v, val (if (decide (Np.nUnique r.temporal.texp ≤ 2)) = true then _ else _) r = .ok v ∧ _
    by_cases hf : Np.nUnique r.temporal.texp ≤ 2
    · rw [if_pos (decide_eq_true hf)]
      exact ⟨_, rfl, by simp⟩
    · rw [if_neg (by simpa using hf)]
      obtain ⟨⟨p, hp⟩, -⟩ := fit_ok q h hf
      rw [val_bind_ok stable_temporal (by intro a; stab) (show val (ask Res.temporal) r = .ok r.temporal from rfl),
        val_bind (Stable.lift _) (by intro a; stab), val_lift, hp, except_bind_ok]
      by_cases hn : Fl.lt p.1 (.fin 0) = true
      · rw [if_pos hn]; exact ⟨_, rfl, by simp⟩
      · rw [if_neg hn]
        obtain ⟨k, hk⟩ := hK
        rw [val_bind_ok sK (by stab) hk]
        exact ⟨_, rfl, by simp⟩
  obtain ⟨v, hv, hn⟩ := key
  exact ⟨⟨v, hv⟩, by rw [hv]; simpa using hn⟩

theorem computes_uIMeanDN (q : LSQ ℝ) (h : DataOk r uy ud sy sd) :
    Computes (uIMeanDN q) r ∧ val (uIMeanDN q) r ≠ .ok .none := by
  have key : ∃ v, val (uIMeanDN q) r = .ok v ∧ v ≠ .none := by
    unfold uIMeanDN
    rw [val_bind stable_few (by intro a; stab)]
    show ∃ v, val (if (decide (Np.nUnique r.temporal.texp ≤ 2)) = true then _ else _) r = .ok v ∧ _
    by_cases hf : Np.nUnique r.temporal.texp ≤ 2
    · rw [if_pos (decide_eq_true hf)]
      exact ⟨_, rfl, by simp⟩
    · rw [if_neg (by simpa using hf)]
      obtain ⟨-, ⟨p, hp⟩⟩ := fit_ok q h hf
      rw [val_bind_ok stable_temporal (by intro a; stab) (show val (ask Res.temporal) r = .ok r.temporal from rfl),
        val_bind (Stable.lift _) (by intro a; stab), val_lift, hp, except_bind_ok]
      exact ⟨_, rfl, by simp⟩
  obtain ⟨v, hv, hn⟩ := key
  exact ⟨⟨v, hv⟩, by rw [hv]; simpa using hn⟩

theorem computes_overK (q : LSQ ℝ) {x : M ℝ (PyNum ℝ)} (sx : Stable x) (hx : Computes x r ∧ val x r ≠ .ok .none)
    (hK : Computes (K q) r) : Computes (overK q x) r := by
  have sK := stable_K q
  unfold overK
  refine Computes.bind sx (by intro a; cases a <;> stab) hx.1 fun v hv => ?_
  cases v with
  | none => exact absurd hv hx.2
  | npnan => exact Computes.pure _ _
  | num v => exact Computes.map sK hK

theorem computes_dsnu (q : LSQ ℝ) {x : M ℝ (Fl ℝ)} (sx : Stable x) (hx : Computes x r) (hK : Computes (K q) r) :
    Computes (dsnu q x) r := by
  have sK := stable_K q
  unfold dsnu
  refine Computes.bind sx (by intro a; stab) hx fun v _ => ?_
  split
  · exact Computes.pure _ _
  · exact Computes.map2 sx sK hx hK

theorem computes_DSNU_DN (r : Res ℝ) : Computes DSNU1288DN r := by
  have s := stable_s2Y (F := ℝ) true
  unfold DSNU1288DN
  refine Computes.bind s (by intro a; stab) (computes_s2Y _ _) fun v _ => ?_
  split
  · exact Computes.pure _ _
  · exact Computes.map s (computes_s2Y _ _)

theorem computes_prnu {x : Bool → M ℝ (Fl ℝ)} (sx : ∀ d, Stable (x d)) (hx : ∀ d, Computes (x d) r) :
    Computes (prnu x) r := by
  have s0 := stable_spat (F := ℝ) false
  have s1 := stable_spat (F := ℝ) true
  have st := sx true
  unfold prnu
  refine Computes.bind (sx false) (by intro a; stab) (hx _) fun _ _ => ?_
  exact Computes.map3 (sx true) s0 s1 (hx _) (Computes.ask _ _) (Computes.ask _ _)

theorem all_compute (q : LSQ ℝ) (h : DataOk r uy ud sy sd) (hh : 5 ≤ r.spatial.dark.h) (hw : 5 ≤ r.spatial.dark.w)
    {k : ℤ} {ys : ℝ} (hk : val indexUysat r = .ok k) (hys : AtIndex (diff uy ud) k ys) {s i j : ℕ}
    (hs : val indexSensitivityMax r = .ok s) (hsl : s < uy.length)
    (hi : val indexLinearityMin r = .ok i) (hj : val indexLinearityMax r = .ok j) (hjl : j < uy.length) (hij : i ≤ j)
    (a : Attr) : Computes (Results.read q a) r := by
  have cK := computes_K q h hs hsl
  have cR := computes_R q h hs hsl
  have sK := stable_K q
  have sR := stable_R q
  have cQE : Computes (QE q) r := Computes.map2 sR sK cR cK
  have sQE := stable_QE q
  have cpSat := computes_uPSat h hk hys
  have cDark : Computes (sigmaYDark q) r :=
    Computes.map (stable_s2YDark q) (Computes.map (stable_rawDark q) (computes_rawDark q h (by omega)))
  have sDark := stable_sigmaYDark q
  have cpMin : Computes (uPMin q) r := Computes.map3 sQE sDark sK cQE cDark cK
  have ceMin : Computes (uEMin q) r := Computes.map2 sQE (stable_uPMin q) cQE cpMin
  have ceSat : Computes (uESat q) r := Computes.map2 sQE stable_uPSat cQE cpSat
  have cSNR : Computes (SNRMax q) r := Computes.map (stable_uESat q) ceSat
  have cDR : Computes (DR q) r := Computes.map2 stable_uPSat (stable_uPMin q) cpSat cpMin
  have cLin : Computes linearity r := (computes_linearity_iff h hi hj hjl).1 hij
  have hrcp : ∀ d, Computes (s2YRow d) r ∧ Computes (s2YCol d) r ∧ Computes (s2YPixel d) r := by
    intro d
    refine computes_rcp d r ?_
    obtain ⟨hb1, hb2, -⟩ := h.size _ (.inl rfl)
    obtain ⟨hd1, hd2, -⟩ := h.size _ (.inr rfl)
    have hM : 5 ≤ (side d r.spatial).M ∧ 5 ≤ (side d r.spatial).N := by
      cases d
      · exact ⟨by show 5 ≤ r.spatial.bright.M; rw [hb1, h.shape.1]; exact hh,
          by show 5 ≤ r.spatial.bright.N; rw [hb2, h.shape.2]; exact hw⟩
      · exact ⟨by show 5 ≤ r.spatial.dark.M; rw [hd1]; exact hh, by show 5 ≤ r.spatial.dark.N; rw [hd2]; exact hw⟩
    obtain ⟨h1, h2⟩ := hM
    intro e
    nlinarith
  have hpx : 0 < r.spatial.dark.h * r.spatial.dark.w := Nat.mul_pos (by omega) (by omega)
  have hLd := (h.size _ (.inr rfl)).2.2
  have hLb := (h.size _ (.inl rfl)).2.2
  cases a
  case s2q => exact Computes.pure _ _
  case index_start => exact Computes.as (Stable.pure _) (Computes.pure _ _)
  case index_u_ysat => exact Computes.as Stable.indexUysat ⟨_, hk⟩
  case index_sensitivity_max => exact Computes.as stable_smax ⟨_, hs⟩
  case index_sensitivity_min => exact Computes.as stable_smin (Computes.pure _ _)
  case R => exact Computes.as sR cR
  case K => exact Computes.as sK cK
  case inverse_K => exact Computes.as (stable_inverseK q) (Computes.map sK cK)
  case QE => exact Computes.as sQE cQE
  case sigma_y_dark => exact Computes.as sDark cDark
  case sigma_d => exact Computes.as (stable_sigmaD q) (Computes.map2 sDark sK cDark cK)
  case u_p_min => exact Computes.as (stable_uPMin q) cpMin
  case u_p_min_area => exact Computes.as (stable_perArea (stable_uPMin q)) (Computes.perArea (stable_uPMin q) cpMin)
  case u_e_min => exact Computes.as (stable_uEMin q) ceMin
  case u_e_min_area => exact Computes.as (stable_perArea (stable_uEMin q)) (Computes.perArea (stable_uEMin q) ceMin)
  case u_p_sat => exact Computes.as stable_uPSat cpSat
  case u_p_sat_area => exact Computes.as (stable_perArea stable_uPSat) (Computes.perArea stable_uPSat cpSat)
  case u_e_sat => exact Computes.as (stable_uESat q) ceSat
  case u_e_sat_area => exact Computes.as (stable_perArea (stable_uESat q)) (Computes.perArea (stable_uESat q) ceSat)
  case SNR_max => exact Computes.as (stable_SNRMax q) cSNR
  case SNR_max_dB => exact Computes.as (stable_SNRMaxDB q) (Computes.map (stable_SNRMax q) cSNR)
  case SNR_max_bit => exact Computes.as (stable_SNRMaxBit q) (Computes.map (stable_SNRMax q) cSNR)
  case inverse_SNR_max => exact Computes.as (stable_inverseSNRMax q) (Computes.map (stable_SNRMax q) cSNR)
  case DR => exact Computes.as (stable_DR q) cDR
  case DR_dB => exact Computes.as (stable_DRDB q) (Computes.map (stable_DR q) cDR)
  case index_linearity_min => exact Computes.as stable_linMin ⟨_, hi⟩
  case index_linearity_max => exact Computes.as stable_linMax ⟨_, hj⟩
  case linearity => exact Computes.as stable_linearity cLin
  case LE_min => exact Computes.as stable_LEMin (Computes.map stable_linearity cLin)
  case LE_max => exact Computes.as stable_LEMax (Computes.map stable_linearity cLin)
  case u_I_var_DN => exact Computes.as (stable_uIVarDN q) (computes_uIVarDN q h cK).1
  case u_I_var =>
    exact Computes.as (stable_uIVar q) (computes_overK q (stable_uIVarDN q) (computes_uIVarDN q h cK) cK)
  case u_I_mean_DN => exact Computes.as (stable_uIMeanDN q) (computes_uIMeanDN q h).1
  case u_I_mean =>
    exact Computes.as (stable_uIMean q) (computes_overK q (stable_uIMeanDN q) (computes_uIMeanDN q h) cK)
  case sigma_2_y_stack => exact Computes.as (stable_sigma2YStack _) ⟨_, rfl⟩
  case sigma_2_y_stack_dark => exact Computes.as (stable_sigma2YStack _) ⟨_, rfl⟩
  case s_2_y_measured => exact Computes.as (stable_s2YMeasured _) ⟨_, rfl⟩
  case s_2_y_measured_dark => exact Computes.as (stable_s2YMeasured _) ⟨_, rfl⟩
  case s_2_y => exact Computes.as (stable_s2Y _) ⟨_, rfl⟩
  case s_2_y_dark => exact Computes.as (stable_s2Y _) ⟨_, rfl⟩
  case s_2_y_cav => exact Computes.as (stable_s2YCav _) ⟨_, rfl⟩
  case s_2_y_cav_dark => exact Computes.as (stable_s2YCav _) ⟨_, rfl⟩
  case s_2_y_rav => exact Computes.as (stable_s2YRav _) ⟨_, rfl⟩
  case s_2_y_rav_dark => exact Computes.as (stable_s2YRav _) ⟨_, rfl⟩
  case s_2_y_col => exact Computes.as (stable_s2YCol _) (hrcp _).2.1
  case s_2_y_col_dark => exact Computes.as (stable_s2YCol _) (hrcp _).2.1
  case s_2_y_row => exact Computes.as (stable_s2YRow _) (hrcp _).1
  case s_2_y_row_dark => exact Computes.as (stable_s2YRow _) (hrcp _).1
  case s_2_y_pixel => exact Computes.as (stable_s2YPixel _) (hrcp _).2.2
  case s_2_y_pixel_dark => exact Computes.as (stable_s2YPixel _) (hrcp _).2.2
  case DSNU1288 =>
    exact Computes.as (stable_dsnu q (stable_s2Y _)) (computes_dsnu q (stable_s2Y _) (computes_s2Y _ _) cK)
  case DSNU1288_DN => exact Computes.as stable_DSNU1288DN (computes_DSNU_DN r)
  case DSNU1288_row =>
    exact Computes.as (stable_dsnu q (stable_s2YRow _)) (computes_dsnu q (stable_s2YRow _) (hrcp _).1 cK)
  case DSNU1288_col =>
    exact Computes.as (stable_dsnu q (stable_s2YCol _)) (computes_dsnu q (stable_s2YCol _) (hrcp _).2.1 cK)
  case DSNU1288_pixel =>
    exact Computes.as (stable_dsnu q (stable_s2YPixel _)) (computes_dsnu q (stable_s2YPixel _) (hrcp _).2.2 cK)
  case PRNU1288 => exact Computes.as (stable_prnu stable_s2Y) (computes_prnu stable_s2Y fun d => computes_s2Y d r)
  case PRNU1288_row => exact Computes.as (stable_prnu stable_s2YRow) (computes_prnu stable_s2YRow fun d => (hrcp d).1)
  case PRNU1288_col => exact Computes.as (stable_prnu stable_s2YCol) (computes_prnu stable_s2YCol fun d => (hrcp d).2.1)
  case PRNU1288_pixel =>
    exact Computes.as (stable_prnu stable_s2YPixel) (computes_prnu stable_s2YPixel fun d => (hrcp d).2.2)
  case histogram_PRNU =>
    obtain ⟨hst, e, -⟩ := C37_prnu r _ _ h.shape ⟨rfl, rfl⟩ hh hw hLb
    exact Computes.as stable_histogramPRNU ⟨_, e⟩
  case histogram_PRNU_accumulated =>
    obtain ⟨hst, e, -⟩ := C37_prnu_accumulated r _ _ h.shape ⟨rfl, rfl⟩ hh hw hLb
    exact Computes.as stable_histogramPRNUAccumulated ⟨_, e⟩
  case histogram_DSNU =>
    obtain ⟨hst, e, -⟩ := C37_dsnu r hpx hLd
    exact Computes.as stable_histogramDSNU ⟨_, e⟩
  case histogram_DSNU_accumulated =>
    obtain ⟨hst, e, -⟩ := C37_dsnu_accumulated r hpx hLd
    exact Computes.as stable_histogramDSNUAccumulated ⟨_, e⟩

end Results

open Results

/-- C77: for consistent data, every attribute has a value if and only if there is a saturation index inside the
measurement, a measured signal of at most 70 % of the saturation signal exists, the first signal of at least 5 % does not
come after the last signal of at most 95 %, and the images have at least five rows and columns. -/
theorem C77_iff (q : LSQ ℝ) (r : Res ℝ) (uy ud sy sd : List ℝ) (h : DataOk r uy ud sy sd) :
    (∀ a : Attr, ∃ v, (Results.read q a r).1 = .ok v) ↔
      (∃ (k : ℤ) (ys : ℝ), (indexUysat r).1 = .ok k ∧ AtIndex (diff uy ud) k ys ∧
        (∃ y ∈ diff uy ud, y ≤ 7 / 10 * ys) ∧
        ∃ i j, FirstWhere (fun y => 5 / 100 * ys ≤ y) (diff uy ud) i ∧ LastWhere (fun y => y ≤ 95 / 100 * ys) (diff uy ud) j ∧
          i ≤ j) ∧
      5 ≤ r.spatial.dark.h ∧ 5 ≤ r.spatial.dark.w := by
  constructor
  · intro hall
    have get : ∀ {α : Type} {x : M ℝ α} {f : α → Results.Value}, (∃ v, ((x.as f) r).1 = .ok v) → Computes x r :=
      fun hx => Computes.of_bind hx
    obtain ⟨k, hk⟩ := get (hall .index_u_ysat)
    obtain ⟨s, hs⟩ := get (hall .index_sensitivity_max)
    obtain ⟨i, hi⟩ := get (hall .index_linearity_min)
    obtain ⟨j, hj⟩ := get (hall .index_linearity_max)
    have hl := h.dark.symm
    have hin : HasIndex (diff uy ud) k := by
      by_contra hno
      rw [(C25_sensitivity_max r uy ud h.u_y h.u_ydark hl k hk).2 hno] at hs
      cases hs
    obtain ⟨ys, hys⟩ : ∃ ys, AtIndex (diff uy ud) k ys := by
      obtain ⟨g1, g2⟩ := hin
      rcases le_or_gt 0 k with h0 | h0
      · exact ⟨_, .inl ⟨h0, List.getElem?_eq_getElem (by omega)⟩⟩
      · exact ⟨_, .inr ⟨h0, by omega, List.getElem?_eq_getElem (by omega)⟩⟩
    have h1 := (((C25_sensitivity_max r uy ud h.u_y h.u_ydark hl k hk).1 ys hys).1 s).1 hs
    have h2 := (((C26_linearity_min r uy ud h.u_y h.u_ydark hl k hk).1 ys hys).1 i).1 hi
    have h3 := (((C26_linearity_max r uy ud h.u_y h.u_ydark hl k hk).1 ys hys).1 j).1 hj
    have hjl : j < uy.length := by have := LastWhere.lt h3; rwa [Results.diff_length h.dark] at this
    refine ⟨⟨k, ys, hk, hys, ?_, i, j, h2, h3, ?_⟩, ?_⟩
    · obtain ⟨⟨x, hx, hle⟩, -⟩ := h1
      exact ⟨x, List.mem_of_getElem? hx, hle⟩
    · obtain ⟨v, hv⟩ := get (hall .linearity)
      by_contra hno
      rw [(computes_linearity_iff h hi hj hjl).2 (by omega)] at hv
      cases hv
    · obtain ⟨v, hv⟩ := get (hall .histogram_PRNU)
      by_contra hno
      rw [(C37_prnu_small r _ _ h.shape ⟨rfl, rfl⟩ (by omega)).1] at hv
      cases hv
  · rintro ⟨⟨k, ys, hk, hys, ⟨y, hy, hle⟩, i, j, hi, hj, hij⟩, hh, hw⟩ a
    have hl := h.dark.symm
    obtain ⟨s, hs⟩ := exists_lastWhere (fun y : ℝ => y ≤ 7 / 10 * ys) _ ⟨y, hy, hle⟩
    have hsl : s < uy.length := by have := LastWhere.lt hs; rwa [Results.diff_length h.dark] at this
    have hjl : j < uy.length := by have := LastWhere.lt hj; rwa [Results.diff_length h.dark] at this
    exact all_compute q h hh hw hk hys ((((C25_sensitivity_max r uy ud h.u_y h.u_ydark hl k hk).1 ys hys).1 s).2 hs) hsl
      ((((C26_linearity_min r uy ud h.u_y h.u_ydark hl k hk).1 ys hys).1 i).2 hi)
      ((((C26_linearity_max r uy ud h.u_y h.u_ydark hl k hk).1 ys hys).1 j).2 hj) hjl hij a

/-- C77 for the user: index not forced, non-negative variances, images of at least 5 x 5, and whatever point of the series
is the saturation point, one measured signal lies between 5 % and 70 % of its signal: every result is computed. -/
theorem C77_enough (q : LSQ ℝ) (r : Res ℝ) (uy ud sy sd : List ℝ) (h : DataOk r uy ud sy sd)
    (hh : 5 ≤ r.spatial.dark.h) (hw : 5 ≤ r.spatial.dark.w) (hn : r.index_u_ysat = none) (hne : uy ≠ [])
    (hpos : ∀ x ∈ sy, 0 ≤ x)
    (hmid : ∀ (k : ℕ) (ys : ℝ), (k = 0 ∨ AboveTwo sy k) → (∀ j, k < j → ¬ AboveTwo sy j) → (diff uy ud)[k]? = some ys →
      ∃ y ∈ diff uy ud, 5 / 100 * ys ≤ y ∧ y ≤ 7 / 10 * ys) (a : Attr) :
    ∃ v, (Results.read q a r).1 = .ok v := by
  refine (C77_iff q r uy ud sy sd h).2 ⟨?_, hh, hw⟩ a
  have hsy : sy ≠ [] := by
    intro e
    have := h.var
    rw [e] at this
    exact hne (List.length_eq_zero_iff.1 this.symm)
  obtain ⟨k, hk, hkl, h1, h2⟩ := C22_last_rise r hn sy hsy h.s2_y hpos
  have hkd : k < (diff uy ud).length := by rw [Results.diff_length h.dark, ← h.var]; exact hkl
  have hget := List.getElem?_eq_getElem hkd
  set ys := (diff uy ud)[k]
  obtain ⟨y, hy, hlo, hhi⟩ := hmid k ys h1 h2 hget
  have h0 : 0 ≤ ys := by linarith
  obtain ⟨m, hm⟩ := List.mem_iff_getElem?.1 hy
  obtain ⟨i, hi⟩ := exists_firstWhere (fun y : ℝ => 5 / 100 * ys ≤ y) _ ⟨y, hy, hlo⟩
  have hhi' : y ≤ 95 / 100 * ys := by linarith
  obtain ⟨j, hj⟩ := exists_lastWhere (fun y : ℝ => y ≤ 95 / 100 * ys) _ ⟨y, hy, hhi'⟩
  refine ⟨k, ys, hk, .inl ⟨by omega, by simpa using hget⟩, ⟨y, hy, hhi⟩, i, j, hi, hj, ?_⟩
  have hi' : i ≤ m := by
    by_contra hc
    exact hi.2 m y (by omega) hm hlo
  have hj' : m ≤ j := by
    by_contra hc
    exact hj.2 m y (by omega) hm hhi'
  omega

/-- C77, failure: if every measured signal exceeds 70 % of the saturation signal (a single point of positive signal, for
instance), the fits and everything derived from them raise `ValueError`; if the signal jumps from above 95 % back below
5 %, the linearity does. -/
theorem C77_failures (q : LSQ ℝ) (r : Res ℝ) (uy ud sy sd : List ℝ) (h : DataOk r uy ud sy sd) (k : ℤ) (ys : ℝ)
    (hk : (indexUysat r).1 = .ok k) (hys : AtIndex (diff uy ud) k ys) :
    ((∀ y ∈ diff uy ud, 7 / 10 * ys < y) → ∀ a ∈ [Attr.index_sensitivity_max, .R, .K, .inverse_K, .QE, .u_p_min, .u_e_min, .u_e_sat,
        .SNR_max, .SNR_max_dB, .SNR_max_bit, .inverse_SNR_max], (Results.read q a r).1 = .error .valueError) ∧
    ∀ i j, FirstWhere (fun y => 5 / 100 * ys ≤ y) (diff uy ud) i → LastWhere (fun y => y ≤ 95 / 100 * ys) (diff uy ud) j →
      j < i → ∀ a ∈ [Attr.linearity, .LE_min, .LE_max], (Results.read q a r).1 = .error .valueError := by
  have hl := h.dark.symm
  have fail : ∀ {α β : Type} {x : M ℝ α} {f : α → M ℝ β}, val x r = .error .valueError →
      val (x >>= f) r = .error .valueError := by
    intro α β x f hx
    unfold val at hx ⊢
    rw [bind_def]
    rcases hxr : x r with ⟨v, r'⟩
    rw [hxr] at hx
    simp only at hx
    subst hx
    rfl
  constructor
  · intro hab
    have hs := ((C25_sensitivity_max r uy ud h.u_y h.u_ydark hl k hk).1 ys hys).2 hab
    have sx := @stable_smax ℝ _ _
    have hR : val (R q) r = .error .valueError := by
      unfold R
      rw [val_bind_ok stable_signal (by stab) (Results.signal_ok h),
        val_bind_ok stable_photons (by stab) (show val photons r = .ok (r.temporal.u_p.map Fl.fin) from rfl),
        val_bind_ok stable_smin (by stab) (show val indexSensitivityMin r = .ok 0 from rfl)]
      exact fail hs
    have hK : val (K q) r = .error .valueError := by
      unfold K
      rw [val_bind_ok stable_signal (by stab) (Results.signal_ok h),
        val_bind_ok stable_temporal (by stab) (show val (ask Res.temporal) r = .ok r.temporal from rfl),
        val_bind (Stable.lift _) (by stab), val_lift,
        Np.bin_eq_len _ _ _ (by rw [h.s2_y, h.s2_ydark]; simp [h.var, h.vard]), except_bind_ok,
        val_bind_ok stable_smin (by stab) (show val indexSensitivityMin r = .ok 0 from rfl)]
      exact fail hs
    have hQE : val (QE q) r = .error .valueError := fail hR
    have hP : val (uPMin q) r = .error .valueError := fail hQE
    have hE : val (uESat q) r = .error .valueError := fail hQE
    have hS : val (SNRMax q) r = .error .valueError := fail hE
    intro a ha
    simp only [List.mem_cons, List.not_mem_nil, or_false] at ha
    rcases ha with rfl | rfl | rfl | rfl | rfl | rfl | rfl | rfl | rfl | rfl | rfl | rfl
    · exact fail hs
    · exact fail hR
    · exact fail hK
    · exact fail (fail hK)
    · exact fail hQE
    · exact fail hP
    · exact fail (fail hQE)
    · exact fail hE
    · exact fail hS
    · exact fail (fail hS)
    · exact fail (fail hS)
    · exact fail (fail hS)
  · intro i j hi hj hji a ha
    have hjl : j < uy.length := by have := LastWhere.lt hj; rwa [Results.diff_length h.dark] at this
    have hL := (computes_linearity_iff h ((((C26_linearity_min r uy ud h.u_y h.u_ydark hl k hk).1 ys hys).1 i).2 hi)
      ((((C26_linearity_max r uy ud h.u_y h.u_ydark hl k hk).1 ys hys).1 j).2 hj) hjl).2 hji
    simp only [List.mem_cons, List.not_mem_nil, or_false] at ha
    rcases ha with rfl | rfl | rfl
    · exact fail hL
    · exact fail (fail hL)
    · exact fail (fail hL)

/-- the data of one series are finite numbers if the difference of the two means is -/
theorem seriesPoint_fin (px : ℕ) (hpx : px ≠ 0) (v : TemporalEntry ℝ) (x : ℝ) (hv : v.dmean = .fin x) :
    ∃ a b : ℝ, seriesPoint px v = (.fin a, .fin b) := by
  have hp : (px : ℝ) ≠ 0 := by exact_mod_cast hpx
  refine ⟨v.sum / (2 * px), v.pvar / (4 * px) - x ^ 2 / 2, ?_⟩
  simp only [seriesPoint, getTemporalData, hv]
  have h2 : (2 * px : ℝ) ≠ 0 := mul_ne_zero two_ne_zero hp
  have h4 : (4 * px : ℝ) ≠ 0 := mul_ne_zero four_ne_zero hp
  simp [Fl.sq, pow_two, Fl.fin_div h2, Fl.fin_div h4, Fl.fin_div (two_ne_zero (α := ℝ))]

theorem finite_list {α : Type} (l : List α) (f : α → Fl ℝ) (h : ∀ a ∈ l, ∃ x, f a = .fin x) :
    ∃ xs : List ℝ, l.map f = xs.map .fin ∧ xs.length = l.length := by
  induction l with
  | nil => exact ⟨[], rfl, rfl⟩
  | cons a l ih =>
    obtain ⟨x, hx⟩ := h a (by simp)
    obtain ⟨xs, e, e'⟩ := ih fun b hb => h b (by simp [hb])
    exact ⟨x :: xs, by simp [hx, e], by simp [e']⟩

theorem getSpatialData_shape (rows cols : ℕ) (d : IntImgs ℝ) (s : SpatialData ℝ) (h : getSpatialData rows cols d = .ok s) :
    s.h = d.h ∧ s.w = d.w ∧ s.M = rows ∧ s.N = cols ∧ 0 < s.L := by
  unfold getSpatialData at h
  by_cases h0 : d.L = 0
  · rw [if_pos h0] at h; cases h
  · rw [if_neg h0] at h
    simp only at h
    split at h
    · cases h
    · split at h
      · cases h
      · cases h
        exact ⟨rfl, rfl, rfl, rfl, Nat.pos_of_ne_zero h0⟩

/-- C77: what `Data1288` makes out of the loaded images is consistent in the sense of `C77_iff`, if there is one exposure
time or one bright series per exposure time, and all the images have the size of the descriptor. -/
theorem C77_data (l : Loader.Loaded ℝ ℝ) (pixels : Option ℕ) (area : Option ℝ) (forced : Option ℤ) (hr : 0 < l.height)
    (hc : 0 < l.width) (hwt : WF2 l.temporal) (hws : WF2 l.spatial) (hn : NonNegPhotons l.temporal)
    (hone : l.temporal.length = 1 ∨ ∀ e ∈ Dict.keys l.temporal, ∃! p, p ≠ 0 ∧ (get2 l.temporal e p).isSome)
    (hfin : ∀ e p v, get2 l.temporal e p = some v → ∃ x, v.dmean = .fin x)
    (hsh : ∀ e p v, get2 l.spatial e p = some v → v.h = l.height ∧ v.w = l.width ∧ 1 ≤ v.L)
    (D : Data1288 ℝ) (hD : Data.make l pixels = .ok D) :
    ∃ uy ud sy sd, DataOk (Results.make D area forced) uy ud sy sd ∧
      (Results.make D area forced).spatial.dark.h = l.height ∧ (Results.make D area forced).spatial.dark.w = l.width := by
  have hL : ∀ e p v, get2 l.spatial e p = some v → 1 ≤ v.L := fun e p v hv => (hsh e p v hv).2.2
  obtain ⟨hp, e, p, dk, br, hpair⟩ := ((C19_constructor l pixels hr hc hwt hws hL).1).1 ⟨D, hD⟩
  have hpx : pixelsOf l pixels ≠ 0 := by
    have : l.width * l.height ≠ 0 := Nat.mul_ne_zero (by omega) (by omega)
    unfold pixelsOf
    split
    · exact this
    · exact this
    · rename_i h; intro h0; exact h h0
  obtain ⟨s, sd, sb, hs, -, hsd, hsb, hdk, hbp, hbn⟩ := (C19_validation l.height l.width hr hc l.spatial hws hL).1 e p dk br hpair
  obtain ⟨t, ht⟩ := (C17_acceptance (pixelsOf l pixels) l.temporal hwt).1 hp
  have hD' : D = ⟨pixelsOf l pixels, l.height, l.width, t, s⟩ := by
    unfold Data.make at hD
    simp only [ht, hs] at hD
    exact (Except.ok.inj hD).symm
  subst hD'
  obtain ⟨pts, hB, e1, e2, e3⟩ := C17_sorted_aligned _ _ hwt hn t ht
  obtain ⟨-, -, -, -, hal, -⟩ := C18_lengths _ _ hwt hn t ht pts hB
  obtain ⟨e4, dks, hfa, e5, e6⟩ := hal hone
  have hlen : dks.length = pts.length := hfa.length_eq.symm
  have fin_pts : ∀ x ∈ pts, ∃ a b : ℝ, seriesPoint (pixelsOf l pixels) x.2.2 = (.fin a, .fin b) := by
    rintro ⟨e, p, v⟩ hx
    obtain ⟨y, hy⟩ := hfin e p v ((hB.mem e p v).1 hx).2
    exact seriesPoint_fin _ hpx v y hy
  have fin_dks : ∀ v ∈ dks, ∃ a b : ℝ, seriesPoint (pixelsOf l pixels) v = (.fin a, .fin b) := by
    intro v hv
    obtain ⟨n, hn⟩ := List.mem_iff_getElem?.1 hv
    have hnl : n < pts.length := by rw [← hlen]; exact (List.getElem?_eq_some_iff.1 hn).1
    have := List.Forall₂.get hfa hnl (by rw [hlen]; exact hnl)
    have hv' : dks.get ⟨n, by rw [hlen]; exact hnl⟩ = v := (List.getElem?_eq_some_iff.1 hn).2
    rw [hv'] at this
    obtain ⟨y, hy⟩ := hfin _ _ _ this
    exact seriesPoint_fin _ hpx v y hy
  obtain ⟨uy, f1, g1⟩ := finite_list pts (fun x => (seriesPoint (pixelsOf l pixels) x.2.2).1)
    fun x hx => by obtain ⟨a, b, h⟩ := fin_pts x hx; exact ⟨a, by simp [h]⟩
  obtain ⟨sy, f2, g2⟩ := finite_list pts (fun x => (seriesPoint (pixelsOf l pixels) x.2.2).2)
    fun x hx => by obtain ⟨a, b, h⟩ := fin_pts x hx; exact ⟨b, by simp [h]⟩
  obtain ⟨ud, f3, g3⟩ := finite_list dks (fun v => (seriesPoint (pixelsOf l pixels) v).1)
    fun x hx => by obtain ⟨a, b, h⟩ := fin_dks x hx; exact ⟨a, by simp [h]⟩
  obtain ⟨sd', f4, g4⟩ := finite_list dks (fun v => (seriesPoint (pixelsOf l pixels) v).2)
    fun x hx => by obtain ⟨a, b, h⟩ := fin_dks x hx; exact ⟨b, by simp [h]⟩
  obtain ⟨hp0, -, hg⟩ := hpair
  obtain ⟨i1, i2, -⟩ := hsh e 0 dk ((hg 0 dk).2 (.inl ⟨rfl, rfl⟩))
  obtain ⟨j1, j2, -⟩ := hsh e p br ((hg p br).2 (.inr ⟨rfl, rfl⟩))
  obtain ⟨a1, a2, a3, a4, a5⟩ := getSpatialData_shape _ _ _ _ hsd
  obtain ⟨b1, b2, b3, b4, b5⟩ := getSpatialData_shape _ _ _ _ hsb
  have hbr : s.bright.h = l.height ∧ s.bright.w = l.width ∧ s.bright.M = l.height ∧ s.bright.N = l.width ∧ 0 < s.bright.L := by
    rcases lt_or_gt_of_ne hp0 with h | h
    · rw [(hbn h).2]; exact ⟨a1.trans i1, a2.trans i2, a3, a4, a5⟩
    · rw [(hbp h).2]; exact ⟨b1.trans j1, b2.trans j2, b3, b4, b5⟩
  have hdr : s.dark.h = l.height ∧ s.dark.w = l.width ∧ s.dark.M = l.height ∧ s.dark.N = l.width ∧ 0 < s.dark.L := by
    rw [hdk]; exact ⟨a1.trans i1, a2.trans i2, a3, a4, a5⟩
  refine ⟨uy, ud, sy, sd', ⟨e2.trans f1, e5.trans f3, e3.trans f2, e6.trans f4, ?_, ?_, ?_, ?_, ?_, ?_, ?_⟩, hdr.1, hdr.2.1⟩
  · rw [g3, g1, hlen]
  · rw [g2, g1]
  · rw [g4, g1, hlen]
  · show t.u_p.length = _
    rw [e1, g1, List.length_map]
  · show t.texp.length = _
    rw [e4, g1, List.length_map]
  · exact ⟨hbr.1.trans hdr.1.symm, hbr.2.1.trans hdr.2.1.symm⟩
  · rintro x (rfl | rfl)
    · exact ⟨hbr.2.2.1.trans hbr.1.symm, hbr.2.2.2.1.trans hbr.2.1.symm, hbr.2.2.2.2⟩
    · exact ⟨hdr.2.2.1.trans hdr.1.symm, hdr.2.2.2.1.trans hdr.2.1.symm, hdr.2.2.2.2⟩

/-! ### a case -/

/-- five points, saturating at the fourth; images of 6 x 5 pixels -/
noncomputable def C77sample : Res ℝ :=
  let s : SpatialData ℝ := ⟨6, 5, fun i j => i * j, .fin 2, 3, 6, 5, .fin 1, .fin 7, .fin 1, .fin 1⟩
  { temporal :=
      { texp := [1, 1, 1, 1, 1], u_p := [1, 3, 6, 10, 12]
        u_y := [.fin 10, .fin 30, .fin 60, .fin 100, .fin 100], s2_y := [.fin 1, .fin 3, .fin 6, .fin 10, .fin 0]
        u_ydark := [.fin 0, .fin 0, .fin 0, .fin 0, .fin 0], s2_ydark := [.fin 0, .fin 0, .fin 0, .fin 0, .fin 0] }
    spatial := ⟨1, 6, s, s⟩, pixel_area := none, index_u_ysat := none }

theorem C77sample_consistent : DataOk C77sample [10, 30, 60, 100, 100] [0, 0, 0, 0, 0] [1, 3, 6, 10, 0] [0, 0, 0, 0, 0] where
  u_y := rfl
  u_ydark := rfl
  s2_y := rfl
  s2_ydark := rfl
  dark := rfl
  var := rfl
  vard := rfl
  photons := rfl
  texp := rfl
  shape := ⟨rfl, rfl⟩
  size := by rintro s (rfl | rfl) <;> exact ⟨rfl, rfl, Nat.succ_pos 2⟩

theorem C77sample_computes (q : LSQ ℝ) (a : Attr) : ∃ v, (Results.read q a C77sample).1 = .ok v := by
  refine C77_enough q C77sample _ _ _ _ C77sample_consistent (Nat.le_add_right 5 1) le_rfl rfl (by simp) (by simp) ?_ a
  intro k ys h1 h2 hy
  have h3 : AboveTwo ([1, 3, 6, 10, 0] : List ℝ) 3 :=
    ⟨by omega, 10, 6, 3, rfl, rfl, rfl, by norm_num, by norm_num⟩
  have hk : 3 ≤ k := by
    by_contra hc
    exact h2 3 (by omega) h3
  have hk4 : k = 3 := by
    rcases h1 with rfl | ⟨-, a, b, c, ha, hb, -, hab, -⟩
    · omega
    · have : k < 5 := by simpa using (List.getElem?_eq_some_iff.1 ha).1
      interval_cases k
      · rfl
      · simp at ha hb; subst ha hb; norm_num at hab
  subst hk4
  have : ys = 100 := by
    have : some (100 - 0) = some ys := hy
    simpa using (Option.some.inj this).symm
  subst this
  exact ⟨30 - 0, by simp [diff], by norm_num, by norm_num⟩

end Emva
