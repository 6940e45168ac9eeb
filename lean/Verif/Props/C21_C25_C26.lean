import Verif.Lemmas.Results2
import Verif.Props.C22_C24
import Mathlib.Tactic.FieldSimp

/-!
C21, C25, C26: decomposition of the spatial variance, and the fit ranges.
-/
set_option autoImplicit false
set_option linter.unusedSectionVars false
namespace Emva
open Spec Data Results
variable {F : Type} [Field F] [LinearOrder F] [IsStrictOrderedRing F]

/-- the spatial statistics of the dark or of the bright images -/
def Spec.side (dark : Bool) (s : Spatial F) : SpatialData F := if dark then s.dark else s.bright

theorem val_spat (d : Bool) (r : Res F) : val (spat d) r = .ok (side d r.spatial) := rfl
theorem val_cav (d : Bool) (r : Res F) : val (s2YCav d) r = .ok (side d r.spatial).avg_var_cav := rfl
theorem val_rav (d : Bool) (r : Res F) : val (s2YRav d) r = .ok (side d r.spatial).avg_var_rav := rfl
theorem val_s2Y (d : Bool) (r : Res F) : val (s2Y d) r =
    .ok ((side d r.spatial).avg_var - (side d r.spatial).var_mean / .fin ((side d r.spatial).L : F)) :=
  rfl

theorem intDiv_ne {a b : ℤ} (h : b ≠ 0) : intDiv (F := F) a b = .ok (.fin ((a : F) / b)) := by
  rw [intDiv, if_neg h]

theorem intDiv_zero (a : ℤ) : intDiv (F := F) a 0 = .error .zeroDivisionError := by
  rw [intDiv, if_pos rfl]

theorem val_rcp (d : Bool) (r : Res F) (s : SpatialData F) (hs : side d r.spatial = s) :
    val (s2YRow d) r = (do
      let p1 ← intDiv ((s.M : ℤ) * s.N - s.N) ((s.M : ℤ) * s.N - s.M - s.N)
      let p2 ← intDiv (s.M : ℤ) ((s.M : ℤ) * s.N - s.M - s.N)
      let t ← val (s2Y d) r
      pure (p1 * s.avg_var_rav - p2 * (t - s.avg_var_cav))) ∧
    val (s2YCol d) r = (do
      let p1 ← intDiv ((s.M : ℤ) * s.N - s.M) ((s.M : ℤ) * s.N - s.M - s.N)
      let p2 ← intDiv (s.N : ℤ) ((s.M : ℤ) * s.N - s.M - s.N)
      let t ← val (s2Y d) r
      pure (p1 * s.avg_var_cav - p2 * (t - s.avg_var_rav))) ∧
    val (s2YPixel d) r = (do
      let p ← intDiv ((s.M : ℤ) * s.N) ((s.M : ℤ) * s.N - s.M - s.N)
      let t ← val (s2Y d) r
      pure (p * (t - s.avg_var_cav - s.avg_var_rav))) := by
  have s1 := stable_s2Y (F := F) d
  have s2 := stable_s2YCav (F := F) d
  have s3 := stable_s2YRav (F := F) d
  refine ⟨?_, ?_, ?_⟩
  · unfold s2YRow
    simp (disch := stab) only [val_bind, val_spat, hs, except_bind_ok, val_lift, val_cav, val_rav,
      val_pure]
    rfl
  · unfold s2YCol
    simp (disch := stab) only [val_bind, val_spat, hs, except_bind_ok, val_lift, val_cav, val_rav,
      val_pure]
    rfl
  · unfold s2YPixel
    simp (disch := stab) only [val_bind, val_spat, hs, except_bind_ok, val_lift, val_cav, val_rav,
      val_pure]
    rfl

/-- C21: for every image shape with `M*N ≠ M+N` and finite statistics, row, column and pixel variances
exist, sum up to the spatial variance and reproduce the variances of the column and row averages; they
are the only numbers that do. -/
theorem C21_decomposition (r : Res F) (d : Bool) (s : SpatialData F) (hs : side d r.spatial = s)
    (hM : 0 < s.M) (hN : 0 < s.N) (hMN : s.M * s.N ≠ s.M + s.N) (hL : 0 < s.L)
    (v w c ρ : F) (hv : s.avg_var = .fin v) (hw : s.var_mean = .fin w) (hc : s.avg_var_cav = .fin c)
    (hρ : s.avg_var_rav = .fin ρ) :
    ∃ row col px tot : F, val (s2YRow d) r = .ok (.fin row) ∧ val (s2YCol d) r = .ok (.fin col) ∧
      val (s2YPixel d) r = .ok (.fin px) ∧ val (s2Y d) r = .ok (.fin tot) ∧
      tot = v - w / s.L ∧
      row + col + px = tot ∧ c = col + px / s.M ∧ ρ = row + px / s.N ∧
      ∀ row' col' px' : F, row' + col' + px' = tot → c = col' + px' / s.M → ρ = row' + px' / s.N →
        row' = row ∧ col' = col ∧ px' = px := by
  have hL' : (s.L : F) ≠ 0 := by exact_mod_cast hL.ne'
  have hM' : (s.M : F) ≠ 0 := by exact_mod_cast hM.ne'
  have hN' : (s.N : F) ≠ 0 := by exact_mod_cast hN.ne'
  have hz : (s.M : ℤ) * s.N - s.M - s.N ≠ 0 := by
    intro h0
    exact hMN (by exact_mod_cast (by linarith : (s.M : ℤ) * s.N = s.M + s.N))
  have hD : (s.M : F) * s.N - s.M - s.N ≠ 0 := by
    have : (((s.M : ℤ) * s.N - s.M - s.N : ℤ) : F) ≠ 0 := by exact_mod_cast hz
    push_cast at this; exact this
  have ht : val (s2Y d) r = .ok (.fin (v - w / s.L)) := by
    rw [val_s2Y, hs, hv, hw, Fl.fin_div hL', Fl.fin_sub]
  obtain ⟨e1, e2, e3⟩ := val_rcp d r s hs
  rw [ht, intDiv_ne hz, intDiv_ne hz, hc, hρ] at e1 e2
  rw [ht, intDiv_ne hz, hc, hρ] at e3
  generalize v - w / (s.L : F) = t at *
  simp only [except_bind_ok, Fl.fin_mul, Fl.fin_sub, Int.cast_sub, Int.cast_mul, Int.cast_natCast]
    at e1 e2 e3
  generalize (s.M : F) = M at *
  generalize (s.N : F) = N at *
  obtain ⟨D, hDd⟩ : ∃ D, D = M * N - M - N := ⟨_, rfl⟩
  rw [← hDd] at hD e1 e2 e3
  refine ⟨_, _, _, t, e1, e2, e3, ht, rfl, ?_, ?_, ?_, ?_⟩
  · field_simp; rw [hDd]; ring
  · field_simp; rw [hDd]; ring
  · field_simp; rw [hDd]; ring
  · intro row' col' px' h1 h2 h3
    have hpx : px' * D = M * N * (t - c - ρ) := by
      rw [← h1, h2, h3, hDd]; field_simp; ring
    have hpx : px' = M * N / D * (t - c - ρ) := by
      field_simp; linear_combination hpx
    refine ⟨?_, ?_, hpx⟩
    · have : row' = ρ - px' / N := by rw [h3]; ring
      rw [this, hpx]; field_simp; rw [hDd]; ring
    · have : col' = c - px' / M := by rw [h2]; ring
      rw [this, hpx]; field_simp; rw [hDd]; ring

/-- C21: when `M*N = M+N` the three attributes raise `ZeroDivisionError`. -/
theorem C21_zero_division (r : Res F) (d : Bool) (s : SpatialData F) (hs : side d r.spatial = s)
    (hMN : s.M * s.N = s.M + s.N) :
    val (s2YRow d) r = .error .zeroDivisionError ∧ val (s2YCol d) r = .error .zeroDivisionError ∧
      val (s2YPixel d) r = .error .zeroDivisionError := by
  have hz : (s.M : ℤ) * s.N - s.M - s.N = 0 := by
    have : (s.M : ℤ) * s.N = s.M + s.N := by exact_mod_cast hMN
    linarith
  obtain ⟨e1, e2, e3⟩ := val_rcp d r s hs
  rw [hz] at e1 e2 e3
  rw [e1, e2, e3]
  simp only [intDiv_zero]
  exact ⟨rfl, rfl, rfl⟩

/-- C21: for images this happens for 2 by 2 pixels only. -/
theorem C21_only_two_by_two (M N : ℕ) (hM : 0 < M) (hN : 0 < N) :
    M * N = M + N ↔ M = 2 ∧ N = 2 := by
  constructor
  · intro h
    obtain ⟨a, rfl⟩ : ∃ a, M = a + 1 := ⟨M - 1, by omega⟩
    obtain ⟨b, rfl⟩ : ∃ b, N = b + 1 := ⟨N - 1, by omega⟩
    have hab : a * b = 1 := by nlinarith
    have := Nat.eq_one_of_mul_eq_one_right hab
    have := Nat.eq_one_of_mul_eq_one_left hab
    omega
  · rintro ⟨rfl, rfl⟩; rfl

/-! ### fit ranges -/

theorem signal_fin (r : Res F) (uy ud : List F) (hu : r.temporal.u_y = uy.map .fin)
    (hd : r.temporal.u_ydark = ud.map .fin) (hl : uy.length = ud.length) :
    Np.bin (· - ·) r.temporal.u_y r.temporal.u_ydark = .ok ((diff uy ud).map .fin) := by
  rw [Np.bin_eq_len _ _ _ (by rw [hu, hd]; simpa using hl), hu, hd, diff]
  simp [List.zipWith_map, List.map_zipWith]

theorem idx_fin {l : List F} {k : ℤ} {y : F} (h : AtIndex l k y) :
    Np.idx (l.map Fl.fin) k = .ok (.fin y) := by
  rw [Np.idx_ok_iff]
  rcases h with ⟨h, e⟩ | ⟨h1, h2, e⟩
  · exact .inl ⟨h, by simp [e]⟩
  · exact .inr ⟨h1, by simpa using h2, by simp [e]⟩

theorem lastWhere_map (l : List F) (P : F → Prop) (p : Fl F → Bool) (hp : ∀ x, p (.fin x) = true ↔ P x)
    (k : ℕ) : LastWhere (fun x => p x = true) (l.map .fin) k ↔ LastWhere P l k := by
  unfold LastWhere
  simp only [List.getElem?_map, Option.map_eq_some_iff]
  constructor
  · rintro ⟨⟨x, ⟨y, hy, rfl⟩, hx⟩, h⟩
    exact ⟨⟨y, hy, (hp y).1 hx⟩, fun j x hj hx hP => h j _ hj ⟨x, hx, rfl⟩ ((hp x).2 hP)⟩
  · rintro ⟨⟨y, hy, hx⟩, h⟩
    refine ⟨⟨_, ⟨y, hy, rfl⟩, (hp y).2 hx⟩, ?_⟩
    rintro j x hj ⟨z, hz, rfl⟩ hP
    exact h j z hj hz ((hp z).1 hP)

theorem firstWhere_map (l : List F) (P : F → Prop) (p : Fl F → Bool) (hp : ∀ x, p (.fin x) = true ↔ P x)
    (k : ℕ) : FirstWhere (fun x => p x = true) (l.map .fin) k ↔ FirstWhere P l k := by
  unfold FirstWhere
  simp only [List.getElem?_map, Option.map_eq_some_iff]
  constructor
  · rintro ⟨⟨x, ⟨y, hy, rfl⟩, hx⟩, h⟩
    exact ⟨⟨y, hy, (hp y).1 hx⟩, fun j x hj hx hP => h j _ hj ⟨x, hx, rfl⟩ ((hp x).2 hP)⟩
  · rintro ⟨⟨y, hy, hx⟩, h⟩
    refine ⟨⟨_, ⟨y, hy, rfl⟩, (hp y).2 hx⟩, ?_⟩
    rintro j x hj ⟨z, hz, rfl⟩ hP
    exact h j z hj hz ((hp z).1 hP)

theorem lastBelow_spec (c : F) (r : Res F) (uy ud : List F) (hu : r.temporal.u_y = uy.map .fin)
    (hd : r.temporal.u_ydark = ud.map .fin) (hl : uy.length = ud.length) (k : ℤ)
    (hk : val indexUysat r = .ok k) :
    (∀ ys, AtIndex (diff uy ud) k ys →
      (∀ j, val (lastBelow c) r = .ok j ↔ LastWhere (fun y => y ≤ c * ys) (diff uy ud) j) ∧
      ((∀ y ∈ diff uy ud, c * ys < y) → val (lastBelow c) r = .error .valueError)) ∧
    (¬ HasIndex (diff uy ud) k → val (lastBelow c) r = .error .indexError) := by
  rw [val_lastBelow, signal_fin r uy ud hu hd hl, hk]
  simp only [except_bind_ok]
  constructor
  · intro ys hys
    rw [idx_fin hys]
    simp only [except_bind_ok]
    obtain ⟨h1, h2⟩ := Np.maxI_argwhere (fun y : Fl F => Fl.le y (.fin c * .fin ys))
      ((diff uy ud).map .fin)
    constructor
    · intro j
      rw [h1 j, lastWhere_map _ (fun y => y ≤ c * ys)]
      intro x; simp
    · intro hall
      apply h2
      rintro ⟨x, hx, hp⟩
      obtain ⟨y, hy, rfl⟩ := List.mem_map.1 hx
      have := hall y hy
      simp only [Fl.fin_mul, Fl.le_fin, decide_eq_true_eq] at hp
      exact absurd hp (not_le.2 this)
  · intro hno
    have : Np.idx ((diff uy ud).map Fl.fin) k = .error .indexError := by
      rw [Np.idx_error_iff]; simpa [HasIndex] using hno
    rw [this]; rfl

/-- C25: with dark-corrected signal `Y = u_y - u_y.dark` and saturation index `k`,
`index_sensitivity_max` is the last position with `Y <= 0.7 * Y[k]`; `ValueError` if there is none,
`IndexError` if a forced `k` is outside the data. -/
theorem C25_sensitivity_max (r : Res F) (uy ud : List F) (hu : r.temporal.u_y = uy.map .fin)
    (hd : r.temporal.u_ydark = ud.map .fin) (hl : uy.length = ud.length) (k : ℤ)
    (hk : val indexUysat r = .ok k) :
    (∀ ys, AtIndex (diff uy ud) k ys →
      (∀ j, val indexSensitivityMax r = .ok j ↔
        LastWhere (fun y => y ≤ 7 / 10 * ys) (diff uy ud) j) ∧
      ((∀ y ∈ diff uy ud, 7 / 10 * ys < y) → val indexSensitivityMax r = .error .valueError)) ∧
    (¬ HasIndex (diff uy ud) k → val indexSensitivityMax r = .error .indexError) :=
  lastBelow_spec (7 / 10) r uy ud hu hd hl k hk

/-- C25: for a non-decreasing signal the positions up to `index_sensitivity_max` are exactly the points
of at most 70 % of the saturation signal. -/
theorem C25_range_monotone (r : Res F) (uy ud : List F) (hu : r.temporal.u_y = uy.map .fin)
    (hd : r.temporal.u_ydark = ud.map .fin) (hl : uy.length = ud.length) (k : ℤ)
    (hk : val indexUysat r = .ok k) (ys : F) (hys : AtIndex (diff uy ud) k ys)
    (hmono : (diff uy ud).Pairwise (· ≤ ·)) (j : ℕ) (hj : val indexSensitivityMax r = .ok j) :
    ∀ i y, (diff uy ud)[i]? = some y → (i ≤ j ↔ y ≤ 7 / 10 * ys) := by
  obtain ⟨⟨x, hx, hxle⟩, hafter⟩ :=
    (((C25_sensitivity_max r uy ud hu hd hl k hk).1 ys hys).1 j).1 hj
  intro i y hi
  constructor
  · intro hij
    rcases Nat.lt_or_eq_of_le hij with h | h
    · have h1 := List.getElem?_eq_some_iff.1 hi
      have h2 := List.getElem?_eq_some_iff.1 hx
      have := List.pairwise_iff_getElem.1 hmono i j h1.1 h2.1 h
      rw [h1.2, h2.2] at this
      exact this.trans hxle
    · subst h; rw [hi] at hx; cases hx; exact hxle
  · intro hy
    by_contra hij
    exact hafter i y (not_le.1 hij) hi hy

/-- C26: `index_linearity_max` is the last position with at most 95 % of the saturation signal (same
exceptions). -/
theorem C26_linearity_max (r : Res F) (uy ud : List F) (hu : r.temporal.u_y = uy.map .fin)
    (hd : r.temporal.u_ydark = ud.map .fin) (hl : uy.length = ud.length) (k : ℤ)
    (hk : val indexUysat r = .ok k) :
    (∀ ys, AtIndex (diff uy ud) k ys →
      (∀ j, val indexLinearityMax r = .ok j ↔
        LastWhere (fun y => y ≤ 95 / 100 * ys) (diff uy ud) j) ∧
      ((∀ y ∈ diff uy ud, 95 / 100 * ys < y) → val indexLinearityMax r = .error .valueError)) ∧
    (¬ HasIndex (diff uy ud) k → val indexLinearityMax r = .error .indexError) :=
  lastBelow_spec (95 / 100) r uy ud hu hd hl k hk

/-- C26: `index_linearity_min` is the first position with at least 5 % of the saturation signal. -/
theorem C26_linearity_min (r : Res F) (uy ud : List F) (hu : r.temporal.u_y = uy.map .fin)
    (hd : r.temporal.u_ydark = ud.map .fin) (hl : uy.length = ud.length) (k : ℤ)
    (hk : val indexUysat r = .ok k) :
    (∀ ys, AtIndex (diff uy ud) k ys →
      (∀ j, val indexLinearityMin r = .ok j ↔
        FirstWhere (fun y => 5 / 100 * ys ≤ y) (diff uy ud) j) ∧
      ((∀ y ∈ diff uy ud, y < 5 / 100 * ys) → val indexLinearityMin r = .error .valueError)) ∧
    (¬ HasIndex (diff uy ud) k → val indexLinearityMin r = .error .indexError) := by
  rw [val_linMin, signal_fin r uy ud hu hd hl, hk]
  simp only [except_bind_ok]
  constructor
  · intro ys hys
    rw [idx_fin hys]
    simp only [except_bind_ok]
    obtain ⟨h1, h2⟩ := Np.minI_argwhere (fun y : Fl F => Fl.le (.fin (5 / 100) * .fin ys) y)
      ((diff uy ud).map .fin)
    constructor
    · intro j
      rw [h1 j, firstWhere_map _ (fun y => 5 / 100 * ys ≤ y)]
      intro x; simp
    · intro hall
      apply h2
      rintro ⟨x, hx, hp⟩
      obtain ⟨y, hy, rfl⟩ := List.mem_map.1 hx
      have := hall y hy
      simp only [Fl.fin_mul, Fl.le_fin, decide_eq_true_eq] at hp
      exact absurd hp (not_le.2 this)
  · intro hno
    have : Np.idx ((diff uy ud).map Fl.fin) k = .error .indexError := by
      rw [Np.idx_error_iff]; simpa [HasIndex] using hno
    rw [this]; rfl

/-- C26: if the saturation signal is not negative (and the index was not forced to a negative value),
`index_linearity_min` exists and does not lie after the saturation index. -/
theorem C26_min_before_saturation (r : Res F) (uy ud : List F) (hu : r.temporal.u_y = uy.map .fin)
    (hd : r.temporal.u_ydark = ud.map .fin) (hl : uy.length = ud.length) (k : ℕ)
    (hk : val indexUysat r = .ok (k : ℤ)) (ys : F) (hys : (diff uy ud)[k]? = some ys)
    (h0 : 0 ≤ ys) :
    ∃ j, val indexLinearityMin r = .ok j ∧ j ≤ k := by
  have hat : AtIndex (diff uy ud) (k : ℤ) ys := .inl ⟨by omega, by simpa using hys⟩
  have hspec := ((C26_linearity_min r uy ud hu hd hl k hk).1 ys hat).1
  have hle : 5 / 100 * ys ≤ ys := by linarith
  classical
  have hex : ∃ j, ∃ x, (diff uy ud)[j]? = some x ∧ 5 / 100 * ys ≤ x := ⟨k, ys, hys, hle⟩
  refine ⟨Nat.find hex, (hspec _).2 ⟨Nat.find_spec hex, fun j x hj hx hp => ?_⟩,
    Nat.find_min' hex ⟨ys, hys, hle⟩⟩
  exact Nat.find_min hex hj ⟨x, hx, hp⟩

/-- C26: for a non-decreasing signal with positive saturation signal the upper end of the linearity
range lies before the saturation index. -/
theorem C26_max_before_saturation (r : Res F) (uy ud : List F) (hu : r.temporal.u_y = uy.map .fin)
    (hd : r.temporal.u_ydark = ud.map .fin) (hl : uy.length = ud.length) (k : ℕ)
    (hk : val indexUysat r = .ok (k : ℤ)) (ys : F) (hys : (diff uy ud)[k]? = some ys)
    (h0 : 0 < ys) (hmono : (diff uy ud).Pairwise (· ≤ ·)) (j : ℕ)
    (hj : val indexLinearityMax r = .ok j) : j < k := by
  have hat : AtIndex (diff uy ud) (k : ℤ) ys := .inl ⟨by omega, by simpa using hys⟩
  obtain ⟨⟨x, hx, hxle⟩, -⟩ := (((C26_linearity_max r uy ud hu hd hl k hk).1 ys hat).1 j).1 hj
  by_contra hjk
  have hle : ys ≤ x := by
    rcases Nat.lt_or_eq_of_le (not_lt.1 hjk) with h | h
    · have h1 := List.getElem?_eq_some_iff.1 hys
      have h2 := List.getElem?_eq_some_iff.1 hx
      have := List.pairwise_iff_getElem.1 hmono k j h1.1 h2.1 h
      rw [h1.2, h2.2] at this
      exact this
    · subst h; rw [hys] at hx; cases hx; exact le_rfl
  linarith

/-! ### a case meeting the hypotheses -/

/-- six points, photon counts 0..50, dark signal 10 everywhere -/
def sampleRes : Res ℚ where
  temporal := ⟨[1, 1, 1, 1, 1, 1], [0, 10, 20, 30, 40, 50],
    [10, 30, 50, 70, 90, 95].map .fin, [1, 3, 5, 7, 9, 4].map .fin,
    [10, 10, 10, 10, 10, 10].map .fin, [1, 1, 1, 1, 1, 1].map .fin⟩
  spatial := ⟨1, 30, ⟨3, 4, fun _ _ => 10, .fin 2, 4, 3, 4, .fin 5, .fin 10, .fin 1, .fin (1/2)⟩,
    ⟨3, 4, fun _ _ => 10, .fin 4, 4, 3, 4, .fin 9, .fin 50, .fin 3, .fin 2⟩⟩
  pixel_area := none
  index_u_ysat := none

example : val indexUysat sampleRes = .ok 4 := by decide +kernel
example : val indexSensitivityMax sampleRes = .ok 2 := by decide +kernel
example : val indexLinearityMin sampleRes = .ok 1 := by decide +kernel
example : val indexLinearityMax sampleRes = .ok 3 := by decide +kernel
example : diff [10, 30, 50, 70, 90, 95] ([10, 10, 10, 10, 10, 10] : List ℚ) = [0, 20, 40, 60, 80, 85] := by
  decide +kernel
example : val (s2YRow false) sampleRes = .ok (.fin (1 / 5)) ∧
    val (s2YCol false) sampleRes = .ok (.fin (3 / 5)) ∧
    val (s2YPixel false) sampleRes = .ok (.fin (36 / 5)) ∧
    val (s2Y false) sampleRes = .ok (.fin 8) := by decide +kernel

end Emva
