import Verif.Props.C59Example
import Verif.Props.C17_C18
import Verif.Props.C35

/-!
C70: the sensitivity, photon transfer, linearity, deviation and dark plots draw the data and exactly the
reported fits, and can be drawn exactly when the reported figure can be computed.
-/
set_option autoImplicit false
namespace Emva
namespace Plots
open Results

theorem lt_of_maxI {α : Type} {p : α → Bool} {l : List α} {j : ℕ} (h : Np.maxI (Np.argwhere p l) = .ok j) :
    j < l.length := by
  have hm : j ∈ Np.argwhere p l := by
    revert h
    cases hl : Np.argwhere p l with
    | nil => intro h; cases h
    | cons x l' =>
      intro h
      have : l'.foldl max x = j := Except.ok.inj h
      rw [← this]
      clear this h hl
      induction l' generalizing x with
      | nil => simp
      | cons y l' ih =>
        rw [List.foldl_cons]
        rcases List.mem_cons.1 (ih (max x y)) with h | h
        · rw [h]
          rcases max_choice x y with h' | h' <;> rw [h'] <;> simp
        · simp [h]
  have := (List.mem_filter.1 hm).1
  exact List.mem_range.1 this

theorem lt_of_minI {α : Type} {p : α → Bool} {l : List α} {j : ℕ} (h : Np.minI (Np.argwhere p l) = .ok j) :
    j < l.length := by
  have hm : j ∈ Np.argwhere p l := by
    revert h
    cases hl : Np.argwhere p l with
    | nil => intro h; cases h
    | cons x l' =>
      intro h
      have : l'.foldl min x = j := Except.ok.inj h
      rw [← this]
      clear this h hl
      induction l' generalizing x with
      | nil => simp
      | cons y l' ih =>
        rw [List.foldl_cons]
        rcases List.mem_cons.1 (ih (min x y)) with h | h
        · rw [h]
          rcases min_choice x y with h' | h' <;> rw [h'] <;> simp
        · simp [h]
  have := (List.mem_filter.1 hm).1
  exact List.mem_range.1 this

theorem bind_ok {α β : Type} {x : Except PyErr α} {f : α → Except PyErr β} {b : β} (h : (x >>= f) = .ok b) :
    ∃ a, x = .ok a ∧ f a = .ok b := by
  cases x with
  | error e => cases h
  | ok a => exact ⟨a, rfl, h⟩

theorem val_signal_len (r : Res ℝ) (h : r.temporal.u_y.length = r.temporal.u_ydark.length) :
    val signal r = .ok (List.zipWith (· - ·) r.temporal.u_y r.temporal.u_ydark) := by
  rw [val_signal, Np.bin_eq_len _ _ _ h]

/-- an index found on the dark-corrected signal lies inside it, and so does the saturation index -/
theorem lastBelow_lt {c : ℝ} {r : Res ℝ} {j : ℕ} (h : r.temporal.u_y.length = r.temporal.u_ydark.length)
    (hj : val (lastBelow c) r = .ok j) : j < r.temporal.u_y.length ∧
      ∃ k y, val indexUysat r = .ok k ∧
        Np.idx (List.zipWith (· - ·) r.temporal.u_y r.temporal.u_ydark) k = .ok y := by
  rw [val_lastBelow, Np.bin_eq_len _ _ _ h, except_bind_ok] at hj
  obtain ⟨k, hk, hj⟩ := bind_ok hj
  obtain ⟨y, hy, hj⟩ := bind_ok hj
  have := lt_of_maxI hj
  rw [List.length_zipWith, ← h, min_self] at this
  exact ⟨this, k, y, hk, hy⟩

theorem linMin_lt {r : Res ℝ} {j : ℕ} (h : r.temporal.u_y.length = r.temporal.u_ydark.length)
    (hj : val indexLinearityMin r = .ok j) : j < r.temporal.u_y.length := by
  rw [val_linMin, Np.bin_eq_len _ _ _ h, except_bind_ok] at hj
  obtain ⟨k, hk, hj⟩ := bind_ok hj
  obtain ⟨y, hy, hj⟩ := bind_ok hj
  have := lt_of_minI hj
  rwa [List.length_zipWith, ← h, min_self] at this

theorem idx_nat {α : Type} {l : List α} {i : ℕ} {x : α} (h : l[i]? = some x) : Np.idx l (i : ℤ) = .ok x :=
  (Np.idx_ok_iff _ _ _).2 (.inl ⟨Int.natCast_nonneg i, by simpa using h⟩)

theorem rangeMarks_ok {X Y : List (Fl ℝ)} {i j : ℕ} {a b c d : Fl ℝ} (h1 : X[i]? = some a) (h2 : X[j]? = some b)
    (h3 : Y[i]? = some c) (h4 : Y[j]? = some d) : rangeMarks X Y i j = .ok (.line [a, b] [c, d] "Fit range") := by
  rw [rangeMarks, idx_nat h1, except_bind_ok, idx_nat h2, except_bind_ok, idx_nat h3, except_bind_ok, idx_nat h4,
    except_bind_ok]
  rfl

theorem val_plotSensitivity (q : LSQ ℝ) (r : Res ℝ) : val (plotSensitivity q) r = (do
    let Y ← val signal r
    let d1 ← axPlot (r.temporal.u_p.map .fin) Y "Data"
    let m ← val (R q) r
    let d2 ← axPlot (r.temporal.u_p.map .fin) ((r.temporal.u_p.map .fin).map fun x => m * x) "Fit"
    let j ← val indexSensitivityMax r
    let d3 ← rangeMarks (r.temporal.u_p.map .fin) Y 0 j
    pure [d1, d2, d3]) := by
  have sR := stable_R q
  unfold plotSensitivity
  simp (disch := stab) only [val_bind, val_photons, val_lift, except_bind_ok, indexSensitivityMin, val_pure]
  rfl

theorem val_plotPTC (q : LSQ ℝ) (r : Res ℝ) : val (plotPTC q) r = (do
    let X ← val signal r
    let Y ← Np.bin (· - ·) r.temporal.s2_y r.temporal.s2_ydark
    let d1 ← axPlot X Y "Data"
    let k ← val (K q) r
    let d2 ← axPlot X (X.map fun x => k * x) "Fit"
    let s ← val indexUysat r
    let d3 ← (do axPlot [← Np.idx X s] [← Np.idx Y s] "Saturation")
    let j ← val indexSensitivityMax r
    let d4 ← rangeMarks X Y 0 j
    pure [d1, d2, d3, d4]) := by
  have sK := stable_K q
  unfold plotPTC
  simp (disch := stab) only [val_bind, val_ask, val_lift, except_bind_ok, indexSensitivityMin, val_pure]
  rfl

theorem val_plotLinearity (r : Res ℝ) : val plotLinearity r = (do
    let Y ← val signal r
    let d1 ← axPlot (r.temporal.u_p.map .fin) Y "Data"
    let l ← val linearity r
    let d2 ← axPlot (r.temporal.u_p.map .fin) ((r.temporal.u_p.map .fin).map fun x => l.fit_slope * x + l.fit_offset) "Fit"
    let i ← val indexLinearityMin r
    let j ← val indexLinearityMax r
    let d3 ← rangeMarks (r.temporal.u_p.map .fin) Y i j
    pure [d1, d2, d3]) := by
  have sL := stable_linearity (F := ℝ)
  have s1 := stable_linMin (F := ℝ)
  have s2 := stable_linMax (F := ℝ)
  unfold plotLinearity
  simp (disch := stab) only [val_bind, val_photons, val_lift, except_bind_ok, val_pure]
  rfl

theorem val_plotDeviation (r : Res ℝ) : val plotDeviation r = (do
    let i ← val indexLinearityMin r
    let j ← val indexLinearityMax r
    let l ← val linearity r
    let X := Np.slice (r.temporal.u_p.map .fin) i (j + 1)
    let Y := Np.slice l.relative_deviation i (j + 1)
    let d1 ← axPlot X Y "Data"
    let d2 ← (do axPlot [← Np.idx X 0, ← Np.idx X (-1)] [← Np.idx Y 0, ← Np.idx Y (-1)] "Fit range")
    pure [d1, d2]) := by
  have sL := stable_linearity (F := ℝ)
  have s1 := stable_linMin (F := ℝ)
  have s2 := stable_linMax (F := ℝ)
  unfold plotDeviation
  simp (disch := stab) only [val_bind, val_photons, val_lift, except_bind_ok, val_pure]
  rfl

/-- what a successful `linearity` computed -/
theorem linearity_ok {r : Res ℝ} {l : Linearity ℝ} (h : r.temporal.u_y.length = r.temporal.u_ydark.length)
    (hp : r.temporal.u_p.length = r.temporal.u_y.length) (hl : val linearity r = .ok l) :
    ∃ i j : ℕ, val indexLinearityMin r = .ok i ∧ val indexLinearityMax r = .ok j ∧ i ≤ j ∧ j < r.temporal.u_y.length ∧
      l.relative_deviation.length = r.temporal.u_y.length ∧
      ∀ (n : ℕ) (y z : Fl ℝ) (x : ℝ), r.temporal.u_y[n]? = some y → r.temporal.u_ydark[n]? = some z →
        r.temporal.u_p[n]? = some x → l.relative_deviation[n]? =
          some (.fin 100 * (y - z - (l.fit_slope * .fin x + l.fit_offset)) / (l.fit_slope * .fin x + l.fit_offset)) := by
  have s1 := stable_linMin (F := ℝ)
  have s2 := stable_linMax (F := ℝ)
  unfold linearity at hl
  simp (disch := stab) only [val_bind, val_photons, val_signal_len r h, val_lift, except_bind_ok, val_pure] at hl
  obtain ⟨j, hj, hl⟩ := bind_ok hl
  obtain ⟨i, hi, hl⟩ := bind_ok hl
  obtain ⟨ab, hab, hl⟩ := bind_ok hl
  rw [Np.bin_eq_len _ _ _ (by simp [h, hp]), except_bind_ok] at hl
  obtain ⟨lo, hlo, hl⟩ := bind_ok hl
  obtain ⟨hi', hhi, hl⟩ := bind_ok hl
  cases hl
  have hjlt := (lastBelow_lt h hj).1
  refine ⟨i, j, hi, hj, ?_, hjlt, by simp [h, hp], ?_⟩
  · by_contra hc
    have : Np.slice (List.zipWith (fun y x => Fl.fin 100 * (y - (ab.1 * x + ab.2)) / (ab.1 * x + ab.2))
        (List.zipWith (· - ·) r.temporal.u_y r.temporal.u_ydark) (r.temporal.u_p.map Fl.fin)) i (j + 1) = [] := by
      unfold Np.slice
      rw [List.drop_eq_nil_iff]
      refine (List.length_take_le _ _).trans (by omega)
    rw [this] at hlo
    cases hlo
  · intro n y z x hy hz hx
    simp [List.getElem?_zipWith, hy, hz, hx]

end Plots

open Results Plots

/-- C70: the sensitivity plot.  With arrays of one length it can be drawn exactly when `R` can be computed
(and otherwise raises the same error); it shows the dark-corrected signal over the photons, the line through
the origin of slope `R`, and markers on the data points at the ends of the range of the fit. -/
theorem C70_sensitivity (q : LSQ ℝ) (r : Res ℝ) (h1 : r.temporal.u_y.length = r.temporal.u_ydark.length)
    (h2 : r.temporal.u_p.length = r.temporal.u_y.length) :
    (∀ e, val (R q) r = .error e → val (plotSensitivity q) r = .error e) ∧
    ∀ m, val (R q) r = .ok m → ∃ (j : ℕ) (Y fit : List (Fl ℝ)) (x0 xj : ℝ) (y0 yj : Fl ℝ),
      val (plotSensitivity q) r = .ok [.line (r.temporal.u_p.map .fin) Y "Data",
        .line (r.temporal.u_p.map .fin) fit "Fit", .line [.fin x0, .fin xj] [y0, yj] "Fit range"] ∧
      Y.length = r.temporal.u_p.length ∧ fit.length = r.temporal.u_p.length ∧
      (∀ (n : ℕ) (y z : Fl ℝ), r.temporal.u_y[n]? = some y → r.temporal.u_ydark[n]? = some z →
        Y[n]? = some (y - z)) ∧
      (∀ (n : ℕ) (x : ℝ), r.temporal.u_p[n]? = some x → fit[n]? = some (m * .fin x)) ∧
      val indexSensitivityMax r = .ok j ∧ r.temporal.u_p[0]? = some x0 ∧ r.temporal.u_p[j]? = some xj ∧
      Y[0]? = some y0 ∧ Y[j]? = some yj := by
  have hY := val_signal_len r h1
  have hlen : (List.zipWith (· - ·) r.temporal.u_y r.temporal.u_ydark).length = r.temporal.u_p.length := by
    simp [h1, h2]
  have hd : axPlot (r.temporal.u_p.map Fl.fin) (List.zipWith (· - ·) r.temporal.u_y r.temporal.u_ydark) "Data" =
      .ok (.line (r.temporal.u_p.map .fin) (List.zipWith (· - ·) r.temporal.u_y r.temporal.u_ydark) "Data") :=
    axPlot_eq (by simp [h1, h2])
  rw [val_plotSensitivity, hY, except_bind_ok, hd, except_bind_ok]
  constructor
  · intro e he
    rw [he]; rfl
  · intro m hm
    have hm' := hm
    rw [val_R, Np.bin_eq_len _ _ _ h1, except_bind_ok] at hm'
    obtain ⟨j, hj, -⟩ := bind_ok hm'
    have hjl := (lastBelow_lt h1 hj).1
    have g : ∀ i, i < r.temporal.u_y.length → ∃ x y, r.temporal.u_p[i]? = some x ∧
        (List.zipWith (· - ·) r.temporal.u_y r.temporal.u_ydark)[i]? = some y := fun i hi =>
      ⟨_, _, List.getElem?_eq_getElem (by omega), List.getElem?_eq_getElem (by rw [hlen]; omega)⟩
    obtain ⟨x0, y0, hx0, hy0⟩ := g 0 (by omega)
    obtain ⟨xj, yj, hxj, hyj⟩ := g j hjl
    refine ⟨j, _, (r.temporal.u_p.map Fl.fin).map fun x => m * x, x0, xj, y0, yj, ?_, hlen, by simp, ?_, ?_, hj,
      hx0, hxj, hy0, hyj⟩
    · rw [hm, except_bind_ok, axPlot_eq (by simp), except_bind_ok, hj, except_bind_ok,
        rangeMarks_ok (a := .fin x0) (b := .fin xj) (by simp [hx0]) (by simp [hxj]) hy0 hyj]
      rfl
    · intro n y z hy hz
      simp [List.getElem?_zipWith, hy, hz]
    · intro n x hx
      simp [hx]

/-- C70: the photon transfer plot.  With arrays of one length it can be drawn exactly when `K` can be
computed; it shows the dark-corrected variance over the dark-corrected signal, the line through the origin
of slope `K`, a marker on the saturation point and markers on the ends of the range of the fit. -/
theorem C70_photon_transfer (q : LSQ ℝ) (r : Res ℝ) (h1 : r.temporal.u_y.length = r.temporal.u_ydark.length)
    (h2 : r.temporal.s2_y.length = r.temporal.u_y.length) (h3 : r.temporal.s2_ydark.length = r.temporal.u_y.length) :
    (∀ e, val (K q) r = .error e → val (plotPTC q) r = .error e) ∧
    ∀ k, val (K q) r = .ok k → ∃ (j : ℕ) (s : ℤ) (X Y fit : List (Fl ℝ)) (xs x0 xj ys y0 yj : Fl ℝ),
      val (plotPTC q) r = .ok [.line X Y "Data", .line X fit "Fit", .line [xs] [ys] "Saturation",
        .line [x0, xj] [y0, yj] "Fit range"] ∧
      X.length = r.temporal.u_y.length ∧ Y.length = r.temporal.u_y.length ∧ fit.length = r.temporal.u_y.length ∧
      (∀ (n : ℕ) (y z : Fl ℝ), r.temporal.u_y[n]? = some y → r.temporal.u_ydark[n]? = some z →
        X[n]? = some (y - z) ∧ fit[n]? = some (k * (y - z))) ∧
      (∀ (n : ℕ) (v w : Fl ℝ), r.temporal.s2_y[n]? = some v → r.temporal.s2_ydark[n]? = some w →
        Y[n]? = some (v - w)) ∧
      val indexUysat r = .ok s ∧ Spec.AtIndex X s xs ∧ Spec.AtIndex Y s ys ∧
      val indexSensitivityMax r = .ok j ∧ X[0]? = some x0 ∧ X[j]? = some xj ∧ Y[0]? = some y0 ∧ Y[j]? = some yj := by
  have hX := val_signal_len r h1
  have hY := Np.bin_eq_len (fun a b : Fl ℝ => a - b) r.temporal.s2_y r.temporal.s2_ydark (by rw [h2, h3])
  set X := List.zipWith (fun a b : Fl ℝ => a - b) r.temporal.u_y r.temporal.u_ydark with hXdef
  set Y := List.zipWith (fun a b : Fl ℝ => a - b) r.temporal.s2_y r.temporal.s2_ydark with hYdef
  have lX : X.length = r.temporal.u_y.length := by simp [hXdef, h1]
  have lY : Y.length = r.temporal.u_y.length := by simp [hYdef, h2, h3]
  rw [val_plotPTC, hX, except_bind_ok, hY, except_bind_ok, axPlot_eq (by rw [lX, lY]), except_bind_ok]
  constructor
  · intro e he
    rw [he]; rfl
  · intro k hk
    have hk' := hk
    rw [val_K, Np.bin_eq_len _ _ _ h1, except_bind_ok, hY, except_bind_ok] at hk'
    obtain ⟨j, hj, -⟩ := bind_ok hk'
    obtain ⟨hjl, s, xs, hs, hxs⟩ := lastBelow_lt h1 hj
    have g : ∀ i, i < r.temporal.u_y.length → ∃ x y, X[i]? = some x ∧ Y[i]? = some y := fun i hi =>
      ⟨_, _, List.getElem?_eq_getElem (by omega), List.getElem?_eq_getElem (by omega)⟩
    obtain ⟨x0, y0, hx0, hy0⟩ := g 0 (by omega)
    obtain ⟨xj, yj, hxj, hyj⟩ := g j hjl
    have hat := (Np.idx_ok_iff _ _ _).1 hxs
    obtain ⟨ys, hys⟩ : ∃ ys, Spec.AtIndex Y s ys := by
      rcases hat with ⟨h, h'⟩ | ⟨h, h', h''⟩
      · have := (List.getElem?_eq_some_iff.1 h').1
        exact ⟨_, .inl ⟨h, List.getElem?_eq_getElem (by rw [lY, ← lX]; exact this)⟩⟩
      · have := (List.getElem?_eq_some_iff.1 h'').1
        rw [← hXdef] at this h'
        exact ⟨_, .inr ⟨h, by rw [lY, ← lX]; exact h',
          List.getElem?_eq_getElem (by rw [lY, ← lX]; exact this)⟩⟩
    refine ⟨j, s, X, Y, X.map fun x => k * x, xs, x0, xj, ys, y0, yj, ?_, lX, lY, by simp [lX], ?_, ?_, hs, hat, hys,
      hj, hx0, hxj, hy0, hyj⟩
    · rw [hk, except_bind_ok, axPlot_eq (by simp), except_bind_ok, hs, except_bind_ok, hxs, except_bind_ok,
        (Np.idx_ok_iff _ _ _).2 hys, except_bind_ok, axPlot_eq (by simp), except_bind_ok, hj, except_bind_ok, rangeMarks_ok hx0 hxj hy0 hyj]
      rfl
    · intro n y z hy hz
      simp [hXdef, List.getElem?_zipWith, hy, hz]
    · intro n v w hv hw
      simp [hYdef, List.getElem?_zipWith, hv, hw]

/-- C70: the linearity plot.  With arrays of one length it can be drawn exactly when `linearity()` can be
computed; it shows the dark-corrected signal over the photons, the reported line and markers on the data
points at the two ends of the linearity range. -/
theorem C70_linearity (r : Res ℝ) (h1 : r.temporal.u_y.length = r.temporal.u_ydark.length)
    (h2 : r.temporal.u_p.length = r.temporal.u_y.length) :
    (∀ e, val linearity r = .error e → val plotLinearity r = .error e) ∧
    ∀ l, val linearity r = .ok l → ∃ (i j : ℕ) (Y fit : List (Fl ℝ)) (xi xj : ℝ) (yi yj : Fl ℝ),
      val plotLinearity r = .ok [.line (r.temporal.u_p.map .fin) Y "Data",
        .line (r.temporal.u_p.map .fin) fit "Fit", .line [.fin xi, .fin xj] [yi, yj] "Fit range"] ∧
      Y.length = r.temporal.u_p.length ∧ fit.length = r.temporal.u_p.length ∧
      (∀ (n : ℕ) (y z : Fl ℝ), r.temporal.u_y[n]? = some y → r.temporal.u_ydark[n]? = some z →
        Y[n]? = some (y - z)) ∧
      (∀ (n : ℕ) (x : ℝ), r.temporal.u_p[n]? = some x → fit[n]? = some (l.fit_slope * .fin x + l.fit_offset)) ∧
      val indexLinearityMin r = .ok i ∧ val indexLinearityMax r = .ok j ∧ i ≤ j ∧
      r.temporal.u_p[i]? = some xi ∧ r.temporal.u_p[j]? = some xj ∧ Y[i]? = some yi ∧ Y[j]? = some yj := by
  have hY := val_signal_len r h1
  have hlen : (List.zipWith (· - ·) r.temporal.u_y r.temporal.u_ydark).length = r.temporal.u_p.length := by
    simp [h1, h2]
  have hd : axPlot (r.temporal.u_p.map Fl.fin) (List.zipWith (· - ·) r.temporal.u_y r.temporal.u_ydark) "Data" =
      .ok (.line (r.temporal.u_p.map .fin) (List.zipWith (· - ·) r.temporal.u_y r.temporal.u_ydark) "Data") :=
    axPlot_eq (by simp [h1, h2])
  rw [val_plotLinearity, hY, except_bind_ok, hd, except_bind_ok]
  constructor
  · intro e he
    rw [he]; rfl
  · intro l hl
    obtain ⟨i, j, hi, hj, hij, hjl, -, -⟩ := linearity_ok h1 h2 hl
    have g : ∀ i, i < r.temporal.u_y.length → ∃ x y, r.temporal.u_p[i]? = some x ∧
        (List.zipWith (· - ·) r.temporal.u_y r.temporal.u_ydark)[i]? = some y := fun i hi =>
      ⟨_, _, List.getElem?_eq_getElem (by omega), List.getElem?_eq_getElem (by rw [hlen]; omega)⟩
    obtain ⟨xi, yi, hxi, hyi⟩ := g i (by omega)
    obtain ⟨xj, yj, hxj, hyj⟩ := g j hjl
    refine ⟨i, j, _, (r.temporal.u_p.map Fl.fin).map fun x => l.fit_slope * x + l.fit_offset, xi, xj, yi, yj, ?_, hlen,
      by simp, ?_, ?_, hi, hj, hij, hxi, hxj, hyi, hyj⟩
    · rw [hl, except_bind_ok, axPlot_eq (by simp), except_bind_ok, hi, except_bind_ok, hj, except_bind_ok,
        rangeMarks_ok (a := .fin xi) (b := .fin xj) (by simp [hxi]) (by simp [hxj]) hyi hyj]
      rfl
    · intro n y z hy hz
      simp [List.getElem?_zipWith, hy, hz]
    · intro n x hx
      simp [hx]

/-- C70: the deviation plot.  With arrays of one length it can be drawn exactly when `linearity()` can be
computed; it shows, for the points `i..j` of the linearity range and no others, the reported relative
deviation over the photons, with markers on the first and on the last of them. -/
theorem C70_deviation (r : Res ℝ) (h1 : r.temporal.u_y.length = r.temporal.u_ydark.length)
    (h2 : r.temporal.u_p.length = r.temporal.u_y.length) :
    ((∃ l, val linearity r = .ok l) ↔ ∃ d, val plotDeviation r = .ok d) ∧
    ∀ l, val linearity r = .ok l → ∃ (i j : ℕ) (X Y : List (Fl ℝ)) (xi xj : ℝ) (yi yj : Fl ℝ),
      val plotDeviation r = .ok [.line X Y "Data", .line [.fin xi, .fin xj] [yi, yj] "Fit range"] ∧
      val indexLinearityMin r = .ok i ∧ val indexLinearityMax r = .ok j ∧ i ≤ j ∧
      X.length = j + 1 - i ∧ Y.length = j + 1 - i ∧
      (∀ (n : ℕ), i ≤ n → n ≤ j → ∀ (x : ℝ) (y z : Fl ℝ), r.temporal.u_p[n]? = some x →
        r.temporal.u_y[n]? = some y → r.temporal.u_ydark[n]? = some z → X[n - i]? = some (.fin x) ∧
        Y[n - i]? = some (.fin 100 * (y - z - (l.fit_slope * .fin x + l.fit_offset)) /
          (l.fit_slope * .fin x + l.fit_offset))) ∧
      r.temporal.u_p[i]? = some xi ∧ r.temporal.u_p[j]? = some xj ∧ Y[0]? = some yi ∧ Y[j - i]? = some yj := by
  have key : ∀ l, val linearity r = .ok l → ∃ (i j : ℕ) (X Y : List (Fl ℝ)) (xi xj : ℝ) (yi yj : Fl ℝ),
      val plotDeviation r = .ok [.line X Y "Data", .line [.fin xi, .fin xj] [yi, yj] "Fit range"] ∧
      val indexLinearityMin r = .ok i ∧ val indexLinearityMax r = .ok j ∧ i ≤ j ∧
      X.length = j + 1 - i ∧ Y.length = j + 1 - i ∧
      (∀ (n : ℕ), i ≤ n → n ≤ j → ∀ (x : ℝ) (y z : Fl ℝ), r.temporal.u_p[n]? = some x →
        r.temporal.u_y[n]? = some y → r.temporal.u_ydark[n]? = some z → X[n - i]? = some (.fin x) ∧
        Y[n - i]? = some (.fin 100 * (y - z - (l.fit_slope * .fin x + l.fit_offset)) /
          (l.fit_slope * .fin x + l.fit_offset))) ∧
      r.temporal.u_p[i]? = some xi ∧ r.temporal.u_p[j]? = some xj ∧ Y[0]? = some yi ∧ Y[j - i]? = some yj := by
    intro l hl
    obtain ⟨i, j, hi, hj, hij, hjl, hdl, hdev⟩ := linearity_ok h1 h2 hl
    have sl : ∀ {α : Type} (L : List α), L.length = r.temporal.u_y.length →
        (Np.slice L i (j + 1)).length = j + 1 - i ∧
        ∀ n, i ≤ n → n ≤ j → (Np.slice L i (j + 1))[n - i]? = L[n]? := by
      intro α L hL
      constructor
      · simp [Np.slice, hL]; omega
      · intro n hn hnj
        rw [Np.slice, List.getElem?_drop, List.getElem?_take, if_pos (by omega)]
        congr 1; omega
    obtain ⟨lX, gX⟩ := sl (r.temporal.u_p.map Fl.fin) (by simp [h2])
    obtain ⟨lY, gY⟩ := sl l.relative_deviation hdl
    set X := Np.slice (r.temporal.u_p.map Fl.fin) i (j + 1) with hXdef
    set Y := Np.slice l.relative_deviation i (j + 1) with hYdef
    obtain ⟨xi, hxi⟩ : ∃ x, r.temporal.u_p[i]? = some x := ⟨_, List.getElem?_eq_getElem (by omega)⟩
    obtain ⟨xj, hxj⟩ : ∃ x, r.temporal.u_p[j]? = some x := ⟨_, List.getElem?_eq_getElem (by omega)⟩
    obtain ⟨yi, hyi⟩ : ∃ y, Y[0]? = some y := ⟨_, List.getElem?_eq_getElem (by omega)⟩
    obtain ⟨yj, hyj⟩ : ∃ y, Y[j - i]? = some y := ⟨_, List.getElem?_eq_getElem (by omega)⟩
    have hXi : X[0]? = some (.fin xi) := by
      have := gX i le_rfl hij
      rw [Nat.sub_self] at this
      rw [this, List.getElem?_map, hxi]; rfl
    have hXj : X[j - i]? = some (.fin xj) := by
      rw [gX j hij le_rfl, List.getElem?_map, hxj]; rfl
    have last : ∀ {L : List (Fl ℝ)} {a : Fl ℝ}, L.length = j + 1 - i → L[j - i]? = some a → Np.idx L (-1) = .ok a := by
      intro L a hL ha
      refine (Np.idx_ok_iff _ _ _).2 (.inr ⟨by norm_num, by rw [hL]; omega, ?_⟩)
      rw [hL, show (-1 + ((j + 1 - i : ℕ) : ℤ)).toNat = j - i by omega]
      exact ha
    refine ⟨i, j, X, Y, xi, xj, yi, yj, ?_, hi, hj, hij, lX, lY, ?_, hxi, hxj, hyi, hyj⟩
    · rw [val_plotDeviation, hi, except_bind_ok, hj, except_bind_ok, hl, except_bind_ok]
      simp only [← hXdef, ← hYdef]
      rw [axPlot_eq (by rw [lX, lY]), except_bind_ok, show Np.idx X 0 = _ from idx_nat hXi, except_bind_ok,
        last lX hXj, except_bind_ok, show Np.idx Y 0 = _ from idx_nat hyi, except_bind_ok, last lY hyj]
      rfl
    · intro n hn hnj x y z hx hy hz
      rw [gX n hn hnj, gY n hn hnj, hdev n y z x hy hz hx, List.getElem?_map, hx]
      exact ⟨rfl, rfl⟩
  refine ⟨⟨fun ⟨l, hl⟩ => ?_, fun ⟨d, hd⟩ => ?_⟩, key⟩
  · obtain ⟨i, j, X, Y, xi, xj, yi, yj, h, -⟩ := key l hl
    exact ⟨_, h⟩
  · rw [val_plotDeviation] at hd
    obtain ⟨i, -, hd⟩ := bind_ok hd
    obtain ⟨j, -, hd⟩ := bind_ok hd
    obtain ⟨l, hl, -⟩ := bind_ok hd
    exact ⟨l, hl⟩

theorem Plots.le_sum (x : ℝ) (T : List ℝ) (h : ∀ t ∈ T, x ≤ t) : (T.length : ℝ) * x ≤ T.sum := by
  induction T with
  | nil => simp
  | cons t T ih =>
    have := ih fun t' ht' => h t' (by simp [ht'])
    have := h t (by simp)
    simp only [List.sum_cons, List.length_cons, Nat.cast_add, Nat.cast_one]
    nlinarith

theorem Plots.sum_eq_iff (x : ℝ) (T : List ℝ) (h : ∀ t ∈ T, x ≤ t) :
    T.sum = T.length * x ↔ ∀ t ∈ T, t = x := by
  induction T with
  | nil => simp
  | cons t T ih =>
    have hT : ∀ t' ∈ T, x ≤ t' := fun t' ht' => h t' (by simp [ht'])
    have ih := ih hT
    have hge := le_sum x T hT
    have ht := h t (by simp)
    simp only [List.sum_cons, List.length_cons, Nat.cast_add, Nat.cast_one, List.forall_mem_cons]
    constructor
    · intro e
      have h1 : t = x := by nlinarith
      exact ⟨h1, ih.1 (by nlinarith)⟩
    · rintro ⟨h1, h2⟩
      rw [ih.2 h2, h1]; ring

/-- the mean of values not below the first one is the first one exactly when they are all equal -/
theorem Plots.mean_eq_first (x : ℝ) (T : List ℝ) (h : ∀ t ∈ T, x ≤ t) :
    (x :: T).sum / (x :: T).length = x ↔ ∀ t ∈ T, t = x := by
  have hpos : (0 : ℝ) < ((x :: T).length : ℝ) := by simp; positivity
  rw [div_eq_iff hpos.ne', ← sum_eq_iff x T h]
  simp only [List.sum_cons, List.length_cons, Nat.cast_add, Nat.cast_one]
  constructor
  · intro e; nlinarith
  · intro e; rw [e]; ring

theorem Plots.val_plotUyDark (r : Res ℝ) : val plotUyDark r = (do
    let first ← Np.idx (r.temporal.texp.map Fl.fin) 0
    let d ← axPlot (r.temporal.texp.map Fl.fin) r.temporal.u_ydark "Data"
    pure ([d], Fl.eqb (Fl.mean (r.temporal.texp.map Fl.fin)) first)) := by
  unfold plotUyDark
  simp (disch := stab) only [val_bind, val_ask, val_lift, except_bind_ok, val_pure]
  rfl

/-- C70: the plot of the mean dark signal shows it over the exposure times.  For ascending exposure times
(the order in which `Data1288` lists them when the exposure is varied) it consists of unconnected points
exactly when there is a single exposure time. -/
theorem C70_dark (r : Res ℝ) (hl : r.temporal.texp.length = r.temporal.u_ydark.length) :
    (r.temporal.texp = [] → val plotUyDark r = .error .indexError) ∧
    (r.temporal.texp ≠ [] → ∃ points, val plotUyDark r =
        .ok ([.line (r.temporal.texp.map .fin) r.temporal.u_ydark "Data"], points) ∧
      (r.temporal.texp.Pairwise (· ≤ ·) →
        (points = true ↔ ∀ t ∈ r.temporal.texp, ∀ t' ∈ r.temporal.texp, t = t'))) := by
  rw [val_plotUyDark]
  constructor
  · intro h
    rw [h]; rfl
  · intro h
    cases ht : r.temporal.texp with
    | nil => exact absurd ht h
    | cons x T =>
      rw [← ht, axPlot_eq (by simp [hl])]
      refine ⟨Fl.eqb (Fl.mean (r.temporal.texp.map Fl.fin)) (.fin x), by rw [ht]; rfl, ?_⟩
      intro hs
      have hne : (x :: T) ≠ [] := by simp
      rw [ht] at hs ⊢
      rw [Fl.mean_fin _ hne, Fl.eqb_fin, decide_eq_true_iff, mean_eq_first x T (List.pairwise_cons.1 hs).1]
      constructor
      · intro e t h t' h'
        have : ∀ u ∈ x :: T, u = x := by simpa using e
        rw [this t h, this t' h']
      · intro e t h
        exact e t (by simp [h]) x (by simp)

/-- C70: for the data of `Data1288` (exposure times and photon counts of the descriptor file) the mean dark
signal is drawn as points exactly when all images were taken with one exposure time. -/
theorem C70_dark_data (px : ℕ) (d : Loader.KindData ℝ (TemporalEntry ℝ)) (hw : Spec.WF2 d) (hn : Spec.NonNegPhotons d)
    (pts : List (ℝ × ℝ × TemporalEntry ℝ)) (hb : Spec.Bright d pts) (r : Res ℝ)
    (ht : Data.getTemporal px d = .ok r.temporal) (hne : r.temporal.texp ≠ []) :
    ∃ points, val plotUyDark r = .ok ([.line (r.temporal.texp.map .fin) r.temporal.u_ydark "Data"], points) ∧
      (points = true ↔ d.length = 1) := by
  have hlen := (C18_lengths px d hw hn r.temporal ht pts hb).2.2.1
  obtain ⟨points, hp, hpts⟩ := (C70_dark r hlen.symm).2 hne
  refine ⟨points, hp, ?_⟩
  have hpd : Spec.Paired d := by
    by_contra hc
    rw [(C17_acceptance px d hw).2 hc] at ht
    cases ht
  obtain ⟨t, ht', -, -, -, h4, h5⟩ := getTemporal_ok px hw hpd
  rw [ht] at ht'
  cases ht'
  have hlt := Data.sortedKeys_lt hw.1
  have hl : (Data.sortedKeys d).length = d.length := by
    rw [Data.sortedKeys_length]; simp [Dict.keys]
  by_cases h1 : d.length = 1
  · obtain ⟨e, v, -, -, he, -⟩ := h5 h1
    have hs : r.temporal.texp.Pairwise (· ≤ ·) := by
      rw [he, List.pairwise_replicate]; exact .inr le_rfl
    rw [hpts hs]
    simp only [h1, iff_true]
    rw [he]
    intro t h t' h'
    rw [List.eq_of_mem_replicate h, List.eq_of_mem_replicate h']
  · obtain ⟨he, -⟩ := h4 h1
    have hs : r.temporal.texp.Pairwise (· ≤ ·) := by
      rw [he]; exact hlt.imp le_of_lt
    rw [hpts hs]
    simp only [h1, iff_false]
    intro hall
    rw [he] at hne hall
    match hk : Data.sortedKeys d, hl with
    | [], _ => exact hne hk
    | [a], h => exact h1 (by simpa using h.symm)
    | a :: b :: l, _ =>
      rw [hk] at hall hlt
      have : a = b := hall a (by simp) b (by simp)
      have : a < b := (List.pairwise_cons.1 hlt).1 b (by simp)
      linarith

/-- C70: the test `np.mean(texp) == texp[0]` recognises a single exposure time only for exposure times in
ascending order: the times 2, 1, 3 are drawn as unconnected points. -/
theorem C70_dark_unordered : ∃ r : Res ℝ, r.temporal.texp = [2, 1, 3] ∧ ∃ d, val plotUyDark r = .ok (d, true) := by
  refine ⟨{ sampleReal with temporal := ⟨[2, 1, 3], [], [], [], [.fin 1, .fin 1, .fin 1], []⟩ }, rfl,
    [.line (([2, 1, 3] : List ℝ).map .fin) [.fin 1, .fin 1, .fin 1] "Data"], ?_⟩
  rw [val_plotUyDark]
  show Except.ok ([Drawn.line (([2, 1, 3] : List ℝ).map .fin) [.fin 1, .fin 1, .fin 1] "Data"], Fl.eqb (Fl.mean (([2, 1, 3] : List ℝ).map Fl.fin)) (.fin 2)) = _
  rw [Fl.mean_fin _ (by simp), Fl.eqb_fin, decide_eq_true (by norm_num)]

/-- a measurement for which the sensitivity and photon transfer plots are drawn -/
example (q : LSQ ℝ) (hq : q.Good) : (∃ d, val (plotSensitivity q) sampleReal = .ok d) ∧
    ∃ d, val (plotPTC q) sampleReal = .ok d := by
  obtain ⟨hK, hR⟩ := sampleReal_KR q hq
  obtain ⟨j, Y, fit, x0, xj, y0, yj, h, -⟩ := (C70_sensitivity q sampleReal rfl rfl).2 _ hR
  obtain ⟨j', s, X', Y', fit', a, b, c, d, e, f, h', -⟩ := (C70_photon_transfer q sampleReal rfl rfl rfl).2 _ hK
  exact ⟨⟨_, h⟩, _, h'⟩

/-- ... and the linearity and deviation plots: range 1..2, slope 1/20 -/
example : (∃ d, val plotLinearity sampleReal = .ok d) ∧ ∃ d, val plotDeviation sampleReal = .ok d := by
  have hi : val indexLinearityMin sampleReal = .ok 1 := by
    refine (((C26_linearity_min sampleReal _ _ rfl rfl rfl 3 sampleReal_sat).1 15 sampleReal_at).1 1).2 ?_
    rw [sampleReal_diff]
    refine ⟨⟨5, rfl, by norm_num⟩, fun j x hj hx => ?_⟩
    match j, hj with
    | 0, _ => cases hx; norm_num
  have hj : val indexLinearityMax sampleReal = .ok 2 := by
    refine (((C26_linearity_max sampleReal _ _ rfl rfl rfl 3 sampleReal_sat).1 15 sampleReal_at).1 2).2 ?_
    rw [sampleReal_diff]
    refine ⟨⟨10, rfl, by norm_num⟩, fun j x hj hx => ?_⟩
    match j, hj with
    | 3, _ => cases hx; norm_num
    | 4, _ => cases hx; norm_num
    | j + 5, _ => simp at hx
  obtain ⟨l, hl, -⟩ := C35_exact sampleReal [10, 15, 20, 25, 27] [10, 10, 10, 10, 10] rfl rfl rfl rfl 1 2 hi hj
    [(100, 5), (200, 10)] (by rw [sampleReal_diff]; rfl) (by simp) ⟨(100, 5), by simp, (200, 10), by simp, by norm_num⟩
    (1 / 20) 0 (by intro p hp; simp at hp; rcases hp with rfl | rfl <;> norm_num)
  obtain ⟨_, _, _, _, _, _, _, _, h, -⟩ := (C70_linearity sampleReal rfl rfl).2 l hl
  exact ⟨⟨_, h⟩, (C70_deviation sampleReal rfl rfl).1.1 ⟨l, hl⟩⟩

end Emva
