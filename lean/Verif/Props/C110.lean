import Verif.Model.HistAxes
import Verif.Props.C73

/-!
C110: the histograms of several tests in one plot.
-/
set_option autoImplicit false
namespace Emva
open Routines Spec Results Plots

/-- The lines `d` show the histogram of the pixels `P` (the value `v` at `(v - s) / t`), and every bin with a pixel is inside of the
limits `lim` of the axis. -/
def Spec.InsideAxis (P : List ℤ) (s t : ℝ) (lim : ℝ × ℝ) (d : List Drawn) : Prop :=
  ∃ (bins model : List (Fl ℝ)) (n : List ℕ),
    d = [.line bins (n.map fun c : ℕ => .fin (c : ℝ)) "Data", .line bins model "Model"] ∧
    IsHistogram P (fun v => (v - s) / t) bins (n.map fun c : ℕ => .fin (c : ℝ)) ∧
    ∀ c ∈ n, 0 < c → lim.1 ≤ c ∧ (c : ℝ) ≤ lim.2

/-- the histogram is drawn, inside of the limits or not -/
def Spec.HistDrawn (P : List ℤ) (s t : ℝ) (d : List Drawn) : Prop :=
  ∃ (bins model : List (Fl ℝ)) (n : List ℕ),
    d = [.line bins (n.map fun c : ℕ => .fin (c : ℝ)) "Data", .line bins model "Model"] ∧
    IsHistogram P (fun v => (v - s) / t) bins (n.map fun c : ℕ => .fin (c : ℝ))

theorem plotOver_shows (f : M ℝ (List Drawn × Fl ℝ × Fl ℝ)) (P : Res ℝ → List ℤ) (s t : Res ℝ → ℝ) (low : ℝ)
    (ts : List (Res ℝ)) (h : ∀ r ∈ ts, ∃ out, val f r = .ok out ∧ ShowsHistogram (P r) (s r) (t r) low out) (ax : Option (ℝ × ℝ)) :
    ∃ ds ax', plotOver f ts ax = .ok (ds, ax') ∧ List.Forall₂ (fun r d => HistDrawn (P r) (s r) (t r) d) ts ds ∧
      (ts = [] → ax' = ax) ∧
      ∀ r, ts.getLast? = some r → ∃ d top, ds.getLast? = some d ∧ ax' = some (low, top) ∧ InsideAxis (P r) (s r) (t r) (low, top) d := by
  induction ts generalizing ax with
  | nil => exact ⟨[], ax, rfl, .nil, fun _ => rfl, fun r hr => by cases hr⟩
  | cons r l ih =>
    obtain ⟨out, e, bins, model, n, top, rfl, h1, -, -, h2, -⟩ := h r (by simp)
    obtain ⟨ds, ax', e', hf, h0, hl⟩ := ih (fun r hr => h r (by simp [hr])) (some (low, 2 * top))
    refine ⟨_ :: ds, ax', ?_, .cons ⟨bins, model, n, rfl, h1⟩ hf, by simp, ?_⟩
    · unfold plotOver
      rw [show (f r).1 = _ from e]
      simp only [bind, Except.bind, Py.setAxis, e']
      rfl
    · intro r' hr'
      cases l with
      | nil =>
        cases hf
        cases hr'
        exact ⟨_, 2 * top, rfl, h0 rfl, bins, model, n, rfl, h1, fun c hc c0 => ⟨((h2 c hc).2 c0).1, ((h2 c hc).2 c0).2.le⟩⟩
      | cons x l =>
        rw [List.getLast?_cons_cons] at hr'
        obtain ⟨d, top', a, b, c⟩ := hl r' hr'
        refine ⟨d, top', ?_, b, c⟩
        cases hf with
        | cons _ _ => rw [List.getLast?_cons_cons]; exact a

/-- C110, dark histograms of any number of tests in one plot: every histogram is drawn, and the one of the last test is inside of the
limits of the axis.  Missing, and wrong (`C110_hidden`): the histograms of the other tests are inside, too. -/
theorem C110_dsnu_partial (ts : List (Res ℝ)) (hpx : ∀ r ∈ ts, 0 < r.spatial.dark.h * r.spatial.dark.w)
    (hL : ∀ r ∈ ts, 0 < r.spatial.dark.L) :
    ∃ ds ax, plotOver plotHistDSNU ts none = .ok (ds, ax) ∧
      List.Forall₂ (fun r d => HistDrawn (pixels r.spatial.dark.h r.spatial.dark.w r.spatial.dark.sum)
        (meanOf (pixels r.spatial.dark.h r.spatial.dark.w r.spatial.dark.sum)) r.spatial.dark.L d) ts ds ∧
      ∀ r, ts.getLast? = some r → ∃ d top, ds.getLast? = some d ∧ ax = some (1, top) ∧
        InsideAxis (pixels r.spatial.dark.h r.spatial.dark.w r.spatial.dark.sum)
          (meanOf (pixels r.spatial.dark.h r.spatial.dark.w r.spatial.dark.sum)) r.spatial.dark.L (1, top) d := by
  obtain ⟨ds, ax, e, h1, -, h2⟩ := plotOver_shows plotHistDSNU (fun r => pixels r.spatial.dark.h r.spatial.dark.w r.spatial.dark.sum)
    (fun r => meanOf (pixels r.spatial.dark.h r.spatial.dark.w r.spatial.dark.sum)) (fun r => (r.spatial.dark.L : ℝ)) 1 ts
    (fun r hr => C73_dsnu r (hpx r hr) (hL r hr)) none
  exact ⟨ds, ax, e, h1, h2⟩

/-- C110, the same for the bright histograms -/
theorem C110_prnu_partial (h w : ℕ) (h5 : 5 ≤ h) (w5 : 5 ≤ w) (ts : List (Res ℝ))
    (hb : ∀ r ∈ ts, r.spatial.bright.h = h ∧ r.spatial.bright.w = w) (hd : ∀ r ∈ ts, r.spatial.dark.h = h ∧ r.spatial.dark.w = w)
    (hL : ∀ r ∈ ts, 0 < r.spatial.bright.L) :
    ∃ ds ax, plotOver plotHistPRNU ts none = .ok (ds, ax) ∧
      List.Forall₂ (fun r d => HistDrawn (pixels (h - 4) (w - 4) (hp5 fun i j => r.spatial.bright.sum i j - r.spatial.dark.sum i j))
        0 (r.spatial.bright.L * 25) d) ts ds ∧
      ∀ r, ts.getLast? = some r → ∃ d top, ds.getLast? = some d ∧ ax = some (1 / 2, top) ∧
        InsideAxis (pixels (h - 4) (w - 4) (hp5 fun i j => r.spatial.bright.sum i j - r.spatial.dark.sum i j))
          0 (r.spatial.bright.L * 25) (1 / 2, top) d := by
  obtain ⟨ds, ax, e, h1, -, h2⟩ := plotOver_shows plotHistPRNU
    (fun r => pixels (h - 4) (w - 4) (hp5 fun i j => r.spatial.bright.sum i j - r.spatial.dark.sum i j))
    (fun _ => 0) (fun r => (r.spatial.bright.L * 25 : ℝ)) (1 / 2) ts
    (fun r hr => C73_prnu r h w (hb r hr) (hd r hr) h5 w5 (hL r hr)) none
  exact ⟨ds, ax, e, h1, h2⟩

/-- the heights of the bins as drawn: the first line -/
def Spec.heights : List Drawn → List (Fl ℝ)
  | .line _ y _ :: _ => y
  | _ => []

/-- every bin with a pixel is drawn inside of the limits -/
def Spec.AllInside (lim : ℝ × ℝ) (d : List Drawn) : Prop :=
  ∀ y : ℝ, .fin y ∈ heights d → 0 < y → lim.1 ≤ y ∧ y ≤ lim.2

/-- the tallest bin of `d` is at most twice as tall as the one of `last` -/
def Spec.AtMostTwice (d last : List Drawn) : Prop :=
  ∀ y : ℝ, .fin y ∈ heights d → ∃ y' : ℝ, .fin y' ∈ heights last ∧ y ≤ 2 * y'

theorem mem_counts {n : List ℕ} {y : ℝ} (h : (Fl.fin y : Fl ℝ) ∈ n.map fun c : ℕ => (Fl.fin (c : ℝ) : Fl ℝ)) :
    ∃ c ∈ n, y = (c : ℝ) := by
  obtain ⟨c, hc, e⟩ := List.mem_map.1 h
  exact ⟨c, hc, by injection e with e; exact e.symm⟩

/-- which histograms are inside: exactly those whose tallest bin has at most twice the pixels of the tallest bin of the last test -/
theorem plotOver_inside (f : M ℝ (List Drawn × Fl ℝ × Fl ℝ)) (P : Res ℝ → List ℤ) (s t : Res ℝ → ℝ) (low : ℝ) (hlow : low ≤ 1)
    (ts : List (Res ℝ)) (h : ∀ r ∈ ts, ∃ out, val f r = .ok out ∧ ShowsHistogram (P r) (s r) (t r) low out) (ax : Option (ℝ × ℝ))
    (h0 : ts ≠ []) :
    ∃ ds last lim, plotOver f ts ax = .ok (ds, some lim) ∧ ds.length = ts.length ∧ ds.getLast? = some last ∧
      ∀ d ∈ ds, AllInside lim d ↔ AtMostTwice d last := by
  have key : ∀ (ts : List (Res ℝ)) (ax : Option (ℝ × ℝ)), ts ≠ [] →
      (∀ r ∈ ts, ∃ out, val f r = .ok out ∧ ShowsHistogram (P r) (s r) (t r) low out) →
      ∃ (ds : List (List Drawn)) (last : List Drawn) (top : ℕ), plotOver f ts ax = .ok (ds, some (low, 2 * (top : ℝ))) ∧
        ds.length = ts.length ∧ ds.getLast? = some last ∧
        (∀ d ∈ ds, ∀ y : ℝ, .fin y ∈ heights d → ∃ c : ℕ, y = (c : ℝ)) ∧
        .fin (top : ℝ) ∈ heights last ∧ ∀ y : ℝ, .fin y ∈ heights last → y ≤ top := by
    intro ts
    induction ts with
    | nil => exact fun _ h => absurd rfl h
    | cons r l ih =>
      intro ax _ h
      obtain ⟨out, e, bins, model, n, top, rfl, -, htop, -, h2, -⟩ := h r (by simp)
      have cnt : ∀ y : ℝ, .fin y ∈ heights [.line bins (n.map fun c : ℕ => .fin (c : ℝ)) "Data", .line bins model "Model"] →
          ∃ c ∈ n, y = (c : ℝ) := fun y hy => mem_counts hy
      by_cases hl : l = []
      · subst hl
        refine ⟨[[.line bins (n.map fun c : ℕ => .fin (c : ℝ)) "Data", .line bins model "Model"]], _, top, ?_, rfl, rfl, ?_,
          List.mem_map.2 ⟨top, htop, rfl⟩, ?_⟩
        · unfold plotOver
          rw [show (f r).1 = _ from e]
          simp only [bind, Except.bind, Py.setAxis, plotOver]
          rfl
        · intro d hd y hy
          obtain rfl := List.mem_singleton.1 hd
          obtain ⟨c, -, hc⟩ := cnt y hy
          exact ⟨c, hc⟩
        · intro y hy
          obtain ⟨c, hc, rfl⟩ := cnt y hy
          exact_mod_cast (h2 c hc).1
      · obtain ⟨ds, last, top', e', hlen, hlast, hn, ht, hm⟩ := ih (some (low, 2 * top)) hl fun r hr => h r (by simp [hr])
        refine ⟨[.line bins (n.map fun c : ℕ => .fin (c : ℝ)) "Data", .line bins model "Model"] :: ds, last, top', ?_, by simp [hlen],
          ?_, ?_, ht, hm⟩
        · unfold plotOver
          rw [show (f r).1 = _ from e]
          simp only [bind, Except.bind, Py.setAxis, e']
          rfl
        · cases ds with
          | nil => cases hlast
          | cons _ _ => rw [List.getLast?_cons_cons]; exact hlast
        · intro d hd y hy
          rcases List.mem_cons.1 hd with rfl | hd
          · obtain ⟨c, -, hc⟩ := cnt y hy
            exact ⟨c, hc⟩
          · exact hn d hd y hy
  obtain ⟨ds, last, top, e, hlen, hlast, hn, ht, hm⟩ := key ts ax h0 h
  refine ⟨ds, last, _, e, hlen, hlast, fun d hd => ⟨fun hi y hy => ⟨top, ht, ?_⟩, fun ha y hy y0 => ⟨?_, ?_⟩⟩⟩
  · rcases le_or_gt y 0 with h | h
    · exact h.trans (by positivity)
    · exact (hi y hy h).2
  · obtain ⟨c, rfl⟩ := hn d hd y hy
    have : (1 : ℝ) ≤ c := by exact_mod_cast y0
    exact hlow.trans this
  · obtain ⟨y', hy', hle⟩ := ha y hy
    have := hm y' hy'
    show y ≤ 2 * (top : ℝ)
    linarith

/-- C110: exactly which dark histograms are inside of the limits -/
theorem C110_dsnu_inside (ts : List (Res ℝ)) (h0 : ts ≠ []) (hpx : ∀ r ∈ ts, 0 < r.spatial.dark.h * r.spatial.dark.w)
    (hL : ∀ r ∈ ts, 0 < r.spatial.dark.L) :
    ∃ ds last lim, plotOver plotHistDSNU ts none = .ok (ds, some lim) ∧ ds.length = ts.length ∧ ds.getLast? = some last ∧
      ∀ d ∈ ds, AllInside lim d ↔ AtMostTwice d last :=
  plotOver_inside plotHistDSNU _ _ _ 1 le_rfl ts (fun r hr => C73_dsnu r (hpx r hr) (hL r hr)) none h0

/-- C110: exactly which bright histograms are inside of the limits -/
theorem C110_prnu_inside (h w : ℕ) (h5 : 5 ≤ h) (w5 : 5 ≤ w) (ts : List (Res ℝ)) (h0 : ts ≠ [])
    (hb : ∀ r ∈ ts, r.spatial.bright.h = h ∧ r.spatial.bright.w = w) (hd : ∀ r ∈ ts, r.spatial.dark.h = h ∧ r.spatial.dark.w = w)
    (hL : ∀ r ∈ ts, 0 < r.spatial.bright.L) :
    ∃ ds last lim, plotOver plotHistPRNU ts none = .ok (ds, some lim) ∧ ds.length = ts.length ∧ ds.getLast? = some last ∧
      ∀ d ∈ ds, AllInside lim d ↔ AtMostTwice d last :=
  plotOver_inside plotHistPRNU _ _ _ (1 / 2) (by norm_num) ts (fun r hr => C73_prnu r h w (hb r hr) (hd r hr) h5 w5 (hL r hr)) none h0

/-- C110 does not hold for all tests: after a camera without nonuniformity, a camera with fewer than half the pixels moves the limit of
the axis below the only point of the first one. -/
theorem C110_hidden (r r' : Res ℝ) (hpx : 0 < r.spatial.dark.h * r.spatial.dark.w) (hL : 0 < r.spatial.dark.L)
    (hpx' : 0 < r'.spatial.dark.h * r'.spatial.dark.w) (hL' : 0 < r'.spatial.dark.L)
    (flat : ∀ i j i' j', r.spatial.dark.sum i j = r.spatial.dark.sum i' j')
    (small : 2 * (r'.spatial.dark.h * r'.spatial.dark.w) < r.spatial.dark.h * r.spatial.dark.w) :
    ∃ d d' lim, plotOver plotHistDSNU [r, r'] none = .ok ([d, d'], some lim) ∧
      HistDrawn (pixels r.spatial.dark.h r.spatial.dark.w r.spatial.dark.sum)
        (meanOf (pixels r.spatial.dark.h r.spatial.dark.w r.spatial.dark.sum)) r.spatial.dark.L d ∧
      ¬ InsideAxis (pixels r.spatial.dark.h r.spatial.dark.w r.spatial.dark.sum)
        (meanOf (pixels r.spatial.dark.h r.spatial.dark.w r.spatial.dark.sum)) r.spatial.dark.L lim d := by
  obtain ⟨out, e, bins, model, n, top, rfl, h1, -⟩ := C73_dsnu r hpx hL
  obtain ⟨out', e', bins', model', n', top', rfl, h1', ht', -⟩ := C73_dsnu r' hpx' hL'
  refine ⟨[.line bins (n.map fun c : ℕ => .fin (c : ℝ)) "Data", .line bins model "Model"],
    [.line bins' (n'.map fun c : ℕ => .fin (c : ℝ)) "Data", .line bins' model' "Model"], (1, 2 * top'), ?_, ⟨bins, model, n, rfl, h1⟩, ?_⟩
  rotate_left
  · rintro ⟨b, mo, c, -, ⟨W, m, k, hW, hm, hk, -, -, hv, -, hc⟩, hvis⟩
    have all : ∀ v ∈ pixels r.spatial.dark.h r.spatial.dark.w r.spatial.dark.sum, v = m := by
      intro v hv
      have hmem := hm.1
      simp only [pixels, List.mem_flatMap, List.mem_map] at hv hmem
      obtain ⟨i, -, j, -, rfl⟩ := hv
      obtain ⟨i', -, j', -, rfl⟩ := hmem
      exact flat _ _ _ _
    have h0 := (hc 0 hk).2
    have cnt : (pixels r.spatial.dark.h r.spatial.dark.w r.spatial.dark.sum).countP
        (fun v => decide (m + (0 : ℕ) * W ≤ v ∧ v < m + ((0 : ℕ) + 1) * W)) = r.spatial.dark.h * r.spatial.dark.w := by
      rw [List.countP_eq_length.2, pixels_length]
      intro v hv
      rw [all v hv]
      simp; omega
    rw [cnt] at h0
    have hmem : (Fl.fin ((r.spatial.dark.h * r.spatial.dark.w : ℕ) : ℝ)) ∈ c.map fun c : ℕ => (Fl.fin (c : ℝ)) := by
      rw [hv]
      exact List.mem_map.2 ⟨_, List.mem_of_getElem? h0, rfl⟩
    obtain ⟨a, ha, hae⟩ := List.mem_map.1 hmem
    have hae : (a : ℝ) = ((r.spatial.dark.h * r.spatial.dark.w : ℕ) : ℝ) := by injection hae
    have hae : a = r.spatial.dark.h * r.spatial.dark.w := by exact_mod_cast hae
    have up : (a : ℝ) ≤ 2 * top' := (hvis a ha (by rw [hae]; exact hpx)).2
    have up : a ≤ 2 * top' := by exact_mod_cast up
    obtain ⟨W', m', k', -, -, -, -, -, hv', hs', -⟩ := h1'
    have : n' = k' := by
      have inj : Function.Injective fun c : ℕ => (Fl.fin (c : ℝ)) := fun x y h => by
        have h : (x : ℝ) = y := by injection h
        exact_mod_cast h
      exact List.map_injective_iff.2 inj hv'
    subst this
    have := List.le_sum_of_mem ht'
    rw [hs', pixels_length] at this
    omega
  · unfold plotOver
    rw [show (plotHistDSNU r).1 = _ from e]
    unfold plotOver
    rw [show (plotHistDSNU r').1 = _ from e']
    simp only [bind, Except.bind, Py.setAxis, plotOver]
    rfl

/-- dark images of one value with `n` pixels -/
noncomputable def evenDark (n : ℕ) : Res ℝ where
  temporal := ⟨[], [], [], [], [], []⟩
  spatial := ⟨1, 100,
    { h := 1, w := n, sum := fun _ _ => 20, var_mean := .fin 1, L := 2, M := 1, N := n, avg_var := .fin 1,
      avg_mean := .fin 5, avg_var_cav := .fin 1, avg_var_rav := .fin 1 },
    { h := 1, w := n, sum := fun _ _ => 60, var_mean := .fin 1, L := 2, M := 1, N := n, avg_var := .fin 1,
      avg_mean := .fin 5, avg_var_cav := .fin 1, avg_var_rav := .fin 1 }⟩
  pixel_area := none
  index_u_ysat := none

/-- the hypotheses of `C110_hidden` -/
example := C110_hidden (evenDark 3) (evenDark 1) (by decide) (by decide) (by decide) (by decide) (fun _ _ _ _ => rfl) (by decide)

/-- the hypotheses of `C110_dsnu_partial` and `C110_prnu_partial` -/
example := C110_dsnu_partial [evenDark 3, histSample, evenDark 1] (by simp [evenDark, histSample]) (by simp [evenDark, histSample])
example := C110_prnu_partial 5 6 le_rfl (by norm_num) [histSample, histSample] (by simp [histSample]) (by simp [histSample]) (by simp [histSample])

/-- the hypotheses of `C110_dsnu_inside` and `C110_prnu_inside` -/
example := C110_dsnu_inside [evenDark 3, histSample, evenDark 1] (by simp) (by simp [evenDark, histSample]) (by simp [evenDark, histSample])
example := C110_prnu_inside 5 6 le_rfl (by norm_num) [histSample, histSample] (by simp) (by simp [histSample]) (by simp [histSample]) (by simp [histSample])

end Emva
