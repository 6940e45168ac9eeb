import Verif.Props.C72
import Verif.Props.C37
import Verif.Props.C59
import Verif.Lemmas.Compare

/-!
C73: what the histogram plots draw.
-/
set_option autoImplicit false
set_option linter.unusedSectionVars false
namespace Emva
open Routines Spec Results Plots

/-- What a plot of the histogram of the pixels `P` shows, when the value `v` of a pixel is drawn at `(v - s) / t`: the counts
of the histogram, between the limits `low` and twice the largest count, and over the same abscissas the model: a multiple
of the expected counts of the normal distribution of the drawn values, a single NaN if all pixels are equal. -/
def Spec.ShowsHistogram (P : List ℤ) (s t low : ℝ) (out : List Drawn × Fl ℝ × Fl ℝ) : Prop :=
  ∃ (bins model : List (Fl ℝ)) (n : List ℕ) (top : ℕ),
    out = ([.line bins (n.map fun c : ℕ => .fin (c : ℝ)) "Data", .line bins model "Model"], .fin low, .fin (2 * top : ℝ)) ∧
    IsHistogram P (fun v => (v - s) / t) bins (n.map fun c : ℕ => .fin (c : ℝ)) ∧
    top ∈ n ∧ 0 < top ∧
    (∀ c ∈ n, c ≤ top ∧ (0 < c → low ≤ (c : ℝ) ∧ (c : ℝ) < 2 * top)) ∧
    ((∃ a ∈ P, ∃ b ∈ P, a ≠ b) → ∃ (W : ℕ) (m : ℤ) (ρ : ℝ), 0 < W ∧ IsMin P m ∧ 1 / 2 ≤ ρ ∧ ρ < 1 ∧
      ∀ k < n.length, ∃ x : ℝ, x = ((m + k * W : ℤ) - s) / t ∧ bins[k]? = some (.fin x) ∧
        model[k]? = some (.fin (ρ * Spec.expectedCount P.length (W / t) ((Spec.meanOf P - s) / t) (Spec.stdOf P / t) x))) ∧
    ((∀ a ∈ P, ∀ b ∈ P, a = b) → model = [.nan])

theorem expectedCount_scale (N : ℕ) (W μ σ b s t : ℝ) (ht : 0 < t) (hσ : 0 < σ) :
    Spec.expectedCount N (W / t) ((μ - s) / t) (σ / t) ((b - s) / t) = Spec.expectedCount N W μ σ b := by
  have h2 : 0 < Real.sqrt (2 * Real.pi) := Real.sqrt_pos.2 (by positivity)
  have e : -((b - s) / t - (μ - s) / t) ^ 2 / (2 * (σ / t) ^ 2) = -(b - μ) ^ 2 / (2 * σ ^ 2) := by
    field_simp
    ring
  rw [Spec.expectedCount, Spec.expectedCount, Spec.normalDensity, Spec.normalDensity, e]
  generalize Real.exp _ = E
  field_simp

theorem amax_counts (n : List ℕ) (hn : n ≠ []) : ∃ top ∈ n, (∀ c ∈ n, c ≤ top) ∧
    Np.amax (n.map fun c : ℕ => (.fin (c : ℝ) : Fl ℝ)) = .ok (.fin (top : ℝ)) := by
  cases n with
  | nil => exact absurd rfl hn
  | cons x l =>
    have e : ∀ (l : List ℕ) (x : ℕ), (l.map fun c : ℕ => (.fin (c : ℝ) : Fl ℝ)).foldl Np.fmax (.fin (x : ℝ)) =
        .fin ((l.foldl max x : ℕ) : ℝ) := by
      intro l
      induction l with
      | nil => intro x; rfl
      | cons y l ih =>
        intro x
        rw [List.map_cons, List.foldl_cons, Xml.fmax_fin, ← Nat.cast_max, ih]
        rfl
    have m : ∀ (l : List ℕ) (x : ℕ), l.foldl max x ∈ x :: l ∧ ∀ c ∈ x :: l, c ≤ l.foldl max x := by
      intro l
      induction l with
      | nil => intro x; simp
      | cons y l ih =>
        intro x
        obtain ⟨h1, h2⟩ := ih (max x y)
        rw [List.foldl_cons]
        refine ⟨?_, ?_⟩
        · rcases List.mem_cons.1 h1 with h | h
          · rw [h]
            rcases max_choice x y with h | h <;> rw [h] <;> simp
          · simp [h]
        · intro c hc
          have h0 := h2 (max x y) (by simp)
          rcases List.mem_cons.1 hc with rfl | hc
          · exact (le_max_left _ _).trans h0
          · rcases List.mem_cons.1 hc with rfl | hc
            · exact (le_max_right _ _).trans h0
            · exact h2 c (by simp [hc])
    exact ⟨_, (m l x).1, (m l x).2, by rw [List.map_cons, Np.amax, e]⟩

/-- the part shared by the two plots -/
theorem histLines_core (P : List ℤ) (hP : P ≠ []) (s t low : ℝ) (ht : 0 < t) (hlow : low ≤ 1) :
    ∃ (h : Hist) (model : List (Fl ℝ)) (out : List Drawn × Fl ℝ × Fl ℝ),
      histogram1288 (plainList P) histogramQmax = .ok h ∧ normalModel P histogramQmax = .ok model ∧
      histLines ⟨h.bins.map fun b : ℤ => .fin ((b - s) / t), countsF h.values⟩ model (.fin low) = .ok out ∧
      Spec.ShowsHistogram P s t low out := by
  obtain ⟨m, hm⟩ := exists_isMin hP
  obtain ⟨M, hM⟩ := exists_isMax hP
  obtain ⟨h, W, m', e, hW, hm', h0, h1, hl, hs, hk⟩ := histogram_core P hP
  obtain rfl := isMin_unique hm hm'
  have hn : h.values ≠ [] := List.length_pos_iff.1 h0
  obtain ⟨top, htop, hle, hamax⟩ := amax_counts h.values hn
  have htop0 : 0 < top := by
    by_contra hc
    have : ∀ c ∈ h.values, c = 0 := fun c hc' => by have := hle c hc'; omega
    have := List.sum_eq_zero this
    have := List.length_pos_iff.2 hP
    omega
  obtain ⟨model, hmod, hml, hA, hB⟩ : ∃ model, normalModel P histogramQmax = .ok model ∧ model.length = h.bins.length ∧
      ((∃ a ∈ P, ∃ b ∈ P, a ≠ b) → ∃ (ρ : ℝ), 1 / 2 ≤ ρ ∧ ρ < 1 ∧
      ∀ k < h.values.length, ∃ x : ℝ, x = ((m + k * W : ℤ) - s) / t ∧
        (h.bins.map fun b : ℤ => (.fin ((b - s) / t) : Fl ℝ))[k]? = some (.fin x) ∧
        model[k]? = some (.fin (ρ * Spec.expectedCount P.length (W / t) ((Spec.meanOf P - s) / t) (Spec.stdOf P / t) x))) ∧
      ((∀ a ∈ P, ∀ b ∈ P, a = b) → model = [.nan]) := by
    by_cases hmM : m = M
    · have hc : ∀ v ∈ P, v = m := fun v hv => le_antisymm (hmM ▸ hM.2 v hv) (hm.2 v hv)
      have hb : h.bins.length = 1 := by
        obtain ⟨h', W', Q, e', hW', hQ', -, -, hb', -, -, hlo, -⟩ := C36_histogram P histogramQmax (by decide) m M hm hM
        rw [e] at e'
        cases e'
        rw [hb']
        have : ((Q - 1 : ℕ) : ℤ) * W' ≤ 0 := by omega
        have : (((Q - 1) * W' : ℕ) : ℤ) ≤ 0 := by push_cast; exact this
        have : (Q - 1) * W' = 0 := by omega
        rcases Nat.mul_eq_zero.1 this with h | h <;> omega
      refine ⟨_, C72_constant P histogramQmax (by decide) hP m hc, by simp [hb], ?_, fun _ => rfl⟩
      rintro ⟨a, ha, b, hb, hab⟩
      exact absurd ((hc a ha).trans (hc b hb).symm) hab
    · obtain ⟨h', W', model, ρ, e', hmod, hW', hl1, hl2, hb', hρ, hlo, hhi, h12, hv⟩ :=
        C72_normal_model_partial P histogramQmax (by decide) m M hm hM hmM
      rw [e] at e'
      cases e'
      have hWW : (W' : ℤ) = W := by
        have a := hb' 1 (h12 (by decide)).1
        have b := (hk 1 (by rw [← hl]; exact (h12 (by decide)).1)).1
        rw [a] at b
        have := Option.some.inj b
        push_cast at this
        omega
      obtain rfl : W' = W := by exact_mod_cast hWW
      refine ⟨model, hmod, hl1, fun _ => ⟨ρ, ?_, hhi, fun k hk' => ?_⟩, fun hc => absurd (hc m hm.1 M hM.1) hmM⟩
      · exact (h12 (by decide)).2
      · have hbk := (hk k hk').1
        obtain ⟨v, hv1, -, rfl⟩ := hv k _ hbk
        refine ⟨_, rfl, ?_, ?_⟩
        · rw [List.getElem?_map, hbk]; rfl
        · rw [hv1, expectedCount_scale _ _ _ _ _ _ _ ht (stdOf_pos P hm.1 hM.1 hmM)]
  refine ⟨h, model, _, e, hmod, ?_, h.bins.map fun b : ℤ => .fin ((b - s) / t), model, h.values, top, rfl, ?_, htop, htop0, ?_, ?_, hB⟩
  · unfold histLines
    rw [axPlot_eq (by simp [countsF, hl])]
    simp only [countsF] at *
    rw [axPlot_eq (by simp [hml]), hamax]
    show Except.ok (_, _, Fl.fin (top : ℝ) * Fl.fin 2) = _
    rw [Fl.fin_mul, mul_comm]
  · refine ⟨W, m, h.values, hW, hm, h0, h1, by simp [hl], rfl, hs, fun k hk' => ⟨?_, (hk k hk').2⟩⟩
    rw [List.getElem?_map, (hk k hk').1]; rfl
  · intro c hc
    refine ⟨hle c hc, fun hc0 => ?_⟩
    have h1 : (1 : ℝ) ≤ c := by exact_mod_cast hc0
    have h2 : (c : ℝ) ≤ top := by exact_mod_cast hle c hc
    have h3 : (0 : ℝ) < top := by exact_mod_cast htop0
    exact ⟨hlow.trans h1, by linarith⟩
  · intro hne
    obtain ⟨ρ, r1, r2, r3⟩ := hA hne
    exact ⟨W, m, ρ, hW, hm, r1, r2, r3⟩

theorem img_total_pixels (h w : ℕ) (px : ℕ → ℕ → ℤ) : (Img.mk h w px).total = (pixels h w px).sum := by
  unfold Img.total pixels
  induction h with
  | zero => rfl
  | succ h ih =>
    rw [List.range_succ, List.flatMap_append, List.sum_append, ← ih, Finset.sum_range_succ]
    congr 1
    have e : ∀ w, ((List.range w).map fun j => px h j).sum = ∑ j ∈ Finset.range w, px h j := by
      intro w
      induction w with
      | zero => rfl
      | succ w ih => rw [List.range_succ, List.map_append, List.sum_append, ih, Finset.sum_range_succ]; simp
    simp [e]

/-- C73: the plot of the dark histogram, for every dark sum image with pixels: the deviations from the mean in DN; a bin
with one pixel is drawn on the lower border. -/
theorem C73_dsnu (r : Res ℝ) (hpx : 0 < r.spatial.dark.h * r.spatial.dark.w) (hL : 0 < r.spatial.dark.L) :
    ∃ out, val plotHistDSNU r = .ok out ∧
      Spec.ShowsHistogram (pixels r.spatial.dark.h r.spatial.dark.w r.spatial.dark.sum)
        (Spec.meanOf (pixels r.spatial.dark.h r.spatial.dark.w r.spatial.dark.sum)) r.spatial.dark.L 1 out := by
  have hP : pixels r.spatial.dark.h r.spatial.dark.w r.spatial.dark.sum ≠ [] := by
    rw [← List.length_pos_iff, pixels_length]; exact hpx
  have hLF : (0 : ℝ) < (r.spatial.dark.L : ℝ) := by exact_mod_cast hL
  have hpxF : ((r.spatial.dark.h * r.spatial.dark.w : ℕ) : ℝ) ≠ 0 := by exact_mod_cast hpx.ne'
  obtain ⟨h, model, out, e1, e2, e3, e4⟩ := histLines_core _ hP
    (Spec.meanOf (pixels r.spatial.dark.h r.spatial.dark.w r.spatial.dark.sum)) (r.spatial.dark.L : ℝ) 1 hLF le_rfl
  have sD := stable_sumDark (F := ℝ)
  have sH := stable_histogramDSNU (F := ℝ)
  have hH : val histogramDSNU r = .ok ⟨h.bins.map fun b : ℤ => .fin (((b : ℝ) -
      Spec.meanOf (pixels r.spatial.dark.h r.spatial.dark.w r.spatial.dark.sum)) / (r.spatial.dark.L : ℝ)),
      countsF h.values⟩ := by
    unfold histogramDSNU
    rw [val_bind_ok sD (by stab) (show val sumDark r = .ok
      ⟨r.spatial.dark.h, r.spatial.dark.w, r.spatial.dark.sum⟩ from rfl)]
    rw [val_bind_ok (Stable.lift _) (by stab)
      (show val (lift _) r = .ok _ by rw [val_lift, ravel_none _ rfl]; exact e1)]
    show Except.ok _ = _
    congr 2
    rw [scaleBins, List.map_map]
    refine List.map_congr_left fun b _ => ?_
    simp only [Function.comp, Img.mean, Img.size, if_true]
    rw [Fl.fin_div hLF.ne', Fl.fin_div hpxF, Fl.fin_div hLF.ne', Fl.fin_sub, sub_div, Spec.meanOf, pixels_length,
      img_total_pixels]
  refine ⟨out, ?_, e4⟩
  unfold plotHistDSNU
  rw [val_bind_ok sH (by stab) hH, val_bind_ok sD (by stab) (show val sumDark r = .ok
      ⟨r.spatial.dark.h, r.spatial.dark.w, r.spatial.dark.sum⟩ from rfl),
    val_lift_ok (show _ = Except.ok model by rw [ravel_none _ rfl, data_plain]; exact e2) (by stab), val_lift]
  exact e3

/-- C73: the plot of the bright histogram: the high-pass filtered difference in DN; every bin with a pixel is drawn inside
the limits. -/
theorem C73_prnu (r : Res ℝ) (h w : ℕ) (hb : r.spatial.bright.h = h ∧ r.spatial.bright.w = w)
    (hd : r.spatial.dark.h = h ∧ r.spatial.dark.w = w) (h5 : 5 ≤ h) (w5 : 5 ≤ w)
    (hL : 0 < r.spatial.bright.L) :
    ∃ out, val plotHistPRNU r = .ok out ∧
      Spec.ShowsHistogram (pixels (h - 4) (w - 4)
        (hp5 fun i j => r.spatial.bright.sum i j - r.spatial.dark.sum i j)) 0 (r.spatial.bright.L * 25) (1 / 2) out := by
  have hP : pixels (h - 4) (w - 4)
      (hp5 fun i j => r.spatial.bright.sum i j - r.spatial.dark.sum i j) ≠ [] := by
    rw [← List.length_pos_iff, pixels_length]; exact Nat.mul_pos (by omega) (by omega)
  have hLF : (0 : ℝ) < (r.spatial.bright.L : ℝ) * 25 := by
    have : (0 : ℝ) < (r.spatial.bright.L : ℝ) := by exact_mod_cast hL
    positivity
  obtain ⟨hst, model, out, e1, e2, e3, e4⟩ := histLines_core _ hP 0 ((r.spatial.bright.L : ℝ) * 25) (1 / 2) hLF (by norm_num)
  obtain ⟨d, d1, d2, d3⟩ := highPass5 h w fun i j => r.spatial.bright.sum i j - r.spatial.dark.sum i j
  have sD := stable_sumDiff (F := ℝ)
  have sH := stable_histogramPRNU (F := ℝ)
  have hH : val histogramPRNU r = .ok ⟨hst.bins.map fun b : ℤ => .fin (((b : ℝ) - 0) / ((r.spatial.bright.L : ℝ) * 25)),
      countsF hst.values⟩ := by
    unfold histogramPRNU
    rw [val_bind_ok sD (by stab) (prnu_image r h w hb hd),
      val_bind_ok (Stable.lift _) (by stab) (show val (lift _) r = .ok d by rw [val_lift]; exact d1),
      val_bind_ok (Stable.lift _) (by stab) (show val (lift _) r = .ok _ by rw [val_lift, d3]; exact e1),
      d2]
    show Except.ok _ = _
    congr 2
    rw [scaleBins]
    refine List.map_congr_left fun b _ => ?_
    rw [multF, Fl.fin_mul]
    norm_num
    rw [Fl.fin_div hLF.ne']
  refine ⟨out, ?_, e4⟩
  unfold plotHistPRNU
  rw [val_bind_ok sH (by stab) hH, val_bind_ok sD (by stab) (prnu_image r h w hb hd),
    val_lift_ok d1 (by stab), val_lift_ok (show _ = Except.ok model by rw [d3, data_plain]; exact e2) (by stab), val_lift]
  exact e3

/-- C73: an image smaller than the window has no plot of the bright histogram. -/
theorem C73_prnu_small (r : Res ℝ) (h w : ℕ) (hb : r.spatial.bright.h = h ∧ r.spatial.bright.w = w)
    (hd : r.spatial.dark.h = h ∧ r.spatial.dark.w = w) (hs : h < 5 ∨ w < 5) :
    val plotHistPRNU r = .error .valueError ∧ val plotAccPRNU r = .error .valueError := by
  obtain ⟨h1, h2⟩ := C37_prnu_small r h w hb hd hs
  have sH := stable_histogramPRNU (F := ℝ)
  have sA := stable_histogramPRNUAccumulated (F := ℝ)
  have sD := stable_sumDiff (F := ℝ)
  constructor
  · unfold plotHistPRNU
    rw [val_bind sH (by stab), h1]; rfl
  · unfold plotAccPRNU
    rw [val_bind sA (by stab), h2]; rfl

/-- C73: the accumulated plots draw one line, the accumulated histogram. -/
theorem C73_dsnu_accumulated (r : Res ℝ) (hpx : 0 < r.spatial.dark.h * r.spatial.dark.w)
    (hL : 0 < r.spatial.dark.L) :
    ∃ bins values, val plotAccDSNU r = .ok [.line bins values "Data"] ∧
      IsAccumulated (pixels r.spatial.dark.h r.spatial.dark.w r.spatial.dark.sum) (r.spatial.dark.L : ℝ) bins values := by
  obtain ⟨h, e, hA⟩ := C37_dsnu_accumulated r hpx hL
  have sA := stable_histogramDSNUAccumulated (F := ℝ)
  refine ⟨h.bins, h.values, ?_, hA⟩
  unfold plotAccDSNU
  rw [val_bind_ok sA (by stab) e, val_lift_ok (axPlot_eq ?_) (by stab)]
  · rfl
  · obtain ⟨W, m, -, -, -, -, hl, -⟩ := hA
    exact hl

/-- C73: the same for the bright images -/
theorem C73_prnu_accumulated (r : Res ℝ) (h w : ℕ) (hb : r.spatial.bright.h = h ∧ r.spatial.bright.w = w)
    (hd : r.spatial.dark.h = h ∧ r.spatial.dark.w = w) (h5 : 5 ≤ h) (w5 : 5 ≤ w)
    (hL : 0 < r.spatial.bright.L) :
    ∃ bins values, val plotAccPRNU r = .ok [.line bins values "Data"] ∧
      IsAccumulated (pixels (h - 4) (w - 4) (hp5 fun i j => r.spatial.bright.sum i j - r.spatial.dark.sum i j))
        ((r.spatial.bright.L : ℝ) * 25) bins values := by
  obtain ⟨hst, e, hA⟩ := C37_prnu_accumulated r h w hb hd h5 w5 hL
  have sA := stable_histogramPRNUAccumulated (F := ℝ)
  refine ⟨hst.bins, hst.values, ?_, hA⟩
  unfold plotAccPRNU
  rw [val_bind_ok sA (by stab) e, val_lift_ok (axPlot_eq ?_) (by stab)]
  · rfl
  · obtain ⟨W, m, -, -, -, -, hl, -⟩ := hA
    exact hl

/-! ### cases meeting the hypotheses -/

/-- 5 x 6 images, two per series: a bright image with one brighter pixel in the middle -/
noncomputable def histSample : Res ℝ where
  temporal := ⟨[], [], [], [], [], []⟩
  spatial := ⟨1, 100,
    { h := 5, w := 6, sum := fun i j => 10 + i + j, var_mean := .fin 1, L := 2, M := 5, N := 6, avg_var := .fin 1,
      avg_mean := .fin 5, avg_var_cav := .fin 1, avg_var_rav := .fin 1 },
    { h := 5, w := 6, sum := fun i j => 50 + i + j + (if i = 2 ∧ j = 2 then 5 else 0), var_mean := .fin 1, L := 2, M := 5,
      N := 6, avg_var := .fin 1, avg_mean := .fin 5, avg_var_cav := .fin 1, avg_var_rav := .fin 1 }⟩
  pixel_area := none
  index_u_ysat := none

example : ∃ out, val plotHistDSNU histSample = .ok out ∧ Spec.ShowsHistogram (pixels 5 6 fun i j => 10 + i + j)
    (Spec.meanOf (pixels 5 6 fun i j => 10 + i + j)) (2 : ℕ) 1 out :=
  C73_dsnu histSample (by decide) (by decide)

example : pixels (5 - 4) (6 - 4) (hp5 fun i j => (50 + i + j + (if i = 2 ∧ j = 2 then 5 else 0)) - (10 + i + j)) = [120, -5] := by
  decide +kernel

example : ∃ out, val plotHistPRNU histSample = .ok out ∧ Spec.ShowsHistogram [120, -5] 0 ((2 : ℕ) * 25) (1 / 2) out := by
  have := C73_prnu histSample 5 6 ⟨rfl, rfl⟩ ⟨rfl, rfl⟩ (by norm_num) (by norm_num) (by decide)
  rwa [show pixels (5 - 4) (6 - 4) (hp5 fun i j => histSample.spatial.bright.sum i j - histSample.spatial.dark.sum i j) =
    [120, -5] by decide +kernel] at this

end Emva
