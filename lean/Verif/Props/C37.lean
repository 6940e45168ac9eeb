import Verif.Props.C36
import Verif.Props.C38_C39
import Verif.Props.C29_C32
import Verif.Lemmas.ResultsHist

/-!
C37: the DSNU and PRNU histograms of `Results1288`.
-/
set_option autoImplicit false
set_option linter.unusedSectionVars false
namespace Emva
open Spec Data Results Routines
variable {F : Type} [Field F] [LinearOrder F] [IsStrictOrderedRing F]

namespace Spec

/-- the pixels of an image, row by row -/
def pixels (h w : ℕ) (px : ℕ → ℕ → ℤ) : List ℤ :=
  (List.range h).flatMap fun i => (List.range w).map fun j => px i j

/-- absolute deviations from the truncated mean -/
def deviations (P : List ℤ) : List ℤ := P.map fun p => |p - P.sum.tdiv P.length|

/-- The accumulated histogram of the pixels `P` of an image scaled up by `scale`: bins of one width `W`
from the smallest absolute deviation, each value the percentage of pixels whose deviation is at least
the lower edge of the bin, starting with 100 and not increasing. -/
def IsAccumulated (P : List ℤ) (scale : F) (bins values : List (Fl F)) : Prop :=
  ∃ (W : ℕ) (m : ℤ), 0 < W ∧ IsMin (deviations P) m ∧ 0 < values.length ∧ values.length ≤ 256 ∧
    bins.length = values.length ∧ values[0]? = some (.fin 100) ∧
    (∀ k < values.length,
      bins[k]? = some (.fin (((m + k * W : ℤ) : F) / scale)) ∧
      values[k]? = some (.fin (100 * (((deviations P).countP fun d => decide (m + k * W ≤ d) : ℕ) : F) /
        (P.length : F)))) ∧
    (∀ k k', k ≤ k' → k' < values.length → ∃ v v' : F, values[k]? = some (.fin v) ∧
      values[k']? = some (.fin v') ∧ v' ≤ v)

/-- The plain histogram of the pixels `P` with the edges mapped by `edge`: bins of one width `W` from
the smallest pixel, each pixel counted in exactly one bin. -/
def IsHistogram (P : List ℤ) (edge : F → F) (bins values : List (Fl F)) : Prop :=
  ∃ (W : ℕ) (m : ℤ) (n : List ℕ), 0 < W ∧ IsMin P m ∧ 0 < n.length ∧ n.length ≤ 256 ∧
    bins.length = n.length ∧ values = n.map (fun c => .fin (c : F)) ∧ n.sum = P.length ∧
    ∀ k < n.length, bins[k]? = some (.fin (edge ((m + k * W : ℤ) : F))) ∧
      n[k]? = some (P.countP fun v => decide (m + k * W ≤ v ∧ v < m + (k + 1) * W))

end Spec

theorem ravel_none (a : MImg) (h : a.mask = none) : a.ravel = plainList (pixels a.h a.w a.px) := by
  simp only [MImg.ravel, pixels, plainList, List.map_flatMap, List.map_map, MImg.masked, h]
  rfl

theorem pixels_length (h w : ℕ) (px : ℕ → ℕ → ℤ) : (pixels h w px).length = h * w := by
  simp [pixels, List.length_flatMap]

theorem absDev_plain (P : List ℤ) (hP : P ≠ []) :
    absDev (plainList P) = .ok (plainList (deviations P)) := by
  simp only [absDev, data_plain, truncMean]
  rw [if_neg hP]
  simp [except_bind_ok, plainList, deviations, pure, Except.pure]

theorem accumulated_core (P : List ℤ) (hP : P ≠ []) (scale : F) (hs : scale ≠ 0) :
    ∃ h : Hist, histogram1288 (plainList (deviations P)) histogramQmax = .ok h ∧
      IsAccumulated P scale (scaleBins h.bins (.fin scale))
        (percent (accumulate h.values) (plainList (deviations P)).length) := by
  have hD : deviations P ≠ [] := by simpa [deviations] using hP
  obtain ⟨m, hm⟩ := exists_isMin hD
  obtain ⟨M, hM⟩ := exists_isMax hD
  obtain ⟨h, W, Q, e, hW, hQ, hQ', -, hb, hv, hbk, -, -, hlt, -, href, hsum⟩ :=
    C36_histogram (deviations P) histogramQmax (by decide) m M hm hM
  have hlenD : (plainList (deviations P)).length = P.length := by simp [plainList, deviations]
  have hn : (P.length : F) ≠ 0 := by
    have := List.length_pos_iff.2 hP
    exact_mod_cast this.ne'
  have hvals : h.values = (List.range Q).map fun k : ℕ =>
      (deviations P).countP fun v => decide (((v - m) / (W : ℤ)).toNat = k) := by
    rw [href]
    apply List.ext_getElem?
    intro k
    rw [referenceLoop, getElem?_foldl_modify, List.getElem?_map]
    by_cases hk : k < Q
    · rw [List.getElem?_range hk, List.getElem?_replicate, if_pos hk]; simp
    · rw [List.getElem?_eq_none (l := List.replicate Q 0) (by simpa using hk), List.getElem?_eq_none (l := List.range Q) (by simpa using hk)]; rfl
  have hacc : ∀ k < Q, (accumulate h.values)[k]?
      = some ((deviations P).countP fun d => decide (m + k * W ≤ d)) := by
    intro k hk
    rw [accumulate_getElem? _ _ (by rw [hv]; exact hk), hvals, drop_sum_countP _ _ _ _ hlt]
    congr 1
    refine List.countP_congr fun v hv => ?_
    simp only [decide_eq_true_eq]
    have hW' : (0 : ℤ) < W := by exact_mod_cast hW
    have h0 : 0 ≤ (v - m) / (W : ℤ) := Int.ediv_nonneg (by have := hm.2 v hv; omega) hW'.le
    have := Int.le_ediv_iff_mul_le (a := (k : ℤ)) (b := v - m) hW'
    constructor
    · intro hk
      have := this.1 (by omega)
      omega
    · intro hk
      have := this.2 (by omega)
      omega
  have hper : ∀ k < Q, (percent (F := F) (accumulate h.values) (plainList (deviations P)).length)[k]?
      = some (.fin (100 * (((deviations P).countP fun d => decide (m + k * W ≤ d) : ℕ) : F) /
        (P.length : F))) := by
    intro k hk
    rw [percent, List.getElem?_map, hacc k hk, Option.map_some, hlenD, Fl.fin_div hn]
  have hlen : (percent (F := F) (accumulate h.values) (plainList (deviations P)).length).length = Q := by
    rw [percent, List.length_map, accumulate_length, hv]
  refine ⟨h, e, W, m, hW, hm, by rw [hlen]; exact hQ, by rw [hlen]; exact hQ',
    by rw [hlen]; simp [scaleBins, hb], ?_, ?_, ?_⟩
  · rw [hper 0 hQ]
    have : ((deviations P).countP fun d => decide (m + (0 : ℕ) * W ≤ d)) = P.length := by
      rw [← show (deviations P).length = P.length by simp [deviations], List.countP_eq_length]
      intro v hv
      simpa using hm.2 v hv
    rw [this]
    congr 2
    field_simp
  · rw [hlen]
    intro k hk
    refine ⟨?_, hper k hk⟩
    rw [scaleBins, List.getElem?_map, hbk k hk, Option.map_some, Fl.fin_div hs]
  · rw [hlen]
    intro k k' hkk hk'
    refine ⟨_, _, hper k (by omega), hper k' hk', ?_⟩
    have hle : ((deviations P).countP fun d => decide (m + k' * W ≤ d))
        ≤ (deviations P).countP fun d => decide (m + k * W ≤ d) := by
      refine List.countP_mono_left fun d _ hd => ?_
      simp only [decide_eq_true_eq] at hd ⊢
      have : (k : ℤ) * W ≤ k' * W := by
        exact mul_le_mul_of_nonneg_right (by exact_mod_cast hkk) (by omega)
      omega
    have hn' : (0 : F) < P.length := by
      have := List.length_pos_iff.2 hP
      exact_mod_cast this
    rw [div_le_div_iff_of_pos_right hn']
    have : (((deviations P).countP fun d => decide (m + k' * W ≤ d) : ℕ) : F)
        ≤ ((deviations P).countP fun d => decide (m + k * W ≤ d) : ℕ) := by exact_mod_cast hle
    linarith

theorem histogram_core (P : List ℤ) (hP : P ≠ []) :
    ∃ (h : Hist) (W : ℕ) (m : ℤ), histogram1288 (plainList P) histogramQmax = .ok h ∧
      0 < W ∧ IsMin P m ∧ 0 < h.values.length ∧ h.values.length ≤ 256 ∧
      h.bins.length = h.values.length ∧ h.values.sum = P.length ∧
      ∀ k < h.values.length, h.bins[k]? = some (m + k * W) ∧
        h.values[k]? = some (P.countP fun v => decide (m + k * W ≤ v ∧ v < m + (k + 1) * W)) := by
  obtain ⟨m, hm⟩ := exists_isMin hP
  obtain ⟨M, hM⟩ := exists_isMax hP
  obtain ⟨h, W, Q, e, hW, hQ, hQ', -, hb, hv, hbk, -, -, hlt, hvk, -, hsum⟩ :=
    C36_histogram P histogramQmax (by decide) m M hm hM
  refine ⟨h, W, m, e, hW, hm, by omega, by rw [hv]; exact hQ', by omega, hsum, fun k hk => ?_⟩
  rw [hv] at hk
  refine ⟨hbk k hk, ?_⟩
  rw [hvk k hk]
  congr 1
  refine List.countP_congr fun v hv => ?_
  simp only [decide_eq_true_eq]
  rw [bin_iff m v W k hW (hm.2 v hv)]
  have : 0 ≤ (v - m) / (W : ℤ) := Int.ediv_nonneg (by have := hm.2 v hv; omega) (by omega)
  omega

/-- C37: the accumulated DSNU histogram, for every dark sum image with pixels. -/
theorem C37_dsnu_accumulated (r : Res F) (hpx : 0 < r.spatial.dark.h * r.spatial.dark.w)
    (hL : 0 < r.spatial.dark.L) :
    ∃ h, val histogramDSNUAccumulated r = .ok h ∧
      IsAccumulated (pixels r.spatial.dark.h r.spatial.dark.w r.spatial.dark.sum)
        (r.spatial.dark.L : F) h.bins h.values := by
  have hP : pixels r.spatial.dark.h r.spatial.dark.w r.spatial.dark.sum ≠ [] := by
    rw [← List.length_pos_iff, pixels_length]; exact hpx
  have hLF : (r.spatial.dark.L : F) ≠ 0 := by exact_mod_cast hL.ne'
  obtain ⟨h, e, hacc⟩ := accumulated_core (F := F) _ hP _ hLF
  have sD := stable_sumDark (F := F)
  refine ⟨⟨_, _⟩, ?_, hacc⟩
  unfold histogramDSNUAccumulated
  rw [val_bind_ok sD (by stab) (show val sumDark r = .ok
    ⟨r.spatial.dark.h, r.spatial.dark.w, r.spatial.dark.sum⟩ from rfl)]
  rw [val_bind_ok (Stable.lift _) (by stab)
    (show val (lift _) r = .ok _ by rw [val_lift, ravel_none _ rfl]; exact absDev_plain _ hP),
    val_bind_ok (Stable.lift _) (by stab) (show val (lift _) r = .ok _ by rw [val_lift]; exact e)]
  rfl

/-- the image the PRNU histograms are made of -/
theorem prnu_image (r : Res F) (h w : ℕ) (hb : r.spatial.bright.h = h ∧ r.spatial.bright.w = w)
    (hd : r.spatial.dark.h = h ∧ r.spatial.dark.w = w) :
    val sumDiff r = .ok ⟨h, w, fun i j => r.spatial.bright.sum i j - r.spatial.dark.sum i j⟩ := by
  have s1 := stable_spat (F := F) true
  unfold sumDiff
  rw [val_bind_ok (stable_spat false) (by stab) (show val (spat false) r = .ok r.spatial.bright from rfl),
    val_bind_ok (stable_spat true) (by stab) (show val (spat true) r = .ok r.spatial.dark from rfl)]
  rw [if_pos ⟨by rw [hb.1, hd.1], by rw [hb.2, hd.2]⟩, val_pure, hb.1, hb.2]

/-- the high-pass values of an image, window 5 x 5, scaled by 25 -/
def Spec.hp5 (px : ℕ → ℕ → ℤ) (i j : ℕ) : ℤ := 25 * px (i + 2) (j + 2) - winSum 5 px i j

theorem pixels_congr (h w : ℕ) (f g : ℕ → ℕ → ℤ) (e : ∀ i < h, ∀ j < w, f i j = g i j) :
    pixels h w f = pixels h w g := by
  unfold pixels
  refine List.flatMap_congr fun i hi => List.map_congr_left fun j hj => ?_
  exact e i (List.mem_range.1 hi) j (List.mem_range.1 hj)

theorem highPass5 (h w : ℕ) (px : ℕ → ℕ → ℤ) :
    ∃ d : Filtered, highPass (.plain ⟨h, w, px⟩) 5 = .ok d ∧ d.multiplicator = some 25 ∧
      d.img.ravel = plainList (pixels (h - 4) (w - 4) (hp5 px)) := by
  obtain ⟨d, m, e, hm, hm', hmask, hh, hw, hpx⟩ := C38_mean_removed ℚ ⟨h, w, px⟩ 5 2 (by omega) rfl
  norm_num at hm'
  subst hm'
  refine ⟨d, e, hm, ?_⟩
  rw [ravel_none _ hmask]
  have h1 : d.img.h = h - 4 := by rw [hh]; simp only; omega
  have h2 : d.img.w = w - 4 := by rw [hw]; simp only; omega
  rw [pixels_congr d.img.h d.img.w d.img.px (hp5 px) fun i hi j hj => (hpx i hi j hj).2.2.1, h1, h2]

/-- C37: the accumulated PRNU histogram: the same, for the high-pass filtered difference image (5 x 5
window; the first and last two rows and columns are dropped) scaled up by 25 and the number of
images. -/
theorem C37_prnu_accumulated (r : Res F) (h w : ℕ) (hb : r.spatial.bright.h = h ∧ r.spatial.bright.w = w)
    (hd : r.spatial.dark.h = h ∧ r.spatial.dark.w = w) (h5 : 5 ≤ h) (w5 : 5 ≤ w)
    (hL : 0 < r.spatial.bright.L) :
    ∃ hst, val histogramPRNUAccumulated r = .ok hst ∧
      IsAccumulated (pixels (h - 4) (w - 4)
        (hp5 fun i j => r.spatial.bright.sum i j - r.spatial.dark.sum i j))
        ((r.spatial.bright.L : F) * 25) hst.bins hst.values := by
  have hP : pixels (h - 4) (w - 4)
      (hp5 fun i j => r.spatial.bright.sum i j - r.spatial.dark.sum i j) ≠ [] := by
    rw [← List.length_pos_iff, pixels_length]; exact Nat.mul_pos (by omega) (by omega)
  have hLF : (r.spatial.bright.L : F) * 25 ≠ 0 := by
    have : (r.spatial.bright.L : F) ≠ 0 := by exact_mod_cast hL.ne'
    positivity
  obtain ⟨hst, e, hacc⟩ := accumulated_core (F := F) _ hP _ hLF
  obtain ⟨d, e1, e2, e3⟩ := highPass5 h w fun i j => r.spatial.bright.sum i j - r.spatial.dark.sum i j
  have sD := stable_sumDiff (F := F)
  refine ⟨⟨_, _⟩, ?_, hacc⟩
  unfold histogramPRNUAccumulated
  rw [val_bind_ok sD (by stab) (prnu_image r h w hb hd),
    val_bind_ok (Stable.lift _) (by stab) (show val (lift _) r = .ok d by rw [val_lift]; exact e1),
    val_bind_ok (Stable.lift _) (by stab)
      (show val (lift _) r = .ok _ by rw [val_lift, e3]; exact absDev_plain _ hP),
    val_bind_ok (Stable.lift _) (by stab) (show val (lift _) r = .ok _ by rw [val_lift]; exact e),
    e2]
  simp only [multF, Fl.fin_mul]
  norm_num
  rfl

/-- C37: the DSNU histogram: bin edges relative to the mean dark value, in DN. -/
theorem C37_dsnu (r : Res F) (hpx : 0 < r.spatial.dark.h * r.spatial.dark.w)
    (hL : 0 < r.spatial.dark.L) :
    ∃ h, val histogramDSNU r = .ok h ∧
      IsHistogram (pixels r.spatial.dark.h r.spatial.dark.w r.spatial.dark.sum)
        (fun x => (x - ((Img.mk r.spatial.dark.h r.spatial.dark.w r.spatial.dark.sum).total : F)
          / ((r.spatial.dark.h * r.spatial.dark.w : ℕ) : F)) / (r.spatial.dark.L : F)) h.bins h.values := by
  have hP : pixels r.spatial.dark.h r.spatial.dark.w r.spatial.dark.sum ≠ [] := by
    rw [← List.length_pos_iff, pixels_length]; exact hpx
  have hLF : (r.spatial.dark.L : F) ≠ 0 := by exact_mod_cast hL.ne'
  have hpxF : ((r.spatial.dark.h * r.spatial.dark.w : ℕ) : F) ≠ 0 := by exact_mod_cast hpx.ne'
  obtain ⟨h, W, m, e, hW, hm, h0, h1, hl, hs, hk⟩ := histogram_core _ hP
  have sD := stable_sumDark (F := F)
  refine ⟨⟨(scaleBins h.bins (.fin (r.spatial.dark.L : F))).map fun b => b -
      (Img.mk r.spatial.dark.h r.spatial.dark.w r.spatial.dark.sum).mean F / .fin (r.spatial.dark.L : F),
    countsF h.values⟩, ?_, W, m, h.values, hW, hm, h0, h1, ?_, by simp only [countsF], hs, ?_⟩
  · unfold histogramDSNU
    rw [val_bind_ok sD (by stab) (show val sumDark r = .ok
      ⟨r.spatial.dark.h, r.spatial.dark.w, r.spatial.dark.sum⟩ from rfl)]
    rw [val_bind_ok (Stable.lift _) (by stab)
      (show val (lift _) r = .ok _ by rw [val_lift, ravel_none _ rfl]; exact e)]
    rfl
  · simp [scaleBins, hl]
  · intro k hk'
    obtain ⟨b, c⟩ := hk k hk'
    refine ⟨?_, c⟩
    simp only [scaleBins, List.getElem?_map, b, Option.map_some, Img.mean, Img.size]
    rw [Fl.fin_div hLF, Fl.fin_div hpxF, Fl.fin_div hLF, Fl.fin_sub, sub_div]

/-- C37: the PRNU histogram. -/
theorem C37_prnu (r : Res F) (h w : ℕ) (hb : r.spatial.bright.h = h ∧ r.spatial.bright.w = w)
    (hd : r.spatial.dark.h = h ∧ r.spatial.dark.w = w) (h5 : 5 ≤ h) (w5 : 5 ≤ w)
    (hL : 0 < r.spatial.bright.L) :
    ∃ hst, val histogramPRNU r = .ok hst ∧
      IsHistogram (pixels (h - 4) (w - 4)
        (hp5 fun i j => r.spatial.bright.sum i j - r.spatial.dark.sum i j))
        (fun x => x / ((r.spatial.bright.L : F) * 25)) hst.bins hst.values := by
  have hP : pixels (h - 4) (w - 4)
      (hp5 fun i j => r.spatial.bright.sum i j - r.spatial.dark.sum i j) ≠ [] := by
    rw [← List.length_pos_iff, pixels_length]; exact Nat.mul_pos (by omega) (by omega)
  have hLF : (r.spatial.bright.L : F) * 25 ≠ 0 := by
    have : (r.spatial.bright.L : F) ≠ 0 := by exact_mod_cast hL.ne'
    positivity
  obtain ⟨hst, W, m, e, hW, hm, h0, h1, hl, hs, hk⟩ := histogram_core _ hP
  obtain ⟨d, e1, e2, e3⟩ := highPass5 h w fun i j => r.spatial.bright.sum i j - r.spatial.dark.sum i j
  have sD := stable_sumDiff (F := F)
  refine ⟨⟨scaleBins hst.bins (.fin ((r.spatial.bright.L : F) * 25)), countsF hst.values⟩,
    ?_, W, m, hst.values, hW, hm, h0, h1, ?_, by simp only [countsF], hs, ?_⟩
  · unfold histogramPRNU
    rw [val_bind_ok sD (by stab) (prnu_image r h w hb hd),
      val_bind_ok (Stable.lift _) (by stab) (show val (lift _) r = .ok d by rw [val_lift]; exact e1),
      val_bind_ok (Stable.lift _) (by stab) (show val (lift _) r = .ok _ by rw [val_lift, e3]; exact e),
      e2]
    simp only [multF, Fl.fin_mul]
    norm_num
    rfl
  · simp [scaleBins, hl]
  · intro k hk'
    obtain ⟨b, c⟩ := hk k hk'
    refine ⟨?_, c⟩
    simp only [scaleBins, List.getElem?_map, b, Option.map_some]
    rw [Fl.fin_div hLF]

/-- C37: an image smaller than the window has no PRNU histogram: `ValueError`. -/
theorem C37_prnu_small (r : Res F) (h w : ℕ) (hb : r.spatial.bright.h = h ∧ r.spatial.bright.w = w)
    (hd : r.spatial.dark.h = h ∧ r.spatial.dark.w = w) (hs : h < 5 ∨ w < 5) :
    val histogramPRNU r = .error .valueError ∧ val histogramPRNUAccumulated r = .error .valueError := by
  obtain ⟨d, e1, e2, e3⟩ := highPass5 h w fun i j => r.spatial.bright.sum i j - r.spatial.dark.sum i j
  have hP : pixels (h - 4) (w - 4)
      (hp5 fun i j => r.spatial.bright.sum i j - r.spatial.dark.sum i j) = [] := by
    rw [← List.length_eq_zero_iff, pixels_length, Nat.mul_eq_zero]
    omega
  rw [hP] at e3
  have sD := stable_sumDiff (F := F)
  constructor
  · unfold histogramPRNU
    rw [val_bind_ok sD (by stab) (prnu_image r h w hb hd),
      val_bind_ok (Stable.lift _) (by stab) (show val (lift _) r = .ok d by rw [val_lift]; exact e1),
      val_bind (Stable.lift _) (by stab), val_lift, e3]
    rfl
  · unfold histogramPRNUAccumulated
    rw [val_bind_ok sD (by stab) (prnu_image r h w hb hd),
      val_bind_ok (Stable.lift _) (by stab) (show val (lift _) r = .ok d by rw [val_lift]; exact e1),
      val_bind (Stable.lift _) (by stab), val_lift, e3]
    rfl

/-! ### a case meeting the hypotheses -/

/-- 5 x 5 images; dark sum image 0..24, one image -/
def sampleHist : Res ℚ := { sampleIdeal ℚ with
  spatial := ⟨1, 30, ⟨5, 5, fun i j => 5 * i + j, .fin 2, 2, 5, 5, .fin 5, .fin 10, .fin 1, .fin (1/2)⟩,
    ⟨5, 5, fun i j => 100 + 5 * i + j + (if i = 2 ∧ j = 2 then 10 else 0), .fin 4, 4, 5, 5, .fin 9,
      .fin 50, .fin 3, .fin 2⟩⟩ }

example : (val histogramDSNUAccumulated sampleHist).toOption.map (fun h => (h.bins[2]?, h.values[2]?))
    = some (some (.fin 1), some (.fin 88)) := by decide +kernel
example : val histogramPRNU sampleHist = .ok ⟨[.fin (12 / 5)], [.fin 1]⟩ := by decide +kernel

end Emva
