import Verif.Props.C37
import Verif.Props.C60
import Mathlib.Tactic.Ring
import Mathlib.Tactic.FieldSimp

/-!
C74: the spatial histograms and profiles describe the averaged images, however many images are averaged.  True when the dark
and the bright series have as many images; false otherwise.
-/
set_option autoImplicit false
set_option linter.unusedSectionVars false
namespace Emva
open Routines Spec Results Finset
variable {F : Type} [Field F] [LinearOrder F] [IsStrictOrderedRing F]

namespace Spec

/-- the averaged bright image minus the averaged dark image -/
def avgDiff (r : Res F) (i j : ℕ) : F :=
  (r.spatial.bright.sum i j : F) / (r.spatial.bright.L : F) - (r.spatial.dark.sum i j : F) / (r.spatial.dark.L : F)

/-- the difference of a pixel to the mean of the 5 x 5 pixels around it -/
def localDev (f : ℕ → ℕ → F) (i j : ℕ) : F := f (i + 2) (j + 2) - (∑ a ∈ range 5, ∑ b ∈ range 5, f (i + a) (j + b)) / 25

/-- `bins`, `values` is a histogram of the values `f i j`, `i < h`, `j < w`: bins of one width from the least value on, the
number of values in each, and every value in one of them. -/
def IsRealHistogram (h w : ℕ) (f : ℕ → ℕ → F) (bins values : List (Fl F)) : Prop :=
  ∃ (width least : F) (n : List ℕ), 0 < width ∧ (∃ i < h, ∃ j < w, f i j = least) ∧ (∀ i < h, ∀ j < w, least ≤ f i j) ∧
    bins.length = n.length ∧ values = n.map (fun c : ℕ => .fin (c : F)) ∧ n.sum = h * w ∧
    ∀ k < n.length, bins[k]? = some (.fin (least + k * width)) ∧
      n[k]? = some (((List.range h).map fun i => (List.range w).countP fun j =>
        decide (least + k * width ≤ f i j ∧ f i j < least + (k + 1) * width)).sum)

end Spec

theorem winSum_cast (px : ℕ → ℕ → ℤ) (i j : ℕ) :
    ((winSum 5 px i j : ℤ) : F) = ∑ a ∈ range 5, ∑ b ∈ range 5, (px (i + a) (j + b) : F) := by
  unfold winSum
  push_cast
  rfl

/-- C74: what the bright histogram counts: the local deviation of the averaged difference, plus an error that is the local
deviation of the dark image times the difference of the reciprocals of the numbers of images. -/
theorem C74_pixel (r : Res F) (i j : ℕ) (hb : 0 < r.spatial.bright.L) (hd : 0 < r.spatial.dark.L) :
    ((hp5 (fun i j => r.spatial.bright.sum i j - r.spatial.dark.sum i j) i j : ℤ) : F) / ((r.spatial.bright.L : F) * 25) =
      localDev (avgDiff r) i j + (1 / (r.spatial.dark.L : F) - 1 / (r.spatial.bright.L : F)) *
        localDev (fun i j => (r.spatial.dark.sum i j : F)) i j := by
  have hb' : (r.spatial.bright.L : F) ≠ 0 := by exact_mod_cast hb.ne'
  have hd' : (r.spatial.dark.L : F) ≠ 0 := by exact_mod_cast hd.ne'
  unfold hp5
  push_cast
  rw [winSum_cast]
  unfold localDev avgDiff
  push_cast
  simp only [sum_sub_distrib, ← sum_div]
  generalize (∑ a ∈ range 5, ∑ b ∈ range 5, (r.spatial.bright.sum (i + a) (j + b) : F)) = B
  generalize (∑ a ∈ range 5, ∑ b ∈ range 5, (r.spatial.dark.sum (i + a) (j + b) : F)) = D
  field_simp
  ring

theorem countP_pixels (h w : ℕ) (px : ℕ → ℕ → ℤ) (p : ℤ → Bool) :
    (pixels h w px).countP p = ((List.range h).map fun i => (List.range w).countP fun j => p (px i j)).sum := by
  unfold pixels
  induction h with
  | zero => rfl
  | succ h ih =>
    rw [List.range_succ, List.flatMap_append, List.countP_append, ih, List.map_append, List.sum_append]
    simp [List.countP_map, Function.comp_def]

theorem isRealHistogram_of {h w : ℕ} {px : ℕ → ℕ → ℤ} {t : F} (ht : 0 < t) {bins values : List (Fl F)}
    (H : IsHistogram (pixels h w px) (fun x => x / t) bins values) :
    IsRealHistogram h w (fun i j => (px i j : F) / t) bins values := by
  obtain ⟨W, m, n, hW, hm, h0, h1, hl, hv, hs, hk⟩ := H
  have hW' : (0 : F) < W := by exact_mod_cast hW
  have hmem : ∀ {v}, v ∈ pixels h w px ↔ ∃ i < h, ∃ j < w, px i j = v := by
    intro v; simp [pixels]
  refine ⟨W / t, m / t, n, by positivity, ?_, ?_, hl, hv, by rw [hs, pixels_length], fun k hk' => ?_⟩
  · obtain ⟨i, hi, j, hj, e⟩ := hmem.1 hm.1
    exact ⟨i, hi, j, hj, by simp only [e]⟩
  · intro i hi j hj
    have := hm.2 _ (hmem.2 ⟨i, hi, j, hj, rfl⟩)
    have : (m : F) ≤ px i j := by exact_mod_cast this
    exact div_le_div_of_nonneg_right this ht.le
  · obtain ⟨b, c⟩ := hk k hk'
    refine ⟨?_, ?_⟩
    · rw [b]
      congr 2
      push_cast
      ring
    · rw [c, countP_pixels]
      congr 2
      refine List.map_congr_left fun i _ => ?_
      refine List.countP_congr fun j _ => ?_
      simp only [decide_eq_true_eq]
      have e1 : (m : F) / t + k * (W / t) = ((m + k * W : ℤ) : F) / t := by push_cast; ring
      have e2 : (m : F) / t + (k + 1) * (W / t) = ((m + (k + 1) * W : ℤ) : F) / t := by push_cast; ring
      rw [e1, e2, div_le_div_iff_of_pos_right ht, div_lt_div_iff_of_pos_right ht, Int.cast_le, Int.cast_lt]

/-- C74: with as many dark as bright images the bright histogram counts the local deviations of the averaged, dark-corrected
image, in DN. -/
theorem C74_prnu_partial (r : Res F) (h w : ℕ) (hb : r.spatial.bright.h = h ∧ r.spatial.bright.w = w)
    (hd : r.spatial.dark.h = h ∧ r.spatial.dark.w = w) (h5 : 5 ≤ h) (w5 : 5 ≤ w)
    (hL : 0 < r.spatial.bright.L) (hLL : r.spatial.dark.L = r.spatial.bright.L) :
    ∃ hst, val histogramPRNU r = .ok hst ∧
      IsRealHistogram (h - 4) (w - 4) (localDev (avgDiff r)) hst.bins hst.values := by
  obtain ⟨hst, e, H⟩ := C37_prnu r h w hb hd h5 w5 hL
  refine ⟨hst, e, ?_⟩
  have hL' : (0 : F) < r.spatial.bright.L := by exact_mod_cast hL
  have := isRealHistogram_of (by positivity) H
  convert this using 1
  funext i j
  rw [C74_pixel r i j hL (hLL ▸ hL), hLL]
  ring

/-- C74: the dark histogram counts the deviations of the averaged dark image from its mean, in DN, whatever the number of
images. -/
theorem C74_dsnu (r : Res F) (hpx : 0 < r.spatial.dark.h * r.spatial.dark.w) (hL : 0 < r.spatial.dark.L) :
    ∃ h, val histogramDSNU r = .ok h ∧ ∃ mean : F,
      mean = (∑ i ∈ range r.spatial.dark.h, ∑ j ∈ range r.spatial.dark.w, (r.spatial.dark.sum i j : F) / r.spatial.dark.L) /
        (r.spatial.dark.h * r.spatial.dark.w : ℕ) ∧
      IsRealHistogram r.spatial.dark.h r.spatial.dark.w
        (fun i j => (r.spatial.dark.sum i j : F) / r.spatial.dark.L - mean) h.bins h.values := by
  obtain ⟨hst, e, W, m, n, hW, hm, h0, h1, hl, hv, hs, hk⟩ := C37_dsnu r hpx hL
  refine ⟨hst, e, _, rfl, ?_⟩
  have ht : (0 : F) < r.spatial.dark.L := by exact_mod_cast hL
  have hN : ((r.spatial.dark.h * r.spatial.dark.w : ℕ) : F) ≠ 0 := by exact_mod_cast hpx.ne'
  have hmean : (∑ i ∈ range r.spatial.dark.h, ∑ j ∈ range r.spatial.dark.w, (r.spatial.dark.sum i j : F) / r.spatial.dark.L) =
      ((Img.mk r.spatial.dark.h r.spatial.dark.w r.spatial.dark.sum).total : F) / r.spatial.dark.L := by
    unfold Img.total
    push_cast
    simp only [sum_div]
  rw [hmean]
  generalize ((Img.mk r.spatial.dark.h r.spatial.dark.w r.spatial.dark.sum).total : F) = T at *
  -- the histogram of the averaged image, shifted
  have H : IsHistogram (pixels r.spatial.dark.h r.spatial.dark.w r.spatial.dark.sum) (fun x : F => x / r.spatial.dark.L)
      ((List.range n.length).map fun k : ℕ => .fin (((m + k * W : ℤ) : F) / r.spatial.dark.L)) hst.values :=
    ⟨W, m, n, hW, hm, h0, h1, by simp, hv, hs, fun k hk' => ⟨by simp [List.getElem?_range hk'], (hk k hk').2⟩⟩
  obtain ⟨width, least, n', q1, ⟨i0, hi0, j0, hj0, q2⟩, q3, q4, q5, q6, q7⟩ := isRealHistogram_of ht H
  have hnn : n' = n := by
    rw [hv] at q5
    refine (List.map_injective_iff.2 ?_ q5).symm
    intro a b hab
    have : (a : F) = b := Fl.fin.inj hab
    exact_mod_cast this
  subst hnn
  refine ⟨width, least - T / r.spatial.dark.L / (r.spatial.dark.h * r.spatial.dark.w : ℕ), n', q1,
    ⟨i0, hi0, j0, hj0, by simp only at q2 ⊢; rw [q2]⟩, fun i hi j hj => sub_le_sub_right (q3 i hi j hj) _, hl, hv, q6, fun k hk' => ⟨?_, ?_⟩⟩
  · obtain ⟨b, -⟩ := q7 k hk'
    rw [List.getElem?_map, List.getElem?_range hk', Option.map_some] at b
    have b' := Fl.fin.inj (Option.some.inj b)
    rw [(hk k hk').1]
    congr 2
    simp only
    rw [sub_div, b']
    field_simp
    ring
  · rw [(q7 k hk').2]
    congr 2
    refine List.map_congr_left fun i _ => ?_
    refine List.countP_congr fun j _ => ?_
    simp only [decide_eq_true_eq]
    constructor
    · rintro ⟨a, b⟩
      exact ⟨by linarith, by linarith⟩
    · rintro ⟨a, b⟩
      exact ⟨by linarith, by linarith⟩

/-- C74 fails with series of different lengths: a perfectly uniform sensor (averaged bright image = averaged dark image plus a
constant) is shown with deviations where the dark image has any (the sign decides whether the least value of the histogram shows
them; `C74_pixel` gives the error of every pixel). -/
theorem C74_prnu_unequal (r : Res F) (h w : ℕ) (hb : r.spatial.bright.h = h ∧ r.spatial.bright.w = w)
    (hd : r.spatial.dark.h = h ∧ r.spatial.dark.w = w) (h5 : 5 ≤ h) (w5 : 5 ≤ w)
    (hL : 0 < r.spatial.bright.L) (hLd : 0 < r.spatial.dark.L) 
    (c : F) (huni : ∀ i j, avgDiff r i j = c)
    (i j : ℕ) (hi : i < h - 4) (hj : j < w - 4) (hdark : (1 / (r.spatial.dark.L : F) - 1 / (r.spatial.bright.L : F)) *
      localDev (fun i j => (r.spatial.dark.sum i j : F)) i j < 0) :
    (∀ i j, localDev (avgDiff r) i j = 0) ∧
    ∃ hst, val histogramPRNU r = .ok hst ∧ ¬ IsRealHistogram (h - 4) (w - 4) (localDev (avgDiff r)) hst.bins hst.values := by
  have hz : ∀ i j, localDev (avgDiff r) i j = 0 := by
    intro i j
    unfold localDev
    simp only [huni, sum_const, card_range, nsmul_eq_mul]
    push_cast
    field_simp
    ring
  refine ⟨hz, ?_⟩
  obtain ⟨⟨bins, values⟩, e, H⟩ := C37_prnu r h w hb hd h5 w5 hL
  refine ⟨_, e, ?_⟩
  have hL' : (0 : F) < r.spatial.bright.L := by exact_mod_cast hL
  obtain ⟨width, least, n, q1, ⟨i0, hi0, j0, hj0, q2⟩, q3, q4, q5, q6, q7⟩ := isRealHistogram_of (by positivity) H
  rintro ⟨width', least', n', p1, ⟨i1, hi1, j1, hj1, p2⟩, p3, p4, p5, p6, p7⟩
  have hn : 0 < bins.length := by
    rw [q4]
    by_contra h0
    have : n = [] := List.length_eq_zero_iff.1 (by omega)
    rw [this] at q6
    have : 0 < (h - 4) * (w - 4) := Nat.mul_pos (by omega) (by omega)
    simp at q6
    omega
  have a := (q7 0 (q4 ▸ hn)).1
  have b := (p7 0 (p4 ▸ hn)).1
  rw [a] at b
  have hle : least = least' := by simpa using b
  have h0 : least' = 0 := by rw [← p2, hz]
  have := q3 i hi j hj
  simp only at this
  rw [C74_pixel r i j hL hLd, hz, hle, h0] at this
  linarith

/-- C74: the profiles of the bright image are those of `(sum - sum_dark) / L` (`C60_plot`); that is the averaged difference plus
an error proportional to the dark image, which is zero exactly when the series have as many images or the dark pixel is
zero. -/
theorem C74_profile (r : Res F) (i j : ℕ) (hb : 0 < r.spatial.bright.L) (hd : 0 < r.spatial.dark.L) :
    (((r.spatial.bright.sum i j : F) - (r.spatial.dark.sum i j : F)) / (r.spatial.bright.L : F) =
      avgDiff r i j + (1 / (r.spatial.dark.L : F) - 1 / (r.spatial.bright.L : F)) * (r.spatial.dark.sum i j : F)) ∧
    (((r.spatial.bright.sum i j : F) - (r.spatial.dark.sum i j : F)) / (r.spatial.bright.L : F) = avgDiff r i j ↔
      r.spatial.dark.L = r.spatial.bright.L ∨ r.spatial.dark.sum i j = 0) := by
  have hb' : (r.spatial.bright.L : F) ≠ 0 := by exact_mod_cast hb.ne'
  have hd' : (r.spatial.dark.L : F) ≠ 0 := by exact_mod_cast hd.ne'
  have e : ((r.spatial.bright.sum i j : F) - (r.spatial.dark.sum i j : F)) / (r.spatial.bright.L : F) =
      avgDiff r i j + (1 / (r.spatial.dark.L : F) - 1 / (r.spatial.bright.L : F)) * (r.spatial.dark.sum i j : F) := by
    unfold avgDiff
    field_simp
    ring
  refine ⟨e, ?_⟩
  rw [e, add_eq_left, mul_eq_zero, sub_eq_zero, one_div, one_div, inv_inj, Nat.cast_inj, Int.cast_eq_zero]

/-! ### cases meeting the hypotheses -/

/-- 5 x 5 images; the dark series has four images with a brighter pixel in the middle, the bright series two; the averaged
bright image is the averaged dark image plus 10 -/
def unequalSample : Res ℚ := { sampleHist with
  spatial := { sampleHist.spatial with
    dark := { sampleHist.spatial.dark with L := 4, sum := fun i j => 4 * (1 + if i = 2 ∧ j = 2 then 25 else 0) },
    bright := { sampleHist.spatial.bright with L := 2, sum := fun i j => 2 * (11 + if i = 2 ∧ j = 2 then 25 else 0) } } }

example : (∀ i j, localDev (avgDiff unequalSample) i j = 0) ∧
    ∃ hst, val histogramPRNU unequalSample = .ok hst ∧ ¬ IsRealHistogram 1 1 (localDev (avgDiff unequalSample)) hst.bins hst.values :=
  C74_prnu_unequal unequalSample 5 5 ⟨rfl, rfl⟩ ⟨rfl, rfl⟩ le_rfl le_rfl (by decide) (by decide) 10
    (by intro i j; simp only [avgDiff, unequalSample]; push_cast; ring) 0 0 (by norm_num) (by norm_num) (by decide +kernel)

/-- the uniform sensor is shown with a pixel 24 DN too dark -/
example : val histogramPRNU unequalSample = .ok ⟨[.fin (-24)], [.fin 1]⟩ := by decide +kernel

example : ∃ hst, val histogramPRNU { unequalSample with spatial := { unequalSample.spatial with dark :=
      { unequalSample.spatial.dark with L := 2 } } } = .ok hst ∧
    IsRealHistogram 1 1 (localDev (avgDiff { unequalSample with spatial := { unequalSample.spatial with dark :=
      { unequalSample.spatial.dark with L := 2 } } })) hst.bins hst.values :=
  C74_prnu_partial _ 5 5 ⟨rfl, rfl⟩ ⟨rfl, rfl⟩ le_rfl le_rfl (by decide) rfl

example : ∃ h, val histogramDSNU unequalSample = .ok h ∧ ∃ mean : ℚ,
    IsRealHistogram 5 5 (fun i j => ((unequalSample.spatial.dark.sum i j : ℤ) : ℚ) / (4 : ℕ) - mean) h.bins h.values := by
  obtain ⟨h, e, mean, -, H⟩ := C74_dsnu unequalSample (by decide) (by decide)
  exact ⟨h, e, mean, H⟩

end Emva
