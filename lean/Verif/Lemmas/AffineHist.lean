import Verif.Lemmas.AffineFit
import Verif.Lemmas.Histogram
import Verif.Model.Attrs

/-!
The remaining attributes of `Results1288` for a dataset whose pixel values are `g * x + c`: roots,
logarithms and (for `g = 1`) histograms; then all attributes.
-/
set_option autoImplicit false
set_option linter.unusedSectionVars false
namespace Emva
open Spec Data Routines
variable {F : Type} [Field F] [LinearOrder F] [IsStrictOrderedRing F]

namespace Routines
open Finset

theorem convolve_shift (h w : ℕ) (px : ℕ → ℕ → ℤ) (dim : ℕ) (kernel : ℕ → ℕ → ℤ) (k : ℤ)
    (h0 : ∑ a ∈ range dim, ∑ b ∈ range dim, kernel a b = 0) (i j : ℕ) :
    convolve h w (fun i j => px i j + k) dim kernel i j = convolve h w px dim kernel i j := by
  unfold convolve
  simp only [mul_add, Finset.sum_add_distrib, ← Finset.sum_mul, h0, zero_mul, add_zero]

theorem highPass5_shift (h w : ℕ) (px : ℕ → ℕ → ℤ) (k : ℤ) :
    highPass (.plain ⟨h, w, fun i j => px i j + k⟩) 5 = highPass (.plain ⟨h, w, px⟩) 5 := by
  have h0 : ∑ a ∈ range 5, ∑ b ∈ range 5, hpKernel (5 / 2) ((5 : ℕ) ^ 2 - 1) a b = 0 := by decide
  have : (convolve h w (fun i j => px i j + k) 5 (hpKernel (5 / 2) ((5 : ℕ) ^ 2 - 1))) =
      convolve h w px 5 (hpKernel (5 / 2) ((5 : ℕ) ^ 2 - 1)) := by
    funext i j
    exact convolve_shift h w px 5 _ k h0 i j
  unfold highPass MImg.plain
  simp only [this]

theorem foldl_min_shift (k : ℤ) (l : List ℤ) (x : ℤ) : (l.map (· + k)).foldl min (x + k) = l.foldl min x + k := by
  induction l generalizing x with
  | nil => rfl
  | cons y l ih => simp only [List.map_cons, List.foldl_cons]; rw [← ih, min_add_add_right]

theorem foldl_max_shift (k : ℤ) (l : List ℤ) (x : ℤ) : (l.map (· + k)).foldl max (x + k) = l.foldl max x + k := by
  induction l generalizing x with
  | nil => rfl
  | cons y l ih => simp only [List.map_cons, List.foldl_cons]; rw [← ih, max_add_add_right]

theorem minZ_shift (k : ℤ) (l : List ℤ) : minZ (l.map (· + k)) = (minZ l).map (· + k) := by
  cases l with
  | nil => rfl
  | cons x l => simp only [List.map_cons, minZ, foldl_min_shift, Option.map_some]

theorem maxZ_shift (k : ℤ) (l : List ℤ) : maxZ (l.map (· + k)) = (maxZ l).map (· + k) := by
  cases l with
  | nil => rfl
  | cons x l => simp only [List.map_cons, maxZ, foldl_max_shift, Option.map_some]

theorem npHistogram_shift (k : ℤ) (y : List ℤ) (B : List ℤ) :
    npHistogram (y.map (· + k)) (B.map (· + k)) = npHistogram y B := by
  induction B with
  | nil => rfl
  | cons a B ih =>
    match B with
    | [] => rfl
    | [b] =>
      simp only [List.map_cons, List.map_nil, npHistogram, List.countP_map, Function.comp_def, add_le_add_iff_right]
    | b :: c :: t =>
      simp only [List.map_cons, npHistogram, List.countP_map, Function.comp_def, add_le_add_iff_right,
        add_lt_add_iff_right] at ih ⊢
      rw [ih]

theorem histogram1288_shift (k : ℤ) (y : List (ℤ × Bool)) (Qmax : ℕ) :
    histogram1288 (y.map fun p => (p.1 + k, p.2)) Qmax =
      (histogram1288 y Qmax).map fun h => ⟨h.bins.map (· + k), h.values⟩ := by
  unfold histogram1288
  by_cases hy : y = []
  · subst hy; rfl
  rw [if_neg hy, if_neg (by simpa using hy)]
  have h1 : ((y.map fun p => (p.1 + k, p.2)).filter fun p => !p.2).map Prod.fst =
      ((y.filter fun p => !p.2).map Prod.fst).map (· + k) := by
    rw [List.filter_map, List.map_map, List.map_map]
    rfl
  have h2 : (y.map fun p => (p.1 + k, p.2)).map Prod.fst = (y.map Prod.fst).map (· + k) := by
    rw [List.map_map, List.map_map]; rfl
  simp only [h1, h2, minZ_shift, maxZ_shift]
  cases minZ ((y.filter fun p => !p.2).map Prod.fst) with
  | none => rfl
  | some lo =>
    cases maxZ ((y.filter fun p => !p.2).map Prod.fst) with
    | none => rfl
    | some hi =>
      simp only [Option.map_some, add_sub_add_right_eq_sub]
      split
      · rfl
      · have : ∀ Q W : ℕ, ((List.range (Q + 1)).map fun i : ℕ => lo + k + (i : ℤ) * (W : ℤ)) =
            ((List.range (Q + 1)).map fun i : ℕ => lo + (i : ℤ) * (W : ℤ)).map (· + k) := by
          intro Q W
          rw [List.map_map]
          refine List.map_congr_left fun i _ => ?_
          simp only [Function.comp_apply]; ring
        simp only [this, npHistogram_shift, Except.map, List.map_dropLast]

theorem ravel_shift (h w : ℕ) (px : ℕ → ℕ → ℤ) (k : ℤ) :
    (MImg.plain ⟨h, w, fun i j => px i j + k⟩).ravel =
      (MImg.plain ⟨h, w, px⟩).ravel.map fun p => (p.1 + k, p.2) := by
  simp [MImg.ravel, MImg.plain, MImg.masked, List.map_flatMap, Function.comp_def]

end Routines

namespace Results
variable {Q : Temporal F → Spatial F → Prop} {c : ℤ} {d : F}

theorem eqv_sumDiff : ∃ k : SpatialData F → SpatialData F → ℤ, True ∧ ∀ t0 s0,
    Eqv (fun t s => t = t0 ∧ s = s0) 1 c d (fun y : Img => ⟨y.h, y.w, fun i j => y.px i j + k s0.bright s0.dark⟩)
      (sumDiff (F := F)) sumDiff := by
  refine ⟨fun b e => c * b.L - c * e.L, trivial, fun t0 s0 => ?_⟩
  unfold sumDiff
  refine Eqv.bind_post (fun s => s = s0.bright) (by rintro r a ⟨-, hs⟩ h; rw [← hs]; simpa [spat] using (Except.ok.inj h).symm)
    (eqv_spat false) fun b hb => ?_
  refine Eqv.bind_post (fun s => s = s0.dark) (by rintro r a ⟨-, hs⟩ h; rw [← hs]; simpa [spat] using (Except.ok.inj h).symm)
    (eqv_spat true) fun e he => ?_
  subst hb he
  refine Eqv.ite Iff.rfl (fun _ => Eqv.pure ?_) fun _ => Eqv.lift rfl
  simp only [affSpatialData, one_mul]
  congr 1
  funext i j
  ring

theorem eqv_highPass {γ : Type} {f : Filtered → M F γ} (hf : ∀ a, Eqv Q 1 c d id (f a) (f a)) :
    Eqv Q 1 c d id (do let y ← sumDiff; let data ← lift (highPass (.plain y) 5); f data)
      (do let y ← sumDiff; let data ← lift (highPass (.plain y) 5); f data) := by
  refine Eqv.fix fun t0 s0 h0 => ?_
  obtain ⟨k, -, hk⟩ := eqv_sumDiff (F := F) (c := c) (d := d)
  refine (hk t0 s0).bind fun y => ?_
  refine Eqv.bind (s := id) (Eqv.lift ?_) fun a => (hf a).mono (by rintro t s ⟨rfl, rfl⟩; exact h0)
  rw [map_id_except]
  exact highPass5_shift ..

theorem eqv_histogramPRNU : Eqv Q 1 c d id (histogramPRNU (F := F)) histogramPRNU := by
  unfold histogramPRNU
  refine eqv_highPass fun data => ?_
  refine Eqv.bind (s := id) (Eqv.lift map_id_except.symm) fun h => ?_
  exact (eqv_spat false).bind fun s => Eqv.pure rfl

theorem eqv_histogramPRNUAccumulated : Eqv Q 1 c d id (histogramPRNUAccumulated (F := F)) histogramPRNUAccumulated := by
  unfold histogramPRNUAccumulated
  refine eqv_highPass fun data => ?_
  refine Eqv.bind (s := id) (Eqv.lift map_id_except.symm) fun h => ?_
  refine Eqv.bind (s := id) (Eqv.lift map_id_except.symm) fun h => ?_
  exact (eqv_spat false).bind fun s => Eqv.pure rfl

/-- after `sumDark` -/
theorem eqv_sumDark (t0 : Temporal F) (s0 : Spatial F) {γ : Type} {f f' : Img → M F γ}
    (hf : Eqv (fun t s => t = t0 ∧ s = s0) 1 c d id (f ⟨s0.dark.h, s0.dark.w, s0.dark.sum⟩)
      (f' ⟨s0.dark.h, s0.dark.w, fun i j => s0.dark.sum i j + c * s0.dark.L⟩)) :
    Eqv (fun t s => t = t0 ∧ s = s0) 1 c d id (do let y ← sumDark; f y) (do let y ← sumDark; f' y) := by
  unfold sumDark
  refine Eqv.bind_post (s := fun y : Img => ⟨y.h, y.w, fun i j => y.px i j + c * s0.dark.L⟩)
    (fun y => y = ⟨s0.dark.h, s0.dark.w, s0.dark.sum⟩)
    (by rintro r a ⟨-, hs⟩ h; subst hs; exact (Except.ok.inj h).symm) ?_ ?_
  · refine Eqv.bind_post (fun s => s = s0.dark) (by rintro r a ⟨-, hs⟩ h; rw [← hs]; simpa [spat] using (Except.ok.inj h).symm)
      (eqv_spat true) fun e he => ?_
    subst he
    refine Eqv.pure ?_
    simp only [affSpatialData, one_mul]
  · rintro a rfl
    exact hf

theorem img_mean_shift (h w : ℕ) (px : ℕ → ℕ → ℤ) (k : ℤ) (h0 : h * w ≠ 0) :
    ∃ m : F, Img.mean F ⟨h, w, px⟩ = .fin m ∧ Img.mean F ⟨h, w, fun i j => px i j + k⟩ = .fin (m + k) := by
  have hF : ((h * w : ℕ) : F) ≠ 0 := by exact_mod_cast h0
  refine ⟨_, Fl.fin_div hF, ?_⟩
  unfold Img.mean
  show _ / Fl.fin ((h * w : ℕ) : F) = _
  rw [Fl.fin_div hF]
  congr 1
  have : Img.total ⟨h, w, fun i j => px i j + k⟩ = Img.total ⟨h, w, px⟩ + (h * w : ℕ) * k := by
    simp [Img.total, Finset.sum_add_distrib]
    ring
  rw [this, show Img.size ⟨h, w, px⟩ = h * w from rfl]
  push_cast at hF ⊢
  rw [add_div, mul_div_cancel_left₀ _ hF]

theorem ravel_length (a : MImg) : a.ravel.length = a.h * a.w := by
  simp [MImg.ravel]

theorem hist_ok_ne {y : List (ℤ × Bool)} {Qm : ℕ} {h : Hist} (hh : histogram1288 y Qm = .ok h) : y ≠ [] := by
  rintro rfl
  simp [histogram1288] at hh

theorem eqv_histogramDSNU (hL : ∀ t s, Q t s → s.dark.L ≠ 0) :
    Eqv Q 1 c d id (histogramDSNU (F := F)) histogramDSNU := by
  refine Eqv.fix fun t0 s0 h0 => ?_
  have hL0 : ((s0.dark.L : ℕ) : F) ≠ 0 := by exact_mod_cast hL _ _ h0
  unfold histogramDSNU
  refine eqv_sumDark t0 s0 ?_
  refine Eqv.bind_post (s := fun h : Hist => ⟨h.bins.map (· + c * s0.dark.L), h.values⟩)
    (fun h => s0.dark.h * s0.dark.w ≠ 0) ?_ (Eqv.lift ?_) fun h hne => ?_
  · rintro r a - h e
    have h' := hist_ok_ne h
    apply h'
    apply List.length_eq_zero_iff.1
    rw [ravel_length]
    exact e
  · rw [ravel_shift]
    exact histogram1288_shift ..
  · refine Eqv.bind_post (fun s => s = s0.dark) (by rintro r a ⟨-, hs⟩ h; rw [← hs]; simpa [spat] using (Except.ok.inj h).symm)
      (eqv_spat true) fun e he => ?_
    subst he
    refine Eqv.pure ?_
    obtain ⟨m, h1, h2⟩ := img_mean_shift (F := F) s0.dark.h s0.dark.w s0.dark.sum (c * s0.dark.L) hne
    rw [h1, h2]
    simp only [id, affSpatialData, scaleBins, List.map_map, HistF.mk.injEq, and_true]
    refine List.map_congr_left fun b _ => ?_
    simp only [Function.comp_apply, Fl.fin_div hL0, Fl.fin_sub]
    congr 1
    push_cast
    ring

theorem absDev_shift (y : List (ℤ × Bool)) (k : ℤ) (h0 : 0 ≤ (y.map Prod.fst).sum)
    (h1 : 0 ≤ (y.map Prod.fst).sum + y.length * k) :
    absDev (y.map fun p => (p.1 + k, p.2)) = absDev y := by
  have h2 : (y.map fun p => (p.1 + k, p.2)).map Prod.fst = (y.map Prod.fst).map (· + k) := by
    rw [List.map_map, List.map_map]; rfl
  have h3 : ((y.map Prod.fst).map (· + k)).sum = (y.map Prod.fst).sum + y.length * k := by
    have := sum_map_aff 1 k (y.map Prod.fst)
    simp only [one_mul, List.length_map] at this
    rw [this, mul_comm]
  unfold absDev truncMean
  rw [h2, h3]
  by_cases hy : y = []
  · subst hy; rfl
  rw [if_neg (by simpa using hy), if_neg (by simpa using hy)]
  have hl : (y.length : ℤ) ≠ 0 := by
    have := List.length_pos_iff.2 hy
    omega
  simp only [List.length_map]
  rw [Int.tdiv_eq_ediv_of_nonneg h0, Int.tdiv_eq_ediv_of_nonneg h1, mul_comm (y.length : ℤ) k,
    Int.add_mul_ediv_right _ _ hl]
  show Except.ok _ = Except.ok _
  rw [List.map_map]
  congr 1
  refine List.map_congr_left fun p _ => ?_
  simp only [Function.comp_apply, Prod.mk.injEq, and_true]
  congr 1
  ring

/-- the condition of the accumulated dark histogram: the sums of dark images are not negative before
and after -/
def DarkNonneg (c : ℤ) (s : SpatialData F) : Prop :=
  ∀ i < s.h, ∀ j < s.w, 0 ≤ s.sum i j ∧ 0 ≤ s.sum i j + c * s.L

theorem eqv_histogramDSNUAccumulated (hN : ∀ t s, Q t s → DarkNonneg c s.dark) :
    Eqv Q 1 c d id (histogramDSNUAccumulated (F := F)) histogramDSNUAccumulated := by
  refine Eqv.fix fun t0 s0 h0 => ?_
  have hN0 := hN _ _ h0
  unfold histogramDSNUAccumulated
  refine eqv_sumDark t0 s0 ?_
  refine Eqv.bind (s := id) (Eqv.lift ?_) fun y => ?_
  · rw [ravel_shift, map_id_except]
    refine absDev_shift _ _ ?_ ?_
    · refine List.sum_nonneg fun x hx => ?_
      obtain ⟨p, hp, rfl⟩ := List.mem_map.1 hx
      simp only [MImg.ravel, MImg.plain, List.mem_flatMap, List.mem_map, List.mem_range] at hp
      obtain ⟨i, hi, j, hj, rfl⟩ := hp
      exact (hN0 i hi j hj).1
    · set l := (MImg.plain ⟨s0.dark.h, s0.dark.w, s0.dark.sum⟩).ravel with hl
      have : (l.map Prod.fst).sum + l.length * (c * s0.dark.L) = (l.map fun p => p.1 + c * s0.dark.L).sum := by
        rw [List.sum_map_add]; simp
      rw [this]
      refine List.sum_nonneg fun x hx => ?_
      obtain ⟨p, hp, rfl⟩ := List.mem_map.1 hx
      simp only [hl, MImg.ravel, MImg.plain, List.mem_flatMap, List.mem_map, List.mem_range] at hp
      obtain ⟨i, hi, j, hj, rfl⟩ := hp
      exact (hN0 i hi j hj).2
  · refine Eqv.bind (s := id) (Eqv.lift map_id_except.symm) fun h => ?_
    exact (eqv_spat true).bind fun s => Eqv.pure rfl

end Results
end Emva
