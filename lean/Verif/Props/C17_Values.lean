import Verif.Props.C19_C20

/-!
C17, composed with the loader and C05: the numbers in the temporal arrays are the means and
variances of the image pairs on disk.
-/
set_option autoImplicit false
set_option linter.unusedSectionVars false
namespace Emva
open Py Loader Spec Data Finset Emva.Parser
variable {F : Type} [Field F] [LinearOrder F] [IsStrictOrderedRing F]

/-- the mean grey value of a pair of images -/
def Spec.pairMean (h w : ℕ) : List Img → Fl F
  | [a, b] => .fin ((Spec.imgMean h w (fun i j => (a.px i j : F))
      + Spec.imgMean h w (fun i j => (b.px i j : F))) / 2)
  | _ => .nan

/-- the temporal variance of a pair of images: half the variance of the difference image -/
def Spec.pairVar (h w : ℕ) : List Img → Fl F
  | [a, b] => .fin (Spec.imgPopVar h w (fun i j => (b.px i j : F) - a.px i j) / 2)
  | _ => .nan

/-- the points of a `Data1288` object are the bright series of the descriptor in order -/
theorem measured_points (fload : Str → Option (Except PyErr Img)) (path : Str)
    (ord : List F → List F) (hord : ∀ l, (ord l).Perm l) (images : Kind → Images F)
    (hw : ∀ k, WF2 (images k)) (hn : NonNegPhotons (images .temporal)) (r : Loaded F F)
    (hr : load i64 fload path 0 ord images = .ok r) (px : Option ℕ) (D : Data1288 F) (hD : make r px = .ok D) :
    D.pixels = pixelsOf r px ∧ D.rows = r.height ∧ D.cols = r.width ∧
    ∃ pts, Bright (images .temporal) pts ∧ D.temporal.u_p = pts.map (·.2.1) ∧
      D.temporal.u_y = pts.map (fun x =>
        (seriesPoint (pixelsOf r px) (temporalEntry F i64 (imagesAt fload path x.2.2))).1) ∧
      D.temporal.s2_y = pts.map (fun x =>
        (seriesPoint (pixelsOf r px) (temporalEntry F i64 (imagesAt fload path x.2.2))).2) := by
  obtain ⟨c1, -, -, -, -, c6, -⟩ := C15_content i64 fload path 0 ord hord images hw r hr
  unfold make at hD
  simp only at hD
  split at hD
  · simp at hD
  rename_i t ht
  split at hD
  · simp at hD
  rename_i s hs
  simp only [Except.ok.injEq] at hD
  subst hD
  refine ⟨rfl, rfl, rfl, ?_⟩
  have hn' : NonNegPhotons r.temporal := by
    intro e p v h
    rw [c1] at h
    obtain ⟨fs, hfs, -⟩ := Option.map_eq_some_iff.1 h
    exact hn e p fs hfs
  obtain ⟨pts, hB, h1, h2, h3⟩ := C17_sorted_aligned _ r.temporal c6 hn' t ht
  have hL := (C15_acceptance (F := F) i64 fload path 0 ord hord images hw).1 ⟨r, hr⟩
  have hB' := bright_brightPts (hw .temporal) ((expGood_iff (hw .temporal)).2 fun e i hi =>
    ⟨hL.dark .temporal e i hi, hL.bright .temporal e i hi⟩) hn
  set pts' := brightPts (images .temporal) (sortedKeys (images .temporal))
  have heq : pts = pts'.map fun x => (x.1, x.2.1, temporalEntry F i64 (imagesAt fload path x.2.2)) := by
    refine C17_bright_unique r.temporal _ _ hB ⟨?_, ?_⟩
    · intro e p v
      rw [c1]
      simp only [List.mem_map, Prod.mk.injEq, Option.map_eq_some_iff]
      constructor
      · rintro ⟨⟨e', p', fs⟩, hm, rfl, rfl, rfl⟩
        obtain ⟨k1, k2⟩ := (hB'.mem _ _ _).1 hm
        exact ⟨k1, fs, k2, rfl⟩
      · rintro ⟨h0, fs, hfs, rfl⟩
        exact ⟨(e, p, fs), (hB'.mem _ _ _).2 ⟨h0, hfs⟩, rfl, rfl, rfl⟩
    · rw [List.pairwise_map]; exact hB'.sorted
  refine ⟨pts', hB', ?_, ?_, ?_⟩
  · rw [h1, heq, List.map_map]; rfl
  · rw [h2, heq, List.map_map]; rfl
  · rw [h3, heq, List.map_map]; rfl

/-- C17: what a `Data1288` object built from loaded image pairs reports.  The bright points are the
bright series of the descriptor in order, and their values are the means and temporal variances of the
image pairs. -/
theorem C17_measured_values (fload : Str → Option (Except PyErr Img)) (path : Str)
    (ord : List F → List F) (hord : ∀ l, (ord l).Perm l) (images : Kind → Images F)
    (hw : ∀ k, WF2 (images k)) (hn : NonNegPhotons (images .temporal)) (r : Loaded F F)
    (hr : load i64 fload path 0 ord images = .ok r) (D : Data1288 F) (hD : make r none = .ok D)
    (B : ℤ)
    (hpair : ∀ e p fs, get2 (images .temporal) e p = some fs →
      ∃ a b, imagesAt fload path fs = [a, b] ∧ PairOK r.height r.width B a b) :
    D.pixels = r.height * r.width ∧ D.rows = r.height ∧ D.cols = r.width ∧
    ∃ pts, Bright (images .temporal) pts ∧ D.temporal.u_p = pts.map (·.2.1) ∧
      D.temporal.u_y = pts.map (fun x =>
        Spec.pairMean r.height r.width (imagesAt fload path x.2.2)) ∧
      D.temporal.s2_y = pts.map (fun x =>
        Spec.pairVar r.height r.width (imagesAt fload path x.2.2)) := by
  have hpx : pixelsOf r none = r.height * r.width := by simp [pixelsOf, mul_comm]
  obtain ⟨e1, e2, e3, pts', hB', h1, h2, h3⟩ := measured_points fload path ord hord images hw hn r hr none D hD
  have hval : ∀ x ∈ pts', seriesPoint (pixelsOf r none)
      (temporalEntry F i64 (imagesAt fload path x.2.2)) =
      (Spec.pairMean r.height r.width (imagesAt fload path x.2.2),
        Spec.pairVar r.height r.width (imagesAt fload path x.2.2)) := by
    rintro ⟨e, p, fs⟩ hx
    obtain ⟨-, hfs⟩ := (hB'.mem e p fs).1 hx
    obtain ⟨a, b, hab, hok⟩ := hpair e p fs hfs
    simp only
    rw [hab, hpx, C05_temporal_point F _ _ B a b hok]
    rfl
  refine ⟨e1.trans hpx, e2, e3, pts', hB', h1, ?_, ?_⟩
  · rw [h2]
    exact List.map_congr_left fun x hx => by rw [hval x hx]
  · rw [h3]
    exact List.map_congr_left fun x hx => by rw [hval x hx]

/-- the mean grey value of a pair of images over `n` pixels -/
def Spec.pairMeanOver (n h w : ℕ) : List Img → Fl F
  | [a, b] => .fin ((∑ i ∈ range h, ∑ j ∈ range w, ((a.px i j : F) + b.px i j)) / (2 * n))
  | _ => .nan

/-- the temporal variance of a pair of images over `n` pixels -/
def Spec.pairVarOver (n h w : ℕ) : List Img → Fl F
  | [a, b] => .fin ((∑ i ∈ range h, ∑ j ∈ range w, ((b.px i j : F) - a.px i j) ^ 2) / (2 * n)
      - (Spec.imgMean h w (fun i j => (b.px i j : F)) - Spec.imgMean h w (fun i j => (a.px i j : F))) ^ 2 / 2)
  | _ => .nan

/-- C17, with a given number of pixels: the same points, the means and variances over that number. -/
theorem C17_measured_values_over (fload : Str → Option (Except PyErr Img)) (path : Str)
    (ord : List F → List F) (hord : ∀ l, (ord l).Perm l) (images : Kind → Images F)
    (hw : ∀ k, WF2 (images k)) (hn : NonNegPhotons (images .temporal)) (r : Loaded F F)
    (hr : load i64 fload path 0 ord images = .ok r) (n : ℕ) (hn0 : 0 < n) (D : Data1288 F)
    (hD : make r (some n) = .ok D) (B : ℤ)
    (hpair : ∀ e p fs, get2 (images .temporal) e p = some fs →
      ∃ a b, imagesAt fload path fs = [a, b] ∧ PairOK r.height r.width B a b) :
    D.pixels = n ∧ D.rows = r.height ∧ D.cols = r.width ∧
    ∃ pts, Bright (images .temporal) pts ∧ D.temporal.u_p = pts.map (·.2.1) ∧
      D.temporal.u_y = pts.map (fun x =>
        Spec.pairMeanOver n r.height r.width (imagesAt fload path x.2.2)) ∧
      D.temporal.s2_y = pts.map (fun x =>
        Spec.pairVarOver n r.height r.width (imagesAt fload path x.2.2)) := by
  have hpx : pixelsOf r (some n) = n := by
    cases n with
    | zero => omega
    | succ n => rfl
  obtain ⟨e1, e2, e3, pts', hB', h1, h2, h3⟩ :=
    measured_points fload path ord hord images hw hn r hr (some n) D hD
  have hval : ∀ x ∈ pts', seriesPoint (pixelsOf r (some n))
      (temporalEntry F i64 (imagesAt fload path x.2.2)) =
      (Spec.pairMeanOver n r.height r.width (imagesAt fload path x.2.2),
        Spec.pairVarOver n r.height r.width (imagesAt fload path x.2.2)) := by
    rintro ⟨e, p, fs⟩ hx
    obtain ⟨-, hfs⟩ := (hB'.mem e p fs).1 hx
    obtain ⟨a, b, hab, hok⟩ := hpair e p fs hfs
    simp only
    rw [hab, hpx, C05_given_pixels F _ _ n B a b hok hn0]
    rfl
  refine ⟨e1.trans hpx, e2, e3, pts', hB', h1, ?_, ?_⟩
  · rw [h2]
    exact List.map_congr_left fun x hx => by rw [hval x hx]
  · rw [h3]
    exact List.map_congr_left fun x hx => by rw [hval x hx]

/-- C17: an explicit pixel count replaces the image size in the means and variances; `None` and `0`
stand for the image size. -/
theorem C17_pixel_count (r : Loaded F F) (n : ℕ) (D : Data1288 F) :
    (make r (some (n + 1)) = .ok D → D.pixels = n + 1 ∧ getTemporal (n + 1) r.temporal = .ok D.temporal)
    ∧ make r (some 0) = make r none := by
  refine ⟨?_, rfl⟩
  intro h
  unfold make at h
  simp only [pixelsOf] at h
  split at h
  · simp at h
  rename_i t ht
  split at h
  · simp at h
  simp only [Except.ok.injEq] at h
  subst h
  exact ⟨rfl, ht⟩

/-- Concrete case for `C17_measured_values`: the file system of `sampleFs` with a spatial pair. -/
example :
    (match (load i64 sampleFs [] 0 id (fun
        | .temporal => [(5, [(7, [['b'], ['a']]), (0, [['a'], ['a']])])]
        | .spatial => [(5, [(0, [['a'], ['a']]), (7, [['b'], ['a']])])]) :
        Except PyErr (Loaded ℚ ℚ)) with
      | .error _ => none
      | .ok r => match make r none with
        | .error _ => none
        | .ok D => some D.temporal) =
    some ⟨[5], [7], [.fin (3 / 4)], [.fin (1 / 8)], [.fin (1 / 2)], [.fin 0]⟩ := by
  decide +kernel

example : PairOK 1 2 2 ⟨1, 2, fun _ j => 2 * j⟩ ⟨1, 2, fun _ j => j⟩ := by
  refine ⟨by norm_num, rfl, rfl, rfl, rfl, ?_, ?_, by norm_num⟩ <;>
  · intro r hr c hc
    interval_cases r <;> interval_cases c <;> simp

end Emva
