import Verif.Lemmas.Temporal

/-!
C01-C06: the integer image statistics (`get_int_imgs`) and the temporal mean/variance derived from
them (`_get_temporal_data`).
-/
set_option autoImplicit false
namespace Emva
open Finset
set_option linter.unusedSectionVars false
variable (F : Type*) [Field F] [LinearOrder F] [IsStrictOrderedRing F]

/-- `Fits imgs B r c`: pixel `(r, c)` of every image lies in `[0, B]` and the integer envelope
`L³ B² < 2^65` holds (`B = 2^bits - 1` for a camera of `bits` bits). -/
def Fits (imgs : List Img) (B : ℤ) (r c : ℕ) : Prop :=
  (∀ a ∈ imgs, 0 ≤ a.px r c ∧ a.px r c ≤ B) ∧ (imgs.length : ℤ) ^ 3 * B ^ 2 < 2 ^ 65

/-- C04: inside the envelope the int64 accumulators hold the exact integers: the sum of the pixel
values and `L (L Σx² - (Σx)²)`. -/
theorem C04_int64_exact (imgs : List Img) (B : ℤ) (r c : ℕ) (h : Fits imgs B r c) :
    (getIntImgs F i64 imgs).sum r c = (imgs.map fun a => a.px r c).sum ∧
    (getIntImgs F i64 imgs).pvar r c = imgs.length *
      (imgs.length * (imgs.map fun a => a.px r c ^ 2).sum
        - (imgs.map fun a => a.px r c).sum ^ 2) := by
  obtain ⟨hr, he⟩ := h
  have hb := pvar_bounds (F := F) imgs B r c hr
  have hs : ∀ x ∈ pxs imgs r c, 0 ≤ x ∧ x ≤ B := by
    simp only [pxs, List.mem_map]; rintro _ ⟨a, ha, rfl⟩; exact hr a ha
  have hsb := sum_bounds _ _ hs
  have hl : (pxs imgs r c).length = imgs.length := by simp [pxs]
  rw [hl] at hsb
  constructor
  · rw [sum_i64]
    apply i64_of_nonneg hsb.1
    cases imgs with
    | nil => simp [pxs]
    | cons a t =>
      have hB : 0 ≤ B := by have := hr a (by simp); omega
      have hL : (1 : ℤ) ≤ ((a :: t).length : ℤ) := by simp
      generalize ((a :: t).length : ℤ) = L at *
      -- (L B)² ≤ L³ B² < 2^65
      have h1 : (L * B) ^ 2 ≤ L ^ 3 * B ^ 2 := by
        have : L ^ 3 * B ^ 2 = (L * B) ^ 2 * L := by ring
        nlinarith [sq_nonneg (L * B)]
      have h2 : L * B < 2 ^ 63 := by
        by_contra hc
        have hc' : (2 : ℤ) ^ 63 ≤ L * B := not_lt.1 hc
        have : ((2 : ℤ) ^ 63) ^ 2 ≤ (L * B) ^ 2 := by
          apply pow_le_pow_left₀ (by positivity) hc'
        norm_num at this he
        linarith
      exact lt_of_le_of_lt hsb.2 h2
  · rw [pvar_i64, i64_of_nonneg hb.1 (by norm_num at he ⊢; linarith [hb.2]), pvar_id]
    simp [pxs, pow_two, List.map_map, Function.comp_def]

/-- C04, totals over an `h × w` image (what the loader stores for a temporal series): exact whenever
every pixel is in `[0, B]`, `L ≥ 2` and `h w L³ B² < 2^65`. -/
theorem C04_totals_exact (imgs : List Img) (h w : ℕ) (B : ℤ) (hL : 2 ≤ imgs.length)
    (hsh : ∀ a ∈ imgs, a.h = h ∧ a.w = w)
    (hr : ∀ a ∈ imgs, ∀ r < h, ∀ c < w, 0 ≤ a.px r c ∧ a.px r c ≤ B)
    (he : (h : ℤ) * w * ((imgs.length : ℤ) ^ 3 * B ^ 2) < 2 ^ 65) :
    (temporalEntry F i64 imgs).sum
      = ∑ r ∈ range h, ∑ c ∈ range w, (imgs.map fun a => a.px r c).sum ∧
    (temporalEntry F i64 imgs).pvar
      = ∑ r ∈ range h, ∑ c ∈ range w, (imgs.length : ℤ) *
          (imgs.length * (imgs.map fun a => a.px r c ^ 2).sum
            - (imgs.map fun a => a.px r c).sum ^ 2) := by
  obtain ⟨a, t, rfl⟩ := List.exists_cons_of_ne_nil (show imgs ≠ [] by rintro rfl; simp at hL)
  set imgs := a :: t with himgs
  have hd : (getIntImgs F i64 imgs).h = h ∧ (getIntImgs F i64 imgs).w = w := by
    have := hsh a (by simp [himgs])
    simp [getIntImgs, himgs, this.1, this.2]
  rcases Nat.eq_zero_or_pos (h * w) with h0 | hp
  · have hz : ∀ f : ℕ → ℕ → ℤ, ∑ r ∈ range h, ∑ c ∈ range w, f r c = 0 := by
      intro f
      rcases Nat.mul_eq_zero.1 h0 with e | e <;> simp [e]
    constructor
    · show sumImg i64 _ _ _ = _
      rw [hd.1, hd.2, sumImg, hz, hz]; decide
    · show sumImg i64 _ _ _ = _
      rw [hd.1, hd.2, sumImg, hz, hz]; decide
  have hpz : (1 : ℤ) ≤ (h : ℤ) * w := by exact_mod_cast hp
  have hB : 0 ≤ B := by
    have := hr a (by simp [himgs]) 0 (Nat.pos_of_mul_pos_right hp) 0 (Nat.pos_of_mul_pos_left hp)
    omega
  have hLz : (2 : ℤ) ≤ (imgs.length : ℤ) := by exact_mod_cast hL
  have hnn : 0 ≤ (imgs.length : ℤ) ^ 3 * B ^ 2 := by positivity
  have fits : ∀ r < h, ∀ c < w, Fits imgs B r c := fun r hr' c hc =>
    ⟨fun b hb => hr b hb r hr' c hc, by nlinarith⟩
  have hex := fun r hr' c hc => C04_int64_exact F imgs B r c (fits r hr' c hc)
  constructor
  · show sumImg i64 _ _ _ = _
    rw [hd.1, hd.2, sumImg_congr i64 fun r hr' c hc => (hex r hr' c hc).1]
    have bd := sum2_bounds (h := h) (w := w) (f := fun r c => (imgs.map fun a => a.px r c).sum)
      (M := imgs.length * B) (fun r hr' c hc => by
        have := sum_bounds (imgs.map fun a => a.px r c) B (by
          simp only [List.mem_map]; rintro _ ⟨b, hb, rfl⟩; exact hr b hb r hr' c hc)
        simpa using this)
    apply i64_of_nonneg bd.1
    refine lt_of_le_of_lt bd.2 ?_
    have h1 : 4 * ((imgs.length : ℤ) * B) ≤ (imgs.length : ℤ) ^ 3 * B ^ 2 := by
      have hB1 : B ≤ B ^ 2 := Int.le_self_sq B
      have hL2 : (4 : ℤ) ≤ (imgs.length : ℤ) ^ 2 := by nlinarith
      calc 4 * ((imgs.length : ℤ) * B) ≤ (imgs.length : ℤ) ^ 2 * ((imgs.length : ℤ) * B ^ 2) := by
            apply mul_le_mul hL2 (mul_le_mul_of_nonneg_left hB1 (by positivity)) (by positivity)
              (by positivity)
        _ = _ := by ring
    have h2 := mul_le_mul_of_nonneg_left h1 (by positivity : (0 : ℤ) ≤ (h : ℤ) * w)
    norm_num at he ⊢
    linarith
  · show sumImg i64 _ _ _ = _
    rw [hd.1, hd.2, sumImg_congr i64 fun r hr' c hc => (hex r hr' c hc).2]
    have pb : ∀ r < h, ∀ c < w, 0 ≤ (imgs.length : ℤ) *
          (imgs.length * (imgs.map fun a => a.px r c ^ 2).sum
            - (imgs.map fun a => a.px r c).sum ^ 2) ∧ 4 * ((imgs.length : ℤ) *
          (imgs.length * (imgs.map fun a => a.px r c ^ 2).sum
            - (imgs.map fun a => a.px r c).sum ^ 2)) ≤ (imgs.length : ℤ) ^ 3 * B ^ 2 := by
      intro r hr' c hc
      have := pvar_bounds (F := F) imgs B r c (fun b hb => hr b hb r hr' c hc)
      rw [pvar_id] at this
      simpa [pxs, pow_two, List.map_map, Function.comp_def] using this
    have bd := sum2_bounds (h := h) (w := w) (f := fun r c => 4 * ((imgs.length : ℤ) *
          (imgs.length * (imgs.map fun a => a.px r c ^ 2).sum
            - (imgs.map fun a => a.px r c).sum ^ 2))) (M := (imgs.length : ℤ) ^ 3 * B ^ 2)
      (fun r hr' c hc => ⟨by linarith [(pb r hr' c hc).1], (pb r hr' c hc).2⟩)
    simp only [← mul_sum] at bd
    unfold sumImg
    simp only [← mul_sum]
    apply i64_of_nonneg
    · linarith [bd.1]
    · have e63 : (2 : ℤ) ^ 63 = 9223372036854775808 := by norm_num
      norm_num at he
      rw [e63]
      linarith [bd.2]

/-- a 12-bit series of 100 images is inside the envelope whatever the pixel values -/
example (imgs : List Img) (hl : imgs.length = 100) (r c : ℕ)
    (h : ∀ a ∈ imgs, 0 ≤ a.px r c ∧ a.px r c ≤ 4095) : Fits imgs 4095 r c :=
  ⟨h, by rw [hl]; norm_num⟩

/-- C04, the envelope is needed: two 33-bit images that differ get variance 0. -/
theorem C04_overflow_witness : ∃ a b : Img, a.px 0 0 ≠ b.px 0 0 ∧ 0 ≤ a.px 0 0 ∧ 0 ≤ b.px 0 0 ∧
    (getIntImgs F i64 [a, b]).pvar 0 0 = 0 := by
  refine ⟨⟨1, 1, fun _ _ => 0⟩, ⟨1, 1, fun _ _ => 2 ^ 32⟩, by norm_num, by norm_num, by norm_num, ?_⟩
  rw [pvar_i64, pair_pvar_id]
  norm_num [i64]
  decide

/-- C01: for every series of `L ≥ 2` images and every pixel inside the envelope, the integer
`pvar` is `L² (L - 1)` times the unbiased sample variance of the pixel through the series. -/
theorem C01_pvar_sample_variance (imgs : List Img) (hL : 2 ≤ imgs.length) (B : ℤ) (r c : ℕ)
    (h : Fits imgs B r c) :
    ((getIntImgs F i64 imgs).pvar r c : F)
      = (imgs.length : F) ^ 2 * ((imgs.length : F) - 1)
          * Spec.sampleVar (imgs.map fun a => (a.px r c : F)) := by
  have key := sampleVar_eq (imgs.map fun a => (a.px r c : F)) (by simpa using hL)
  rw [(C04_int64_exact F imgs B r c h).2]
  simp only [List.length_map] at key
  rw [key]
  push_cast
  simp [List.map_map, Function.comp_def, pow_two]

/-- Concrete case: values 1, 2, 6 have sample variance 7 and `pvar = 9 * 2 * 7 = 126`. -/
example : (getIntImgs ℚ i64 [⟨1, 1, fun _ _ => 1⟩, ⟨1, 1, fun _ _ => 2⟩, ⟨1, 1, fun _ _ => 6⟩]).pvar
    0 0 = 126 ∧ Fits [⟨1, 1, fun _ _ => 1⟩, ⟨1, 1, fun _ _ => 2⟩, ⟨1, 1, fun _ _ => 6⟩] 255 0 0 := by
  constructor
  · decide +kernel
  · refine ⟨?_, by norm_num⟩
    simp

/-- C02: `pvar` is never negative and vanishes exactly when the pixel has the same value in every
image of the series. -/
theorem C02_pvar_nonneg (imgs : List Img) (B : ℤ) (r c : ℕ) (h : Fits imgs B r c) :
    0 ≤ (getIntImgs F i64 imgs).pvar r c ∧
    ((getIntImgs F i64 imgs).pvar r c = 0 ↔
      ∀ a ∈ imgs, ∀ b ∈ imgs, a.px r c = b.px r c) := by
  have hex := (C04_int64_exact F imgs B r c h).2
  have hid := pvar_id (F := F) imgs r c
  have he : (getIntImgs F i64 imgs).pvar r c = imgs.length *
      (imgs.length * ((pxs imgs r c).map fun x => x * x).sum - (pxs imgs r c).sum ^ 2) := by
    rw [hex]; simp [pxs, pow_two, List.map_map, Function.comp_def]
  have hl : (pxs imgs r c).length = imgs.length := by simp [pxs]
  have nn := sum_sq_dev_nonneg (pxs imgs r c)
  rw [hl] at nn
  rw [he]
  refine ⟨by positivity, ?_⟩
  rw [mul_eq_zero]
  constructor
  · rintro (h0 | h0)
    · have : imgs = [] := by
        have : imgs.length = 0 := by exact_mod_cast h0
        exact List.length_eq_zero_iff.1 this
      simp [this]
    · have := sum_sq_dev_eq_zero (pxs imgs r c) (by rw [hl]; exact h0)
      intro a ha b hb
      exact this _ (List.mem_map.2 ⟨a, ha, rfl⟩) _ (List.mem_map.2 ⟨b, hb, rfl⟩)
  · intro hall
    right
    have := sum_sq_dev_of_const (pxs imgs r c) (by
      simp only [pxs, List.mem_map]
      rintro _ ⟨a, ha, rfl⟩ _ ⟨b, hb, rfl⟩
      exact hall a ha b hb)
    rw [hl] at this
    exact this

example : (getIntImgs ℚ i64 [⟨1, 1, fun _ _ => 5⟩, ⟨1, 1, fun _ _ => 5⟩]).pvar 0 0 = 0 ∧
    (getIntImgs ℚ i64 [⟨1, 1, fun _ _ => 5⟩, ⟨1, 1, fun _ _ => 6⟩]).pvar 0 0 = 2 := by
  decide +kernel

/-- C03: the per-pixel sum and variance do not depend on the order of the images, for every series
(also outside the envelope, since wrap-around is a ring homomorphism). -/
theorem C03_order_independent (imgs imgs' : List Img) (hp : imgs.Perm imgs') (r c : ℕ) :
    (getIntImgs F i64 imgs).sum r c = (getIntImgs F i64 imgs').sum r c ∧
    (getIntImgs F i64 imgs).pvar r c = (getIntImgs F i64 imgs').pvar r c := by
  have hpx : (pxs imgs r c).Perm (pxs imgs' r c) := hp.map _
  constructor
  · rw [sum_i64, sum_i64, hpx.sum_eq]
  · rw [pvar_i64, pvar_i64, pvar_id, pvar_id, hpx.sum_eq, (hpx.map _).sum_eq, hp.length_eq]

/-- C03: the accumulated drift is the mean of the last image minus the mean of the first one,
whatever lies between. -/
theorem C03_dmean_telescopes (imgs : List Img) (hne : imgs ≠ []) (hsz : ∀ a ∈ imgs, 0 < a.h * a.w)
    (hrange : ∀ a ∈ imgs, ∀ r < a.h, ∀ c < a.w, -2 ^ 63 ≤ a.px r c ∧ a.px r c < 2 ^ 63) :
    (getIntImgs F i64 imgs).dmean = .fin
      (Spec.imgMean (imgs.getLast hne).h (imgs.getLast hne).w
          (fun i j => ((imgs.getLast hne).px i j : F))
        - Spec.imgMean (imgs.head hne).h (imgs.head hne).w
          (fun i j => ((imgs.head hne).px i j : F))) := by
  obtain ⟨a, t, rfl⟩ := List.exists_cons_of_ne_nil hne
  rw [dmean_eq i64 a t hsz]
  have tot : ∀ b ∈ a :: t, ((Img.as64 i64 b).total : F) / ((Img.as64 i64 b).size : F)
      = Spec.imgMean b.h b.w (fun i j => (b.px i j : F)) := by
    intro b hb
    have : (Img.as64 i64 b).total = b.total := by
      refine sum_congr rfl fun i hi => sum_congr rfl fun j hj => ?_
      have := hrange b hb i (mem_range.1 hi) j (mem_range.1 hj)
      exact i64_of_mem this.1 this.2
    rw [this]
    simp [Spec.imgMean, Img.total, Img.as64, Img.size]
  rw [List.getLast_map, tot _ (List.getLast_mem _), tot a (by simp)]
  simp

/-- two images: swapping them changes the sign of `dmean` -/
example : (getIntImgs ℚ i64 [⟨1, 1, fun _ _ => 5⟩, ⟨1, 1, fun _ _ => 100⟩, ⟨1, 1, fun _ _ => 8⟩]).dmean
    = .fin 3 := by decide +kernel

/-- The hypotheses of C05/C06: a pair of `h × w` images with pixel values in `[0, B]` and
`h w B² < 2^62` (a 16-bit camera of up to 2^30 pixels). -/
structure PairOK (h w : ℕ) (B : ℤ) (a b : Img) : Prop where
  pos : 0 < h * w
  ah : a.h = h
  aw : a.w = w
  bh : b.h = h
  bw : b.w = w
  ra : ∀ r < h, ∀ c < w, 0 ≤ a.px r c ∧ a.px r c ≤ B
  rb : ∀ r < h, ∀ c < w, 0 ≤ b.px r c ∧ b.px r c ≤ B
  env : (h : ℤ) * w * B ^ 2 < 2 ^ 62

/-- the three numbers the loader keeps of a pair of images -/
theorem pair_entry (h w : ℕ) (B : ℤ) (a b : Img) (ok : PairOK h w B a b) :
    (temporalEntry F i64 [a, b]).sum = ∑ i ∈ range h, ∑ j ∈ range w, (a.px i j + b.px i j) ∧
    (temporalEntry F i64 [a, b]).pvar = ∑ i ∈ range h, ∑ j ∈ range w, 2 * (a.px i j - b.px i j) ^ 2 ∧
    (temporalEntry F i64 [a, b]).dmean
      = .fin (Spec.imgMean h w (fun i j => (b.px i j : F)) - Spec.imgMean h w (fun i j => (a.px i j : F))) := by
  obtain ⟨hp, ah, aw, bh, bw, ra, rb, env⟩ := ok
  have hne : ((h : F) * w) ≠ 0 := by exact_mod_cast hp.ne'
  obtain ⟨hh0, hw0⟩ := mul_ne_zero_iff.1 hne
  have hpz : (0 : ℤ) < (h : ℤ) * w := by exact_mod_cast hp
  have hB : 0 ≤ B := by
    have hh : 0 < h := Nat.pos_of_mul_pos_right hp
    have hw : 0 < w := Nat.pos_of_mul_pos_left hp
    have := ra 0 hh 0 hw
    omega
  have hB1 : B ≤ B ^ 2 := by nlinarith [mul_self_nonneg (B - 1), mul_nonneg hB hB, Int.le_self_sq B]
  have hB2 : B ^ 2 < 2 ^ 62 := by nlinarith [sq_nonneg B]
  -- pixel fits
  have fits : ∀ r < h, ∀ c < w, Fits [a, b] B r c := by
    intro r hr c hc
    refine ⟨?_, ?_⟩
    · simp only [List.mem_cons, List.not_mem_nil, or_false]
      rintro x (rfl | rfl)
      exacts [ra r hr c hc, rb r hr c hc]
    · norm_num at hB2 ⊢; linarith
  have hd : (getIntImgs F i64 [a, b]).h = h ∧ (getIntImgs F i64 [a, b]).w = w := by
    simp [getIntImgs, ah, aw]
  have hsum : (temporalEntry F i64 [a, b]).sum = ∑ i ∈ range h, ∑ j ∈ range w, (a.px i j + b.px i j) := by
    show sumImg i64 _ _ _ = _
    rw [hd.1, hd.2, sumImg_congr i64 (g := fun i j => a.px i j + b.px i j) (fun r hr c hc => by
      rw [(C04_int64_exact F [a, b] B r c (fits r hr c hc)).1]; simp)]
    have bd := sum2_bounds (h := h) (w := w) (f := fun i j => a.px i j + b.px i j) (M := 2 * B)
      (fun r hr c hc => ⟨by linarith [(ra r hr c hc).1, (rb r hr c hc).1],
        by linarith [(ra r hr c hc).2, (rb r hr c hc).2]⟩)
    apply i64_of_nonneg bd.1
    refine lt_of_le_of_lt bd.2 ?_
    norm_num at env ⊢
    nlinarith
  have hpv : (temporalEntry F i64 [a, b]).pvar
      = ∑ i ∈ range h, ∑ j ∈ range w, 2 * (a.px i j - b.px i j) ^ 2 := by
    show sumImg i64 _ _ _ = _
    rw [hd.1, hd.2, sumImg_congr i64 (g := fun i j => 2 * (a.px i j - b.px i j) ^ 2)
      (fun r hr c hc => by
        rw [(C04_int64_exact F [a, b] B r c (fits r hr c hc)).2]; simp; ring)]
    have bd := sum2_bounds (h := h) (w := w) (f := fun i j => 2 * (a.px i j - b.px i j) ^ 2)
      (M := 2 * B ^ 2)
      (fun r hr c hc => ⟨by positivity, by
        have h1 := ra r hr c hc
        have h2 := rb r hr c hc
        nlinarith⟩)
    apply i64_of_nonneg bd.1
    refine lt_of_le_of_lt bd.2 ?_
    norm_num at env ⊢
    nlinarith
  have hdm : (temporalEntry F i64 [a, b]).dmean
      = .fin (Spec.imgMean h w (fun i j => (b.px i j : F)) - Spec.imgMean h w (fun i j => (a.px i j : F))) := by
    have hBs : B < 2 ^ 63 := by norm_num at hB2 ⊢; linarith
    have := C03_dmean_telescopes F [a, b] (by simp)
      (by
        simp only [List.mem_cons, List.not_mem_nil, or_false]
        rintro x (rfl | rfl) <;> simp [ah, aw, bh, bw] <;>
          exact ⟨Nat.pos_of_mul_pos_right hp, Nat.pos_of_mul_pos_left hp⟩)
      (by
        simp only [List.mem_cons, List.not_mem_nil, or_false]
        rintro x (rfl | rfl) r hr c hc
        · rw [ah] at hr; rw [aw] at hc
          have := ra r hr c hc
          norm_num at hBs ⊢; constructor <;> linarith
        · rw [bh] at hr; rw [bw] at hc
          have := rb r hr c hc
          norm_num at hBs ⊢; constructor <;> linarith)
    simpa [temporalEntry, ah, aw, bh, bw] using this
  exact ⟨hsum, hpv, hdm⟩

/-- C05: for a pair of images the recorded mean is the average of the two image means and the
recorded temporal variance is half the population variance of the difference image. -/
theorem C05_temporal_point (h w : ℕ) (B : ℤ) (a b : Img) (ok : PairOK h w B a b) :
    seriesPoint (h * w) (temporalEntry F i64 [a, b]) =
      (.fin ((Spec.imgMean h w (fun i j => (a.px i j : F))
            + Spec.imgMean h w (fun i j => (b.px i j : F))) / 2),
       .fin (Spec.imgPopVar h w (fun i j => (b.px i j : F) - a.px i j) / 2)) := by
  have hp := ok.pos
  have hne : ((h : F) * w) ≠ 0 := by exact_mod_cast hp.ne'
  obtain ⟨hh0, hw0⟩ := mul_ne_zero_iff.1 hne
  obtain ⟨hsum, hpv, hdm⟩ := pair_entry F h w B a b ok
  simp only [seriesPoint, getTemporalData, hsum, hpv, hdm]
  have h2 : (2 * ((h * w : ℕ) : F)) ≠ 0 := by push_cast; simpa using hne
  have h4 : (4 * ((h * w : ℕ) : F)) ≠ 0 := by push_cast; simpa using hne
  simp only [Fl.fin_mul, Fl.fin_div h2, Fl.fin_div h4, Fl.sq_fin,
    Fl.fin_div (two_ne_zero : (2 : F) ≠ 0), Fl.fin_sub, Prod.mk.injEq, Fl.fin_inj]
  constructor
  · simp only [Spec.imgMean, sum_add_distrib]
    push_cast
    field_simp
  · rw [imgPopVar_eq h w hp, imgMean_sub]
    have : ∀ i j, ((b.px i j : F) - a.px i j) ^ 2 = (a.px i j - b.px i j) ^ 2 := by
      intro i j; ring
    simp only [this]
    push_cast
    simp only [← mul_sum]
    field_simp
    ring

/-- A 1 x 2 pair (10, 20), (14, 22): mean 16.5, difference image (4, 2) of variance 1. -/
example : seriesPoint 2 (temporalEntry ℚ i64
    [⟨1, 2, fun _ j => if j = 0 then 10 else 20⟩, ⟨1, 2, fun _ j => if j = 0 then 14 else 22⟩])
    = (.fin (33 / 2), .fin (1 / 2)) := by decide +kernel

/-- C05, with a given number of pixels `n` in place of the image size: the mean is the sum of the grey values
of both images over `2 n`, the variance half of the sum of the squared differences over `n` minus half of
the squared difference of the two image means (those over all the pixels). -/
theorem C05_given_pixels (h w n : ℕ) (B : ℤ) (a b : Img) (ok : PairOK h w B a b) (hn : 0 < n) :
    seriesPoint n (temporalEntry F i64 [a, b]) =
      (.fin ((∑ i ∈ range h, ∑ j ∈ range w, ((a.px i j : F) + b.px i j)) / (2 * n)),
       .fin ((∑ i ∈ range h, ∑ j ∈ range w, ((b.px i j : F) - a.px i j) ^ 2) / (2 * n)
        - (Spec.imgMean h w (fun i j => (b.px i j : F)) - Spec.imgMean h w (fun i j => (a.px i j : F))) ^ 2 / 2)) := by
  obtain ⟨hsum, hpv, hdm⟩ := pair_entry F h w B a b ok
  have hn0 : (n : F) ≠ 0 := by exact_mod_cast hn.ne'
  simp only [seriesPoint, getTemporalData, hsum, hpv, hdm]
  have h2 : (2 * (n : F)) ≠ 0 := by simpa using hn0
  have h4 : (4 * (n : F)) ≠ 0 := by simpa using hn0
  simp only [Fl.fin_mul, Fl.fin_div h2, Fl.fin_div h4, Fl.sq_fin,
    Fl.fin_div (two_ne_zero : (2 : F) ≠ 0), Fl.fin_sub, Prod.mk.injEq, Fl.fin_inj]
  constructor
  · push_cast; rfl
  · have : ∀ i j, ((b.px i j : F) - a.px i j) ^ 2 = (a.px i j - b.px i j) ^ 2 := by
      intro i j; ring
    simp only [this]
    push_cast
    simp only [← mul_sum]
    field_simp
    ring

/-- C06, what is wrong with a given number of pixels: the variance depends on a drift of the light source.
Two images without noise, the second one brighter by 4 everywhere, evaluated with half of the pixels, have the
temporal variance 8. -/
theorem C06_given_pixels_counterexample :
    (seriesPoint 1 (temporalEntry ℚ i64 [⟨1, 2, fun _ _ => 10⟩, ⟨1, 2, fun _ _ => 10⟩])).2 = .fin 0 ∧
    (seriesPoint 1 (temporalEntry ℚ i64 [⟨1, 2, fun _ _ => 10⟩, ⟨1, 2, fun _ _ => 14⟩])).2 = .fin 8 := by
  decide +kernel

/-- C05: the recorded temporal variance is a finite number and never negative. -/
theorem C05_temporal_variance_nonneg (h w : ℕ) (B : ℤ) (a b : Img) (ok : PairOK h w B a b) :
    ∃ v : F, 0 ≤ v ∧ (seriesPoint (h * w) (temporalEntry F i64 [a, b])).2 = .fin v := by
  rw [C05_temporal_point F h w B a b ok]
  refine ⟨_, ?_, rfl⟩
  unfold Spec.imgPopVar
  have : 0 ≤ ∑ i ∈ range h, ∑ j ∈ range w, (((b.px i j : F) - a.px i j)
      - Spec.imgMean h w (fun i j => (b.px i j : F) - a.px i j)) ^ 2 :=
    sum_nonneg fun i _ => sum_nonneg fun j _ => sq_nonneg _
  positivity

/-- `img` with `k` added to every pixel. -/
def shifted (k : ℤ) (a : Img) : Img := { a with px := fun i j => a.px i j + k }

/-- C06: shifting every pixel of the images of the pair by a constant each (a drift of the light
source or of the offset between the two exposures) leaves the temporal variance unchanged. -/
theorem C06_drift_invariant (h w : ℕ) (B k l : ℤ) (a b : Img) (ok : PairOK h w B a b)
    (ok' : PairOK h w B (shifted k a) (shifted l b)) :
    (seriesPoint (h * w) (temporalEntry F i64 [shifted k a, shifted l b])).2
      = (seriesPoint (h * w) (temporalEntry F i64 [a, b])).2 := by
  rw [C05_temporal_point F h w B _ _ ok, C05_temporal_point F h w B _ _ ok']
  simp only [Fl.fin_inj]
  congr 1
  have hne : ((h : F) * w) ≠ 0 := by exact_mod_cast ok.pos.ne'
  obtain ⟨hh0, hw0⟩ := mul_ne_zero_iff.1 hne
  have e : (fun i j => (((shifted l b).px i j : ℤ) : F) - (shifted k a).px i j)
      = fun i j => ((b.px i j : F) - a.px i j) + (l - k) := by
    funext i j
    simp only [shifted]
    push_cast
    ring
  rw [e]
  have hm : Spec.imgMean h w (fun i j => ((b.px i j : F) - a.px i j) + ((l : F) - k))
      = Spec.imgMean h w (fun i j => (b.px i j : F) - a.px i j) + (l - k) := by
    simp only [Spec.imgMean, sum_add_distrib, sum_const, card_range, nsmul_eq_mul]
    field_simp
  unfold Spec.imgPopVar
  rw [hm]
  congr 1
  refine sum_congr rfl fun i _ => sum_congr rfl fun j _ => ?_
  ring

/-- C06: exchanging the two images changes neither the mean nor the variance. -/
theorem C06_swap_invariant (h w : ℕ) (B : ℤ) (a b : Img) (ok : PairOK h w B a b) :
    seriesPoint (h * w) (temporalEntry F i64 [b, a])
      = seriesPoint (h * w) (temporalEntry F i64 [a, b]) := by
  have ok' : PairOK h w B b a := ⟨ok.pos, ok.bh, ok.bw, ok.ah, ok.aw, ok.rb, ok.ra, ok.env⟩
  rw [C05_temporal_point F h w B _ _ ok, C05_temporal_point F h w B _ _ ok']
  simp only [Prod.mk.injEq, Fl.fin_inj]
  refine ⟨by ring, ?_⟩
  congr 1
  unfold Spec.imgPopVar
  rw [imgMean_sub, imgMean_sub]
  congr 1
  refine sum_congr rfl fun i _ => sum_congr rfl fun j _ => ?_
  ring

/-- the hypotheses are met by a 1 x 2 pair with a drift of 3 -/
example : PairOK 1 2 255 ⟨1, 2, fun _ j => 10 * j⟩ ⟨1, 2, fun _ j => 10 * j + 3⟩ := by
  refine ⟨by norm_num, rfl, rfl, rfl, rfl, ?_, ?_, by norm_num⟩ <;>
  · intro r _ c hc
    have : (c : ℤ) < 2 := by exact_mod_cast hc
    constructor <;> dsimp only <;> omega

end Emva
