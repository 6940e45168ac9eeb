import Verif.Lemmas.HighPass
import Verif.Py.Fl

/-!
C38, C39: the high-pass filter.
-/
set_option autoImplicit false
namespace Emva
open Spec Routines

/-- C38: unmasked image, odd `dim >= 3`: the result is `(rows-dim+1) x (cols-dim+1)` (empty if the image
is smaller than the window), not masked, and each value divided by the multiplicator is the pixel minus
the mean of its `dim x dim` window - a window lying inside the image. -/
theorem C38_mean_removed (F : Type) [Field F] [LinearOrder F] [IsStrictOrderedRing F]
    (a : Img) (dim s : ℕ) (hs : 1 ≤ s) (hd : dim = 2 * s + 1) :
    ∃ r : Filtered, ∃ m : ℤ, highPass (.plain a) dim = .ok r ∧ r.multiplicator = some m ∧
      m = (dim : ℤ) ^ 2 ∧ r.img.mask = none ∧
      r.img.h = a.h + 1 - dim ∧ r.img.w = a.w + 1 - dim ∧
      ∀ i < r.img.h, ∀ j < r.img.w, i + dim ≤ a.h ∧ j + dim ≤ a.w ∧
        r.img.px i j = m * a.px (i + s) (j + s) - winSum dim a.px i j ∧
        ((r.img.px i j : F) / m = a.px (i + s) (j + s) - (winSum dim a.px i j : F) / (dim : F) ^ 2) := by
  subst hd
  have h2 : (2 * s + 1) / 2 = s := by omega
  refine ⟨_, _, by unfold highPass; rw [if_neg (by omega)]; rfl, rfl, by ring, rfl, ?_, ?_, ?_⟩
  · simp only [cut, cutLen, h2, MImg.plain]; rw [if_neg (by omega)]; omega
  · simp only [cut, cutLen, h2, MImg.plain]; rw [if_neg (by omega)]; omega
  · intro i hi j hj
    simp only [cut, cutLen, h2, MImg.plain] at hi hj ⊢
    rw [if_neg (by omega)] at hi hj
    have e := highPass_inside a.h a.w a.px s (((2 * s + 1 : ℕ) : ℤ) ^ 2 - 1) i j (by omega) (by omega)
    refine ⟨by omega, by omega, e, ?_⟩
    rw [e]
    push_cast
    have : (2 * (s : F) + 1) ≠ 0 := by positivity
    field_simp
    ring

/-- C38: the filter is linear. -/
theorem C38_linear (h w : ℕ) (f g : ℕ → ℕ → ℤ) (c : ℤ) (dim s : ℕ) (hs : 1 ≤ s) (hd : dim = 2 * s + 1)
    (rf rg r : Filtered)
    (hf : highPass (.plain ⟨h, w, f⟩) dim = .ok rf) (hg : highPass (.plain ⟨h, w, g⟩) dim = .ok rg)
    (hr : highPass (.plain ⟨h, w, fun i j => c * f i j + g i j⟩) dim = .ok r) :
    ∀ i < r.img.h, ∀ j < r.img.w, r.img.px i j = c * rf.img.px i j + rg.img.px i j := by
  obtain ⟨r1, m1, e1, a1, b1, -, c1, d1, p1⟩ := C38_mean_removed ℚ ⟨h, w, f⟩ dim s hs hd
  obtain ⟨r2, m2, e2, a2, b2, -, c2, d2, p2⟩ := C38_mean_removed ℚ ⟨h, w, g⟩ dim s hs hd
  obtain ⟨r3, m3, e3, a3, b3, -, c3, d3, p3⟩ :=
    C38_mean_removed ℚ ⟨h, w, fun i j => c * f i j + g i j⟩ dim s hs hd
  rw [hf] at e1; rw [hg] at e2; rw [hr] at e3
  cases e1; cases e2; cases e3
  intro i hi j hj
  have hi' : i < h + 1 - dim := c3 ▸ hi
  have hj' : j < w + 1 - dim := d3 ▸ hj
  have q1 := (p1 i (by rw [c1]; exact hi') j (by rw [d1]; exact hj')).2.2.1
  have q2 := (p2 i (by rw [c2]; exact hi') j (by rw [d2]; exact hj')).2.2.1
  have q3 := (p3 i hi j hj).2.2.1
  rw [q1, q2, q3]
  simp only
  rw [winSum_add, winSum_smul, b1, b2, b3]
  ring

/-- C38: adding a constant and two gradients (any plane `p + u*i + v*j`) does not change the
result. -/
theorem C38_plane (a : Img) (p u v : ℤ) (dim s : ℕ) (hs : 1 ≤ s) (hd : dim = 2 * s + 1)
    (r r' : Filtered) (hr : highPass (.plain a) dim = .ok r)
    (hr' : highPass (.plain ⟨a.h, a.w, fun i j => a.px i j + (p + u * i + v * j)⟩) dim = .ok r') :
    r'.img.h = r.img.h ∧ r'.img.w = r.img.w ∧
      ∀ i < r.img.h, ∀ j < r.img.w, r'.img.px i j = r.img.px i j := by
  obtain ⟨r1, m1, e1, a1, b1, -, c1, d1, p1⟩ := C38_mean_removed ℚ a dim s hs hd
  obtain ⟨r2, m2, e2, a2, b2, -, c2, d2, p2⟩ :=
    C38_mean_removed ℚ ⟨a.h, a.w, fun i j => a.px i j + (p + u * i + v * j)⟩ dim s hs hd
  rw [hr] at e1; rw [hr'] at e2
  cases e1; cases e2
  refine ⟨by rw [c1, c2], by rw [d1, d2], fun i hi j hj => ?_⟩
  have q1 := (p1 i hi j hj).2.2.1
  have q2 := (p2 i (by rw [c2, ← c1]; exact hi) j (by rw [d2, ← d1]; exact hj)).2.2.1
  rw [q1, q2]
  simp only
  have e : winSum dim (fun i j => a.px i j + (p + u * (i : ℤ) + v * (j : ℤ))) i j
      = winSum dim a.px i j + ((dim : ℤ) ^ 2 * p + u * ((dim : ℤ) ^ 2 * (i + s : ℕ))
        + v * ((dim : ℤ) ^ 2 * (j + s : ℕ))) := by
    rw [winSum_add dim a.px fun i j => p + u * (i : ℤ) + v * (j : ℤ),
      winSum_add dim (fun i _ => p + u * (i : ℤ)) fun _ j => v * (j : ℤ),
      winSum_add dim (fun _ _ => p) fun i _ => u * (i : ℤ),
      winSum_smul dim u fun i _ => (i : ℤ), winSum_smul dim v fun _ j => (j : ℤ), winSum_const]
    subst hd
    rw [winSum_row, winSum_col]
    push_cast; ring
  rw [e, b1, b2]
  ring

/-- C38: a plain image is rejected (`ValueError`) exactly for an even size of the kernel. -/
theorem C38_rejected (img : MImg) (dim : ℕ) (e : PyErr) :
    (dim % 2 = 0 → (Routines.highPass img dim = .error e ↔ e = .valueError)) ∧
    (dim % 2 = 1 → img.mask = none → Routines.highPass img dim ≠ .error e) := by
  constructor
  · intro h; simp [Routines.highPass, h, eq_comm]
  · intro h hm h'
    unfold Routines.highPass at h'
    rw [if_neg (by omega), hm] at h'
    cases h'

/-- C38: `dim = 1` gives an empty image whatever the input. -/
theorem C38_one (a : Img) : ∃ r, highPass (.plain a) 1 = .ok r ∧ r.img.h = 0 ∧ r.img.w = 0 := by
  refine ⟨_, by unfold highPass; rw [if_neg (by omega)]; rfl, ?_, ?_⟩ <;> simp [cut, cutLen]

/-! ### C39: masked images -/

/-- interior unmasked position -/
def Spec.InnerUnmasked (h w dim s : ℕ) (m : ℕ → ℕ → Bool) (i j : ℕ) : Prop :=
  i + dim ≤ h ∧ j + dim ≤ w ∧ m (i + s) (j + s) = false

namespace Routines

/-- counts below the kernel at the unmasked interior positions -/
def innerCounts (img : MImg) (m : ℕ → ℕ → Bool) (dim : ℕ) : List (ℤ × Bool) :=
  (cut (dim / 2) ⟨img.h, img.w,
    convolve img.h img.w (fun i j => if m i j then 0 else 1) dim fun _ _ => 1, some m⟩).ravel

theorem highPass_masked (img : MImg) (m : ℕ → ℕ → Bool) (hm : img.mask = some m) (dim : ℕ)
    (hd : dim % 2 = 1) : highPass img dim =
      if innerCounts img m dim = [] then .error .valueError
      else match maxZ (((innerCounts img m dim).filter fun p => !p.2).map Prod.fst),
          minZ (((innerCounts img m dim).filter fun p => !p.2).map Prod.fst) with
        | some hi, some lo =>
          if hi ≠ lo then .error .valueError
          else .ok ⟨cut (dim / 2) ⟨img.h, img.w,
            convolve img.h img.w img.filled0 dim (hpKernel (dim / 2) (hi - 1)), some m⟩, some (hi - 1 + 1)⟩
        | _, _ => .ok ⟨cut (dim / 2) ⟨img.h, img.w, fun _ _ => 0, some m⟩, none⟩ := by
  unfold highPass
  rw [if_neg (by omega)]
  simp only [hm]
  rfl

theorem mem_innerCounts (img : MImg) (m : ℕ → ℕ → Bool) (s : ℕ) (hs : 1 ≤ s) (c : ℤ) :
    c ∈ ((innerCounts img m (2 * s + 1)).filter fun p => !p.2).map Prod.fst ↔
      ∃ i j, InnerUnmasked img.h img.w (2 * s + 1) s m i j ∧ c = winCount (2 * s + 1) m i j := by
  have h2 : (2 * s + 1) / 2 = s := by omega
  simp only [List.mem_map, List.mem_filter, innerCounts, mem_ravel, h2, cut, cutLen]
  rw [if_neg (by omega)]
  constructor
  · rintro ⟨p, ⟨⟨i, hi, j, hj, rfl⟩, hp⟩, rfl⟩
    rw [if_neg (by omega)] at hj
    refine ⟨i, j, ⟨by omega, by omega, by simpa [MImg.masked] using hp⟩, ?_⟩
    exact count_inside _ _ _ _ _ _ (by omega) (by omega)
  · rintro ⟨i, j, ⟨hi, hj, hp⟩, rfl⟩
    refine ⟨(winCount (2 * s + 1) m i j, false), ⟨⟨i, by omega, j, ?_, ?_⟩, rfl⟩, rfl⟩
    · rw [if_neg (by omega)]; omega
    · rw [count_inside _ _ _ _ _ _ (by omega) (by omega)]
      simp [MImg.masked, hp]

end Routines

/-- C39: if all unmasked interior pixels (at least one) have the same number `n` of unmasked pixels in
their window, the filter accepts the image; the multiplicator is `n`, the mask is kept, and at every
unmasked interior pixel the value divided by `n` is the pixel minus the mean of the unmasked pixels of
its window.  Masked values do not enter. -/
theorem C39_masked (F : Type) [Field F] [LinearOrder F] [IsStrictOrderedRing F]
    (img : MImg) (m : ℕ → ℕ → Bool) (hm : img.mask = some m) (dim s : ℕ) (hs : 1 ≤ s)
    (hd : dim = 2 * s + 1) (n : ℤ)
    (hall : ∀ i j, InnerUnmasked img.h img.w dim s m i j → winCount dim m i j = n)
    (hone : ∃ i j, InnerUnmasked img.h img.w dim s m i j) :
    ∃ r, highPass img dim = .ok r ∧ r.multiplicator = some n ∧ 0 < n ∧
      r.img.h = img.h + 1 - dim ∧ r.img.w = img.w + 1 - dim ∧
      ∀ i < r.img.h, ∀ j < r.img.w, r.img.masked i j = m (i + s) (j + s) ∧
        (m (i + s) (j + s) = false →
          r.img.px i j = n * img.px (i + s) (j + s) - winSumUnmasked dim m img.px i j ∧
          (r.img.px i j : F) / n = img.px (i + s) (j + s) -
            (winSumUnmasked dim m img.px i j : F) / (winCount dim m i j : F)) := by
  subst hd
  have h2 : (2 * s + 1) / 2 = s := by omega
  obtain ⟨i0, j0, h0⟩ := hone
  have hmem := mem_innerCounts img m s hs
  have hin : n ∈ ((innerCounts img m (2 * s + 1)).filter fun p => !p.2).map Prod.fst :=
    (hmem n).2 ⟨i0, j0, h0, (hall i0 j0 h0).symm⟩
  have hmax : IsMax (((innerCounts img m (2 * s + 1)).filter fun p => !p.2).map Prod.fst) n :=
    ⟨hin, fun v hv => by obtain ⟨i, j, h, rfl⟩ := (hmem v).1 hv; rw [hall i j h]⟩
  have hmin : IsMin (((innerCounts img m (2 * s + 1)).filter fun p => !p.2).map Prod.fst) n :=
    ⟨hin, fun v hv => by obtain ⟨i, j, h, rfl⟩ := (hmem v).1 hv; rw [hall i j h]⟩
  have hne : innerCounts img m (2 * s + 1) ≠ [] := by
    intro h; rw [h] at hin; simp at hin
  have hpos : 0 < n := by
    rw [← hall i0 j0 h0, winCount, winSum]
    refine Finset.sum_pos' (fun a _ => Finset.sum_nonneg fun b _ => by split <;> simp)
      ⟨s, Finset.mem_range.2 (by omega), ?_⟩
    refine Finset.sum_pos' (fun b _ => by split <;> simp) ⟨s, Finset.mem_range.2 (by omega), ?_⟩
    rw [h0.2.2]; simp
  have hv := highPass_masked img m hm (2 * s + 1) (by omega)
  rw [if_neg hne, maxZ_of hmax, minZ_of hmin] at hv
  simp only [ne_eq, not_true_eq_false, if_false] at hv
  refine ⟨_, hv, by simp, hpos, ?_, ?_, ?_⟩
  · simp only [cut, cutLen, h2]; rw [if_neg (by omega)]; omega
  · simp only [cut, cutLen, h2]; rw [if_neg (by omega)]; omega
  · intro i hi j hj
    simp only [cut, cutLen, h2] at hi hj ⊢
    rw [if_neg (by omega)] at hi hj
    refine ⟨rfl, fun hu => ?_⟩
    have hIU : InnerUnmasked img.h img.w (2 * s + 1) s m i j := ⟨by omega, by omega, hu⟩
    have e := highPass_inside img.h img.w img.filled0 s (n - 1) i j (by omega) (by omega)
    have ef : winSum (2 * s + 1) img.filled0 i j = winSumUnmasked (2 * s + 1) m img.px i j := by
      simp [winSumUnmasked, winSum, MImg.filled0, MImg.masked, hm]
    have ec : img.filled0 (i + s) (j + s) = img.px (i + s) (j + s) := by
      simp [MImg.filled0, MImg.masked, hm, hu]
    rw [ef, ec, sub_add_cancel] at e
    refine ⟨e, ?_⟩
    rw [hall i j hIU, e]
    have : (n : F) ≠ 0 := by exact_mod_cast hpos.ne'
    push_cast
    field_simp

/-- C39: two unmasked interior pixels with different counts: `ValueError`. -/
theorem C39_irregular (img : MImg) (m : ℕ → ℕ → Bool) (hm : img.mask = some m) (dim s : ℕ) (hs : 1 ≤ s)
    (hd : dim = 2 * s + 1) (i j i' j' : ℕ) (h : InnerUnmasked img.h img.w dim s m i j)
    (h' : InnerUnmasked img.h img.w dim s m i' j') (hne : winCount dim m i j ≠ winCount dim m i' j') :
    highPass img dim = .error .valueError := by
  subst hd
  have hmem := mem_innerCounts img m s hs
  have m1 := (hmem _).2 ⟨i, j, h, rfl⟩
  have m2 := (hmem _).2 ⟨i', j', h', rfl⟩
  have hn : ((innerCounts img m (2 * s + 1)).filter fun p => !p.2).map Prod.fst ≠ [] :=
    List.ne_nil_of_mem m1
  obtain ⟨lo, hlo⟩ := exists_isMin hn
  obtain ⟨hi, hhi⟩ := exists_isMax hn
  have hne' : innerCounts img m (2 * s + 1) ≠ [] := by
    intro e; rw [e] at hn; simp at hn
  rw [highPass_masked img m hm (2 * s + 1) (by omega), if_neg hne', maxZ_of hhi, minZ_of hlo]
  simp only
  rw [if_pos]
  rintro rfl
  have a1 := hlo.2 _ m1
  have a2 := hlo.2 _ m2
  have b1 := hhi.2 _ m1
  have b2 := hhi.2 _ m2
  omega

/-- C39: the green pixels of a Bayer pattern (every second pixel, checkerboard) are accepted for every
odd `dim >= 3` and every image the window fits in with a green centre; the multiplicator is
`(dim^2+1)/2`, 13 for `dim = 5`. -/
theorem C39_bayer_green (img : MImg) (hm : img.mask = some fun i j => decide ((i + j) % 2 = 1))
    (dim s : ℕ) (hs : 1 ≤ s) (hd : dim = 2 * s + 1) (hh : dim ≤ img.h) (hw : dim ≤ img.w) :
    ∃ r, highPass img dim = .ok r ∧ r.multiplicator = some (((s : ℤ) + 1) ^ 2 + (s : ℤ) ^ 2) := by
  have hall : ∀ i j, InnerUnmasked img.h img.w dim s (fun i j => decide ((i + j) % 2 = 1)) i j →
      winCount dim (fun i j => decide ((i + j) % 2 = 1)) i j = ((s : ℤ) + 1) ^ 2 + (s : ℤ) ^ 2 := by
    rintro i j ⟨-, -, hu⟩
    have hij : (i + j) % 2 = 0 := by
      simp only [decide_eq_false_iff_not] at hu; omega
    subst hd
    have e : ∀ a, (∑ b ∈ Finset.range (2 * s + 1),
        if decide ((i + a + (j + b)) % 2 = 1) = true then (0 : ℤ) else 1)
        = if (0 + a) % 2 = 0 then (s : ℤ) + 1 else s := by
      intro a
      have := parity_count s (i + a + j)
      rw [show (i + a + j) % 2 = (0 + a) % 2 by omega] at this
      rw [← this]
      refine Finset.sum_congr rfl fun b _ => ?_
      by_cases hb : (i + a + (j + b)) % 2 = 1
      · rw [if_pos (by simpa using hb), if_neg (by omega)]
      · rw [if_neg (by simpa using hb), if_pos (by omega)]
    have e2 : ∀ a, (if (0 + a) % 2 = 0 then (s : ℤ) + 1 else s)
        = s + if (0 + a) % 2 = 0 then 1 else 0 := by intro a; split <;> ring
    have e3 := parity_count s 0
    simp only [winCount, winSum, e, e2, Finset.sum_add_distrib, e3]
    simp
    ring
  obtain ⟨r, h1, h2, -⟩ := C39_masked ℚ img _ hm dim s hs hd _ hall
    ⟨0, 0, by omega, by omega, by simp; omega⟩
  exact ⟨r, h1, h2⟩

/-- C39: a single Bayer colour (one pixel out of each 2 x 2 cell) is accepted as well. -/
theorem C39_bayer_single (img : MImg)
    (hm : img.mask = some fun i j => !(decide (i % 2 = 0) && decide (j % 2 = 0)))
    (dim s : ℕ) (hs : 1 ≤ s) (hd : dim = 2 * s + 1) (hh : dim + 1 ≤ img.h) (hw : dim + 1 ≤ img.w) :
    ∃ r, highPass img dim = .ok r ∧
      r.multiplicator = some ((if s % 2 = 0 then (s : ℤ) + 1 else s) ^ 2) := by
  have hall : ∀ i j, InnerUnmasked img.h img.w dim s
      (fun i j => !(decide (i % 2 = 0) && decide (j % 2 = 0))) i j →
      winCount dim (fun i j => !(decide (i % 2 = 0) && decide (j % 2 = 0))) i j
        = (if s % 2 = 0 then (s : ℤ) + 1 else s) ^ 2 := by
    rintro i j ⟨-, -, hu⟩
    have hij : (i + s) % 2 = 0 ∧ (j + s) % 2 = 0 := by simpa using hu
    subst hd
    have e : ∀ a b, (if (!(decide ((i + a) % 2 = 0) && decide ((j + b) % 2 = 0))) = true then (0 : ℤ) else 1)
        = (if (i + a) % 2 = 0 then 1 else 0) * (if (j + b) % 2 = 0 then 1 else 0) := by
      intro a b
      by_cases h1 : (i + a) % 2 = 0 <;> by_cases h2 : (j + b) % 2 = 0 <;> simp [h1, h2]
    simp only [winCount, winSum, e, ← Finset.mul_sum, ← Finset.sum_mul, parity_count]
    rw [show i % 2 = s % 2 by omega, show j % 2 = s % 2 by omega]
    ring
  have hone : ∃ i j, InnerUnmasked img.h img.w dim s
      (fun i j => !(decide (i % 2 = 0) && decide (j % 2 = 0))) i j := by
    rcases Nat.mod_two_eq_zero_or_one s with h | h
    · exact ⟨0, 0, by omega, by omega, by simp; omega⟩
    · exact ⟨1, 1, by omega, by omega, by simp; omega⟩
  obtain ⟨r, h1, h2, -⟩ := C39_masked ℚ img _ hm dim s hs hd _ hall hone
  exact ⟨r, h1, h2⟩

/-! ### cases meeting the hypotheses -/

/-- a 3 x 4 image with one bright pixel -/
def sampleHp : Img := ⟨3, 4, fun i j => if i = 1 ∧ j = 2 then 9 else 0⟩

example : (highPass (.plain sampleHp) 3).toOption.map (fun r => (r.img.ravel, r.multiplicator))
    = some ([(-9, false), (72, false)], some 9) := by decide +kernel

/-- a checkerboard-masked 5 x 5 image -/
def sampleGreen : MImg := ⟨5, 5, fun i j => 10 * i + j, some fun i j => decide ((i + j) % 2 = 1)⟩

example : (highPass sampleGreen 5).toOption.map (fun r => (r.img.ravel, r.multiplicator))
    = some ([(0, false)], some 13) := by decide +kernel

/-- two masked pixels only: irregular -/
example : raised (highPass { sampleGreen with mask := some fun i j => decide (i = 0 ∧ j < 1) } 3)
    = some .valueError := by decide +kernel

end Emva
