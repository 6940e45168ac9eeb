import Verif.Lemmas.FFT
import Verif.Props.C40
import Mathlib.Algebra.Order.BigOperators.Ring.Finset
import Mathlib.Tactic.Positivity
import Mathlib.Tactic.Linarith

/-!
C41, C42: the spectrogram and its frequency axis.
-/
set_option autoImplicit false
namespace Emva
open Routines Finset

/-- the sum of squared deviations of the pixels from the image mean, divided by the number of rows and
by `n^2` -/
noncomputable def Spec.rowEnergy (a : Img) (n : ℕ) : ℝ :=
  (∑ i ∈ range a.h, ∑ j ∈ range a.w,
    ((a.px i j : ℝ) - (∑ i ∈ range a.h, ∑ j ∈ range a.w, (a.px i j : ℝ)) / (a.h * a.w)) ^ 2)
    / a.h / n ^ 2

namespace Routines

theorem rowPower_eq (a : Img) (i k : ℕ) :
    rowPower a i k = Complex.normSq (dft a.w (fun j => (a.px i j : ℝ) - meanR a) k) / a.w := by
  have hs : (Real.sqrt a.w : ℝ) * Real.sqrt a.w = a.w := Real.mul_self_sqrt (Nat.cast_nonneg _)
  simp only [rowPower]
  rw [Complex.mul_conj, Complex.ofReal_re, map_div₀, Complex.normSq_ofReal, hs]

theorem rowPower_nonneg (a : Img) (i k : ℕ) : 0 ≤ rowPower a i k := by
  rw [rowPower_eq]; exact div_nonneg (Complex.normSq_nonneg _) (Nat.cast_nonneg _)

theorem rowPower_mirror (a : Img) (i k : ℕ) (hk : k ≤ a.w) (hw : a.w ≠ 0) :
    rowPower a i (a.w - k) = rowPower a i k := by
  rw [rowPower_eq, rowPower_eq, dft_mirror _ _ _ hk hw, Complex.normSq_conj]

theorem rowPower_sum (a : Img) (i : ℕ) (hw : a.w ≠ 0) :
    ∑ k ∈ range a.w, rowPower a i k = ∑ j ∈ range a.w, ((a.px i j : ℝ) - meanR a) ^ 2 := by
  have hp := parseval a.w hw fun j => (a.px i j : ℝ) - meanR a
  have hw' : (a.w : ℝ) ≠ 0 := by exact_mod_cast hw
  simp only [rowPower_eq]
  rw [← sum_div, div_eq_iff hw']
  simp only [Complex.mul_conj] at hp
  have hp' : ((∑ k ∈ range a.w, Complex.normSq (dft a.w (fun j => (a.px i j : ℝ) - meanR a) k) : ℝ) : ℂ)
      = ((a.w * ∑ j ∈ range a.w, ((a.px i j : ℝ) - meanR a) ^ 2 : ℝ) : ℂ) := by
    push_cast at hp ⊢
    exact hp
  rw [Complex.ofReal_inj.1 hp', mul_comm]

/-- the value of one entry -/
noncomputable def powerR (a : Img) (n k : ℕ) : ℝ := (∑ i ∈ range a.h, rowPower a i k) / a.h / n ^ 2

theorem power_fin (a : Img) (n k : ℕ) (hh : a.h ≠ 0) (hn : n ≠ 0) : power a n k = .fin (powerR a n k) := by
  unfold power powerR
  rw [Fl.fin_div (by exact_mod_cast hh), Fl.fin_div (by positivity)]

theorem powerR_nonneg (a : Img) (n k : ℕ) : 0 ≤ powerR a n k :=
  div_nonneg (div_nonneg (sum_nonneg fun i _ => rowPower_nonneg a i k) (Nat.cast_nonneg _)) (by positivity)

theorem powerR_mirror (a : Img) (n k : ℕ) (hk : k ≤ a.w) (hw : a.w ≠ 0) :
    powerR a n (a.w - k) = powerR a n k := by
  unfold powerR
  congr 2
  exact sum_congr rfl fun i _ => rowPower_mirror a i k hk hw

theorem meanR_eq (a : Img) :
    meanR a = (∑ i ∈ range a.h, ∑ j ∈ range a.w, (a.px i j : ℝ)) / (a.h * a.w) := by
  unfold meanR Img.total Img.size
  push_cast
  rfl

theorem powerR_sum (a : Img) (n : ℕ) (hw : a.w ≠ 0) :
    ∑ k ∈ range a.w, powerR a n k = Spec.rowEnergy a n := by
  unfold powerR Spec.rowEnergy
  rw [← sum_div, ← sum_div, sum_comm]
  congr 2
  refine sum_congr rfl fun i _ => ?_
  rw [rowPower_sum a i hw, meanR_eq]

theorem dft_congr (n : ℕ) (x y : ℕ → ℝ) (h : ∀ j < n, x j = y j) (k : ℕ) : dft n x k = dft n y k :=
  sum_congr rfl fun j hj => by rw [h j (mem_range.1 hj)]

/-- only the pixels inside the image matter -/
theorem fftPlain_congr (a b : Img) (hh : a.h = b.h) (hw : a.w = b.w)
    (h : ∀ i < a.h, ∀ j < a.w, a.px i j = b.px i j) (n : ℕ) : fftPlain a n = fftPlain b n := by
  have hm : meanR a = meanR b := by
    rw [meanR_eq, meanR_eq, ← hh, ← hw]
    congr 1
    refine sum_congr rfl fun i hi => sum_congr rfl fun j hj => ?_
    rw [h i (mem_range.1 hi) j (mem_range.1 hj)]
  have hp : power a n = power b n := by
    funext k
    unfold power
    rw [← hh]
    congr 3
    refine sum_congr rfl fun i hi => ?_
    rw [rowPower_eq, rowPower_eq, ← hw, hm]
    congr 2
    exact dft_congr _ _ _ (fun j hj => by rw [h i (mem_range.1 hi) j hj]) k
  unfold fftPlain
  rw [← hw, hp]

end Routines

/-- C41: for every image with pixels, rotated or not, and `n >= 1`: the result has `cols//2+1`
non-negative entries; entry `k` stands for the full spectrum at `k` and at `cols-k`, and summed over
the full spectrum the entries give the energy of the mean-free image per row, divided by `n^2`. -/
theorem C41_spectrum (a : Img) (rotate : Bool) (n : ℕ) (hn : n ≠ 0) (b : Img)
    (hb : b = if rotate then ⟨a.w, a.h, fun i j => a.px j i⟩ else a) (hh : b.h ≠ 0) (hw : b.w ≠ 0) :
    ∃ s : List ℝ, fft1288 a rotate n = .ok (s.map .fin) ∧ s.length = b.w / 2 + 1 ∧ (∀ v ∈ s, 0 ≤ v) ∧
      (∀ k, b.w / 2 + 1 ≤ k → k < b.w → power b n k = .fin (s.getD (b.w - k) 0)) ∧
      ∑ k ∈ range b.w, s.getD (min k (b.w - k)) 0 = Spec.rowEnergy b n := by
  have hfft : fft1288 a rotate n = fftPlain b n := by rw [hb]; rfl
  have hget : ∀ k, k ≤ b.w / 2 → ((List.range (b.w / 2 + 1)).map (powerR b n)).getD k 0 = powerR b n k := by
    intro k hk
    rw [List.getD_eq_getElem?_getD, List.getElem?_map, List.getElem?_range (by omega)]; rfl
  refine ⟨(List.range (b.w / 2 + 1)).map (powerR b n), ?_, by simp, ?_, ?_, ?_⟩
  · rw [hfft, fftPlain, if_neg hw, List.map_map]
    congr 1
    exact List.map_congr_left fun k _ => power_fin b n k hh hn
  · intro v hv
    obtain ⟨k, -, rfl⟩ := List.mem_map.1 hv
    exact powerR_nonneg b n k
  · intro k h1 h2
    rw [hget _ (by omega), power_fin b n k hh hn, powerR_mirror b n k (by omega) hw]
  · rw [← powerR_sum b n hw]
    refine sum_congr rfl fun k hk => ?_
    have hk' := mem_range.1 hk
    rw [hget _ (by omega)]
    rcases Nat.le_total k (b.w - k) with h | h
    · rw [min_eq_left h]
    · rw [min_eq_right h, powerR_mirror b n k (by omega) hw]

/-- C41: adding a constant to every pixel does not change the spectrum. -/
theorem C41_constant (a : Img) (c : ℤ) (rotate : Bool) (n : ℕ) :
    fft1288 ⟨a.h, a.w, fun i j => a.px i j + c⟩ rotate n = fft1288 a rotate n := by
  have key : ∀ (a : Img), fftPlain ⟨a.h, a.w, fun i j => a.px i j + c⟩ n = fftPlain a n := by
    intro a
    unfold fftPlain
    by_cases hw : a.w = 0
    · rw [if_pos hw, if_pos hw]
    rw [if_neg hw, if_neg hw]
    by_cases hh : a.h = 0
    · congr 2
      funext k
      simp [power, hh]
    have hm : meanR ⟨a.h, a.w, fun i j => a.px i j + c⟩ = meanR a + c := by
      rw [meanR_eq, meanR_eq]
      have h1 : (a.h : ℝ) ≠ 0 := by exact_mod_cast hh
      have h2 : (a.w : ℝ) ≠ 0 := by exact_mod_cast hw
      simp only [Int.cast_add, sum_add_distrib, sum_const, card_range, nsmul_eq_mul]
      field_simp
    congr 2
    funext k
    unfold power
    congr 3
    refine sum_congr rfl fun i _ => ?_
    rw [rowPower_eq, rowPower_eq, hm]
    congr 2
    exact dft_congr _ _ _ (fun j _ => by push_cast; ring) k
  cases rotate with
  | false => exact key a
  | true => exact key (transpose a)

/-- C41: exactly an image without columns (rotated: without rows) is rejected. -/
theorem C41_rejected (a : Img) (rotate : Bool) (n : ℕ) (e : PyErr) : Routines.fft1288 a rotate n = .error e ↔
    e = .valueError ∧ (if rotate then a.h else a.w) = 0 := by
  unfold Routines.fft1288 Routines.fftPlain
  have : (if rotate = true then Routines.transpose a else a).w = if rotate then a.h else a.w := by
    cases rotate <;> rfl
  rw [this]
  by_cases h : (if rotate then a.h else a.w) = 0
  · rw [if_pos h]; simp [h, eq_comm]
  · rw [if_neg h]; simp [h]

/-- C41, masked images: the masked values have no influence on the spectrum. -/
theorem C41_masked (a : MRef) (fresh : ℕ) (mem mem' : Mem) (hf : fresh ≠ a.addr) (rotate : Bool) (n : ℕ)
    (h : ∀ i < a.h, ∀ j < a.w, a.mask i j = false → mem a.addr i j = mem' a.addr i j) :
    fft1288Masked a fresh mem rotate n = fft1288Masked a fresh mem' rotate n := by
  have key : ∀ (a : MRef) (mem mem' : Mem), fresh ≠ a.addr →
      (∀ i < a.h, ∀ j < a.w, a.mask i j = false → mem a.addr i j = mem' a.addr i j) →
      fftPlain (rowWiseCompress a fresh mem).1 n = fftPlain (rowWiseCompress a fresh mem').1 n := by
    intro a mem mem' hf h
    have hl : Spec.liveRows a.h a.w a.mask (mem a.addr) = Spec.liveRows a.h a.w a.mask (mem' a.addr) := by
      unfold Spec.liveRows
      congr 1
      refine List.map_congr_left fun i hi => ?_
      unfold Spec.rowVals
      refine List.map_congr_left fun j hj => ?_
      rw [List.mem_filter, List.mem_range] at hj
      exact h i (List.mem_range.1 hi) j hj.1 (by simpa using hj.2)
    obtain ⟨a1, a2, a3, a4, a5, -⟩ := C40_compress a fresh mem hf _ rfl
    obtain ⟨b1, b2, b3, b4, b5, -⟩ := C40_compress a fresh mem' hf _ hl
    generalize (rowWiseCompress a fresh mem).1 = x at *
    generalize (rowWiseCompress a fresh mem').1 = y at *
    generalize Spec.liveRows a.h a.w a.mask (mem a.addr) = rows at *
    have hw : x.w = y.w := by
      by_cases hr : rows = []
      · rw [a2 hr, b2 hr]
      · obtain ⟨l, hl1, hl2⟩ := a4 hr
        obtain ⟨l', hl1', hl2'⟩ := b4 hr
        have := a3 l' hl1'
        have := b3 l hl1
        omega
    refine fftPlain_congr x y (by rw [a1, b1]) hw (fun i hi j hj => ?_) n
    have hi' : i < rows.length := by rw [← a1]; exact hi
    have hr := List.getElem?_eq_getElem hi'
    have e1 := a5 i _ hr j hj
    have e2 := b5 i _ hr j (by rw [← hw]; exact hj)
    rw [e1] at e2
    exact Option.some.inj e2
  cases rotate with
  | false => exact key a mem mem' hf h
  | true =>
    exact key ⟨a.w, a.h, fun i j => a.mask j i, a.addr⟩ (fun p i j => mem p j i) (fun p i j => mem' p j i) hf
      fun i hi j hj hm => h j hj i hi hm

/-- C41, masked images: the spectrum is the one of the plain image whose rows are the rows (columns, if
rotated) with at least one unmasked entry, each reduced to its first unmasked entries, as many as the
shortest has. -/
theorem C41_masked_spectrum (a : MRef) (fresh : ℕ) (mem : Mem) (hf : fresh ≠ a.addr) (rotate : Bool) (n : ℕ)
    (rows : List (List ℤ))
    (hr : rows = if rotate then Spec.liveRows a.w a.h (fun i j => a.mask j i) (fun i j => mem a.addr j i)
      else Spec.liveRows a.h a.w a.mask (mem a.addr)) :
    ∃ b : Img, fft1288Masked a fresh mem rotate n = fft1288 b false n ∧ b.h = rows.length ∧
      (∀ l ∈ rows, b.w ≤ l.length) ∧ (rows ≠ [] → ∃ l ∈ rows, b.w = l.length) ∧
      ∀ i l, rows[i]? = some l → ∀ j < b.w, l[j]? = some (b.px i j) := by
  cases rotate with
  | false =>
    obtain ⟨a1, a2, a3, a4, a5, -⟩ := C40_compress a fresh mem hf rows hr
    exact ⟨(rowWiseCompress a fresh mem).1, rfl, a1, a3, a4, a5⟩
  | true =>
    obtain ⟨a1, a2, a3, a4, a5, -⟩ := C40_compress ⟨a.w, a.h, fun i j => a.mask j i, a.addr⟩ fresh
      (fun p i j => mem p j i) hf rows hr
    exact ⟨_, rfl, a1, a3, a4, a5⟩

/-! ### C42 -/

/-- C42 fails: for every image width and every entry but the first, the frequency reported for entry `i`
of the spectrum is not `i/cols` but smaller. -/
theorem C42_frequencies_too_small {F : Type} [Field F] [LinearOrder F] [IsStrictOrderedRing F]
    (cols : ℕ) (hc : 1 ≤ cols) (i : ℕ) (h1 : 1 ≤ i) (hi : i < cols / 2 + 1) :
    ∃ f, (getFrecs F (cols / 2 + 1))[i]? = some f ∧ f < (i : F) / cols := by
  refine ⟨_, by rw [getFrecs, List.getElem?_map, List.getElem?_range hi]; rfl, ?_⟩
  have h2 : (cols : F) < 2 * ((cols / 2 + 1 : ℕ) : F) := by
    have : cols < 2 * (cols / 2 + 1) := by omega
    exact_mod_cast this
  have hc' : (0 : F) < cols := by exact_mod_cast hc
  have hi' : (0 : F) < i := by exact_mod_cast h1
  show (i : F) * 1 / (2 * ((cols / 2 + 1 : ℕ) : F)) < _
  rw [mul_one]
  exact div_lt_div_of_pos_left hi' hc' h2

/-- C42 fails: for even `cols` the last entry (the Nyquist frequency, 1/2) is reported as
`cols / (2*(cols+2))`. -/
theorem C42_nyquist {F : Type} [Field F] [LinearOrder F] [IsStrictOrderedRing F] (m : ℕ) (hm : 1 ≤ m) :
    ∃ f, (getFrecs F (2 * m / 2 + 1))[m]? = some f ∧ f = m / (2 * (m + 1)) ∧ f ≠ 1 / 2 := by
  have hd : 2 * m / 2 = m := by omega
  refine ⟨_, by rw [getFrecs, List.getElem?_map, List.getElem?_range (by omega)]; rfl, ?_, ?_⟩
  · rw [hd]; push_cast; rw [mul_one]
  · rw [hd]
    have : (0 : F) < m + 1 := by positivity
    push_cast
    intro h
    field_simp at h
    linarith

/-- C42, what holds: the axis starts at 0, is equally spaced, and entry `i` is off by less than one
frequency step `1/cols`. -/
theorem C42_frequencies_partial {F : Type} [Field F] [LinearOrder F] [IsStrictOrderedRing F]
    (cols : ℕ) (hc : 1 ≤ cols) (i : ℕ) (hi : i < cols / 2 + 1) :
    ∃ f, (getFrecs F (cols / 2 + 1))[i]? = some f ∧ (i = 0 → f = 0) ∧ f ≤ (i : F) / cols ∧
      (i : F) / cols - f < 1 / cols := by
  refine ⟨_, by rw [getFrecs, List.getElem?_map, List.getElem?_range hi]; rfl, ?_, ?_, ?_⟩
  · rintro rfl; simp
  · show (i : F) * 1 / (2 * ((cols / 2 + 1 : ℕ) : F)) ≤ _
    rw [mul_one]
    have h2 : (cols : F) ≤ 2 * ((cols / 2 + 1 : ℕ) : F) := by
      have : cols ≤ 2 * (cols / 2 + 1) := by omega
      exact_mod_cast this
    have hc' : (0 : F) < cols := by exact_mod_cast hc
    exact div_le_div_of_nonneg_left (Nat.cast_nonneg _) hc' h2
  · show _ - (i : F) * 1 / (2 * ((cols / 2 + 1 : ℕ) : F)) < _
    rw [mul_one]
    have hc' : (0 : F) < cols := by exact_mod_cast hc
    have hn' : (0 : F) < ((cols / 2 + 1 : ℕ) : F) := by positivity
    have h2 : 2 * ((cols / 2 + 1 : ℕ) : F) ≤ cols + 2 := by
      have : 2 * (cols / 2 + 1) ≤ cols + 2 := by omega
      exact_mod_cast this
    have h3 : (i : F) + 1 ≤ ((cols / 2 + 1 : ℕ) : F) := by exact_mod_cast hi
    have hi0 : (0 : F) ≤ i := Nat.cast_nonneg _
    generalize ((cols / 2 + 1 : ℕ) : F) = n at *
    rw [div_sub_div _ _ hc'.ne' (by positivity), div_lt_div_iff₀ (by positivity) hc']
    have : (i : F) * (2 * n) - cols * i ≤ 2 * i := by nlinarith
    have : (i : F) * (2 * n) - cols * i < 2 * n := by linarith
    nlinarith

/-! ### cases meeting the hypotheses -/

example : getFrecs ℚ (4 / 2 + 1) = [0, 1 / 6, 1 / 3] := by decide +kernel

/-- a 2 x 2 image with rows `0 2`, `0 2`: energy 2 per row -/
example : ∃ s : List ℝ, fft1288 ⟨2, 2, fun _ j => 2 * j⟩ false 1 = .ok (s.map .fin) ∧
    s.getD 0 0 + s.getD 1 0 = 2 := by
  obtain ⟨s, h1, -, -, -, h5⟩ := C41_spectrum ⟨2, 2, fun _ j => 2 * j⟩ false 1 (by omega) _ rfl
    (by simp) (by simp)
  refine ⟨s, h1, ?_⟩
  simp [Spec.rowEnergy, sum_range_succ] at h5
  norm_num at h5
  rw [List.getD_eq_getElem?_getD, List.getD_eq_getElem?_getD]
  exact h5

end Emva
