import Verif.Props.C96Float

/-!
C96: two stacks of images that meet the hypotheses.
-/
set_option autoImplicit false
namespace Emva
open Spec Data Results Finset

/-- two images of a chess board -/
def chess (a b : ℤ) : List Img :=
  [⟨4, 4, fun i j => a + b * ((i + j) % 2 : ℕ)⟩, ⟨4, 4, fun i j => a + b * ((i + j) % 2 : ℕ)⟩]

theorem chess_px (a b : ℤ) : ∀ x ∈ chess a b, x.h = 4 ∧ x.w = 4 ∧ ∀ i j, x.px i j = a + b * ((i + j) % 2 : ℕ) := by
  intro x hx
  simp only [chess, List.mem_cons, List.not_mem_nil, or_false] at hx
  rcases hx with rfl | rfl <;> exact ⟨rfl, rfl, fun _ _ => rfl⟩

theorem chess_stack (a b : ℕ) (h : a + b ≤ 255) : Stack (chess a b) 4 4 (a + b) where
  two := le_rfl
  shape x hx := ⟨(chess_px a b x hx).1, (chess_px a b x hx).2.1⟩
  fits i _ j _ := by
    refine ⟨fun x hx => ?_, ?_⟩
    · rw [(chess_px a b x hx).2.2]
      rcases Nat.mod_two_eq_zero_or_one (i + j) with e | e <;> rw [e] <;> push_cast <;> constructor <;> omega
    · have : ((a + b : ℕ) : ℤ) ≤ 255 := by exact_mod_cast h
      have h0 : (0 : ℤ) ≤ ((a + b : ℕ) : ℤ) := by positivity
      have : ((a + b : ℕ) : ℤ) ^ 2 ≤ 255 ^ 2 := pow_le_pow_left₀ h0 this 2
      show ((2 : ℕ) : ℤ) ^ 3 * _ < _
      push_cast at *
      omega
  sums := by show 2 * (a + b) ≤ 2 ^ 53; omega
  few := by show 2 ^ 3 ≤ 2 ^ 36; norm_num

theorem chess_data (a b : ℕ) (h : a + b ≤ 255) : ∃ s, getSpatialData 4 4 (getIntImgs ℝ i64 (chess a b)) = .ok s ∧ s.L = 2 ∧
    s.avg_mean = .fin (a + b / 2) ∧ s.var_mean = .fin 0 ∧ s.avg_var = .fin (b ^ 2 * (4 / 15)) := by
  have st := chess_stack a b h
  obtain ⟨s, h1, h2, -, -, -, -, -, h3, h4, h5, -⟩ := C20_statistics (F := ℝ) (chess a b) 4 4 (by norm_num) st.two st.shape _ st.fits
  have e1 : ∀ i j, Spec.mean ((chess a b).map fun x => (x.px i j : ℝ)) = a + b * ((i + j) % 2 : ℕ) := fun i j => by
    show Spec.mean [((((a : ℤ) + b * ((i + j) % 2 : ℕ) : ℤ)) : ℝ), (((a : ℤ) + b * ((i + j) % 2 : ℕ) : ℤ) : ℝ)] = _
    generalize (i + j) % 2 = c
    unfold Spec.mean
    push_cast
    simp only [List.sum_cons, List.sum_nil, List.length_cons, List.length_nil]
    push_cast
    ring
  have e2 : ∀ i j, Spec.sampleVar ((chess a b).map fun x => (x.px i j : ℝ)) = 0 := fun i j => by
    unfold Spec.sampleVar
    rw [e1]
    show List.sum [((((a : ℤ) + b * ((i + j) % 2 : ℕ) : ℤ) : ℝ) - _) ^ 2, ((((a : ℤ) + b * ((i + j) % 2 : ℕ) : ℤ) : ℝ) - _) ^ 2] / _ = 0
    generalize (i + j) % 2 = c
    push_cast
    simp
  simp only [e1, e2] at h3 h4 h5
  have m1 : imgMean 4 4 (fun i j => (a : ℝ) + b * ((i + j) % 2 : ℕ)) = a + b / 2 := by
    unfold imgMean
    norm_num [sum_range_succ]
    ring
  refine ⟨s, h1, h2, ?_, ?_, ?_⟩
  · rw [h3, m1]
  · rw [h4]; simp [imgMean]
  · rw [h5 (by norm_num), imgSampleVar, m1]
    norm_num [sum_range_succ]
    ring

/-- the DSNU and the PRNU of a dark and of a bright chess board, in float64 -/
example : ∃ (sp' sp : Spatial ℝ), let r' : Res ℝ := { sampleFew with spatial := sp' }
    let r : Res ℝ := { sampleFew with spatial := sp }
    Measured (chess 0 1) 4 4 true r' r ∧ Measured (chess 20 2) 4 4 false r' r ∧
    (∃ a, val (Rounded.dsnu Rounding.binary64 (exactLSQ ℝ) (Rounded.s2Y Rounding.binary64 true)) r' = .ok (.num (.fin a)) ∧
      val (DSNU1288 (exactLSQ ℝ)) r = .ok (.num (.fin (√(4 / 15) / (1 / 10)))) ∧
      Close (1 - 1 / 10 ^ 10) a (√(4 / 15) / (1 / 10))) ∧
    ∃ a, val (Rounded.prnu Rounding.binary64 (Rounded.s2Y Rounding.binary64)) r' = .ok (.fin a) ∧
      val PRNU1288 r = .ok (.fin (√(12 / 15) * 100 / (41 / 2))) ∧ Close (1 - 1 / 10 ^ 7) a (√(12 / 15) * 100 / (41 / 2)) := by
  obtain ⟨sd, d1, d2, d3, d4, d5⟩ := chess_data 0 1 (by norm_num)
  obtain ⟨sb, b1, b2, b3, b4, b5⟩ := chess_data 20 2 (by norm_num)
  let sp : Spatial ℝ := ⟨1, 0, sd, sb⟩
  let sp' : Spatial ℝ := ⟨1, 0, Rounded.spatialDict Rounding.binary64 (RSum.pairwise _) 4 4 (getIntImgs ℚ i64 (chess 0 1)),
    Rounded.spatialDict Rounding.binary64 (RSum.pairwise _) 4 4 (getIntImgs ℚ i64 (chess 20 2))⟩
  refine ⟨sp', sp, ?_⟩
  intro r' r
  have md : Measured (chess 0 1) 4 4 true r' r := .pairwise (by norm_num) (by norm_num) d1 rfl
  have mb : Measured (chess 20 2) 4 4 false r' r := .pairwise (by norm_num) (by norm_num) b1 rfl
  have vd : val (variance .total true) r = .ok (.fin (4 / 15)) := by
    show val (s2Y true) r = _
    rw [val_s2Y, show side true r.spatial = sd from rfl, d5, d4, d2, Fl.fin_div (by norm_num), Fl.fin_sub]
    norm_num
  have vb : val (variance .total false) r = .ok (.fin (16 / 15)) := by
    show val (s2Y false) r = _
    rw [val_s2Y, show side false r.spatial = sb from rfl, b5, b4, b2, Fl.fin_div (by norm_num), Fl.fin_sub]
    norm_num
  obtain ⟨H1, H2⟩ := C96_float64 (chess 0 1) (chess 20 2) 4 4 1 22 (chess_stack 0 1 (by norm_num)) (chess_stack 20 2 (by norm_num))
    (by norm_num) (by norm_num) (by norm_num) r' r md mb .total (4 / 15) vd
  refine ⟨md, mb, ?_, ?_⟩
  · obtain ⟨⟨k', k, ek', ek, k0, hk⟩, -⟩ := sampleFew_accurate sp'
    have eK := (sampleFew_accurate sp).2.1
    have eK' := (sampleFew_accurate sp').2.1
    rw [eK'] at ek
    obtain rfl : (1 / 10 : ℝ) = k := by simpa using ek
    obtain ⟨a, h1, h2, h3⟩ := H1 (by norm_num) (2 / 10 ^ 11) (by norm_num) (by norm_num) (exactLSQ ℝ) (exactLSQ ℝ) (1 - 1 / 10 ^ 14) k' (1 / 10)
      (by norm_num) ek' eK (by norm_num) (Close.of_abs (by norm_num) hk (by norm_num))
    exact ⟨a, h1, h2, Close.mono h3 (by norm_num)⟩
  · obtain ⟨a, h1, h2, h3⟩ := H2 (16 / 15) vb (by norm_num) (1 / 10 ^ 8) (by norm_num) (by norm_num) 21 (1 / 2) (1 / 10 ^ 8)
      (b3.trans (by norm_num)) (d3.trans (by norm_num)) (by norm_num) (by norm_num) (by norm_num)
    rw [show (16 / 15 - 4 / 15 : ℝ) = 12 / 15 by norm_num, show (21 - 1 / 2 : ℝ) = 41 / 2 by norm_num] at h2 h3
    exact ⟨a, h1, h2, Close.mono h3 (by norm_num)⟩

end Emva
