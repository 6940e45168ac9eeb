import Verif.Props.C107
import Verif.Props.C106Example
import Verif.Props.C96Example

/-!
C107: the chess boards of C96 beside the four pairs of images of C102, in float64 with its limits.
-/
set_option autoImplicit false
namespace Emva
open Spec Data Results Fit Rounding

/-- the DSNU and the PRNU of a dark and of a bright chess board, with the gain of four pairs of images -/
example : ∃ sp : Spatial ℝ, getSpatialData 4 4 (getIntImgs ℝ i64 (chess 0 1)) = .ok sp.dark ∧
    getSpatialData 4 4 (getIntImgs ℝ i64 (chess 20 2)) = .ok sp.bright ∧
    let T := ISum.left
    let r := fromShots sp
    let r' : Res ℝ := ⟨Ieee.temporal T 1 2 shots, ⟨1, 0, Ieee.spatialDict T 4 4 (getIntImgs ℚ i64 (chess 0 1)),
      Ieee.spatialDict T 4 4 (getIntImgs ℚ i64 (chess 20 2))⟩, none, none⟩
    (∃ a, val (Ieee.dsnu (exactLSQ ℝ) (Ieee.s2Y true)) r' = .ok (.num (.fin a)) ∧
      val (DSNU1288 (exactLSQ ℝ)) r = .ok (.num (.fin (√(4 / 15) / (19 / 40)))) ∧ Close (1 - 1 / 10 ^ 10) a (√(4 / 15) / (19 / 40))) ∧
    ∃ a, val (Ieee.prnu Ieee.s2Y) r' = .ok (.fin a) ∧
      val PRNU1288 r = .ok (.fin (√(12 / 15) * 100 / (41 / 2))) ∧ Close (1 - 1 / 10 ^ 7) a (√(12 / 15) * 100 / (41 / 2)) := by
  obtain ⟨sd, d1, d2, d3, d4, d5⟩ := chess_data 0 1 (by norm_num)
  obtain ⟨sb, b1, b2, b3, b4, b5⟩ := chess_data 20 2 (by norm_num)
  refine ⟨⟨1, 0, sd, sb⟩, d1, b1, ?_⟩
  intro T r r'
  have vd : val (variance .total true) r = .ok (.fin (4 / 15)) := by
    show val (s2Y true) r = _
    rw [val_s2Y, show side true r.spatial = sd from rfl, d5, d4, d2, Fl.fin_div (by norm_num), Fl.fin_sub]
    norm_num
  have vb : val (variance .total false) r = .ok (.fin (16 / 15)) := by
    show val (s2Y false) r = _
    rw [val_s2Y, show side false r.spatial = sb from rfl, b5, b4, b2, Fl.fin_div (by norm_num), Fl.fin_sub]
    norm_num
  have dep : ∀ n ∈ [4 * 4, 4, 4], T.depth n ≤ 160 := by
    intro n hn
    simp only [List.mem_cons, List.not_mem_nil, or_false] at hn
    rcases hn with rfl | rfl | rfl <;> norm_num [T, ISum.left]
  obtain ⟨H1, H2⟩ := C107_accuracy T (chess 0 1) (chess 20 2) 4 4 1 22 (chess_stack 0 1 (by norm_num)) (chess_stack 20 2 (by norm_num))
    (by norm_num) (by norm_num) (by norm_num) dep r' r d1 b1 rfl rfl .total (4 / 15) vd
  constructor
  · obtain ⟨k', k, ek', ek, k0, hk⟩ := (shots_computed r.spatial r'.spatial).1
    have eK := (fromShots_KR r.spatial (exactLSQ ℝ) exactLSQ_good).1
    rw [eK] at ek
    obtain rfl : (19 / 40 : ℝ) = k := by simpa using ek
    have hk2 := abs_sub_le_iff.1 hk
    have b1 : (1 : ℝ) / 2 ^ 100 ≤ 1 / 4 := by norm_num
    have b2 : (1 : ℝ) ≤ 2 ^ 100 := by norm_num
    obtain ⟨a, h1, h2, h3⟩ := H1 (by norm_num) (2 / 10 ^ 11) (by norm_num) (by norm_num) 1 2 shots (by norm_num) (by norm_num)
      (by norm_num [T, ISum.left]) shots_ok.sized rfl (exactLSQ ℝ) (exactLSQ ℝ) (1 - 1 / 10 ^ 12) k' (19 / 40)
      (by norm_num) ek' (by linarith [hk2.2]) (by linarith [hk2.1]) eK (by norm_num) (Close.of_abs (by norm_num) hk (by norm_num))
    exact ⟨a, h1, h2, Close.mono h3 (by norm_num)⟩
  · obtain ⟨a, h1, h2, h3⟩ := H2 (16 / 15) vb (by norm_num) (1 / 10 ^ 8) (by norm_num) (by norm_num) 21 (1 / 2) (1 / 10 ^ 8)
      (b3.trans (by norm_num)) (d3.trans (by norm_num)) (by norm_num) (by norm_num) (by norm_num)
    rw [show (16 / 15 - 4 / 15 : ℝ) = 12 / 15 by norm_num, show (21 - 1 / 2 : ℝ) = 41 / 2 by norm_num] at h2 h3
    exact ⟨a, h1, h2, Close.mono h3 (by norm_num)⟩

end Emva
