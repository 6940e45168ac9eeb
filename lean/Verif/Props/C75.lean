import Verif.Model.Qe
import Mathlib.Analysis.Complex.ExponentialBounds
import Mathlib.Tactic.Linarith
import Mathlib.Tactic.Positivity
import Mathlib.Tactic.FieldSimp

/-!
C75: the quantum efficiency of the camera simulator.
-/
set_option autoImplicit false
namespace Emva
open Qe

namespace Spec

/-- A quantum efficiency for `n` wavelengths and images of `h` rows and `w` columns: every value is a probability. -/
def IsEfficiency (a : Nd) (h w n : ℕ) : Prop :=
  a.shape = [h, w, n] ∧ ∀ i < h, ∀ j < w, ∀ k < n, 0 ≤ a.at' [i, j, k] ∧ a.at' [i, j, k] ≤ 1

end Spec

namespace Qe

theorem sqrt_lo : (5 / 4 : ℝ) ≤ Real.sqrt (Real.pi * 2 * (1 / 2) ^ 2) := by
  refine Real.le_sqrt_of_sq_le ?_
  have := Real.pi_gt_d2
  nlinarith

theorem sqrt_hi : Real.sqrt (Real.pi * 2 * (1 / 2) ^ 2) ≤ 126 / 100 := by
  rw [Real.sqrt_le_left (by norm_num)]
  have := Real.pi_lt_d2
  nlinarith

theorem gauss_nonneg (w : ℝ) : 0 ≤ gauss w := le_max_right _ _

theorem gauss_le (w : ℝ) : gauss w ≤ 7 / 10 := by
  unfold gauss
  simp only
  refine max_le ?_ (by norm_num)
  have h0 := sqrt_lo
  have h1 : Real.exp (-(-1 + w / (800 - 350) - 0) ^ 2 / (2 * (1 / 2) ^ 2)) ≤ 1 := by
    rw [Real.exp_le_one_iff]
    have := sq_nonneg (-1 + w / (800 - 350) - 0 : ℝ)
    rw [div_nonpos_iff]
    right
    constructor <;> [linarith; norm_num]
  have h2 : Real.exp (-(-1 + w / (800 - 350) - 0) ^ 2 / (2 * (1 / 2) ^ 2)) / Real.sqrt (Real.pi * 2 * (1 / 2) ^ 2) ≤ 1 / (5 / 4) :=
    div_le_div₀ (by norm_num) h1 (by norm_num) h0
  linarith

theorem gauss_pos (w : ℝ) (h0 : 0 ≤ w) (h1 : w ≤ 900) : 0 < gauss w := by
  unfold gauss
  simp only
  refine lt_max_of_lt_left ?_
  have hs := sqrt_hi
  have hs0 := sqrt_lo
  have hx : (-1 + w / (800 - 350) - 0 : ℝ) ^ 2 ≤ 1 := by
    rw [sq_le_one_iff_abs_le_one, abs_le]
    constructor
    · have : 0 ≤ w / (800 - 350 : ℝ) := div_nonneg h0 (by norm_num)
      linarith
    · have : w / (800 - 350 : ℝ) ≤ 2 := by rw [div_le_iff₀ (by norm_num)]; linarith
      linarith
  have he : Real.exp (-2) ≤ Real.exp (-(-1 + w / (800 - 350) - 0) ^ 2 / (2 * (1 / 2) ^ 2)) := by
    refine Real.exp_le_exp.2 ?_
    rw [le_div_iff₀ (by norm_num)]
    linarith
  have h2 : (0.135 : ℝ) < Real.exp (-2) := by
    rw [Real.exp_neg, lt_inv_comm₀ (by norm_num) (Real.exp_pos _)]
    have e : Real.exp 2 = Real.exp 1 * Real.exp 1 := by rw [← Real.exp_add]; norm_num
    rw [e]
    have := Real.exp_one_lt_d9
    have := Real.exp_pos 1
    nlinarith
  have : (1 / 10 : ℝ) < Real.exp (-(-1 + w / (800 - 350) - 0) ^ 2 / (2 * (1 / 2) ^ 2)) /
      Real.sqrt (Real.pi * 2 * (1 / 2) ^ 2) := by
    rw [lt_div_iff₀ (by linarith)]
    linarith
  linarith

theorem gauss_peak (w : ℝ) : gauss w ≤ gauss 450 := by
  unfold gauss
  simp only
  refine max_le_max_right _ ?_
  have := sqrt_lo
  have : Real.exp (-(-1 + w / (800 - 350) - 0) ^ 2 / (2 * (1 / 2) ^ 2)) ≤
      Real.exp (-(-1 + 450 / (800 - 350) - 0) ^ 2 / (2 * (1 / 2) ^ 2)) := by
    refine Real.exp_le_exp.2 (div_le_div_of_nonneg_right ?_ (by norm_num))
    have := sq_nonneg (-1 + w / (800 - 350) - 0 : ℝ)
    norm_num at *
    linarith
  have := div_le_div_of_nonneg_right this (Real.sqrt_nonneg (Real.pi * 2 * (1 / 2) ^ 2))
  linarith

end Qe

/-- C75: without an array the generated efficiency is accepted, for every size and every wavelengths.  It is the same for all
pixels, at most 70 percent, positive for wavelengths from 0 to 900 nm, and largest at 450 nm. -/
theorem C75_generated (w : List ℝ) (width height : ℕ) :
    ∃ a, mkQe none w width height none = .ok (a, none) ∧ Spec.IsEfficiency a height width w.length ∧
      (∀ i j k : ℕ, ∀ x : ℝ, w[k]? = some x → 0 ≤ a.at' [i, j, k] ∧ a.at' [i, j, k] ≤ 7 / 10 ∧
        (0 ≤ x → x ≤ 900 → 0 < a.at' [i, j, k])) ∧
      ∀ i j k i' j' k' : ℕ, w[k]? = some 450 → w[k']?.isSome → a.at' [i', j', k'] ≤ a.at' [i, j, k] := by
  refine ⟨genQe w width height, ?_, ⟨rfl, ?_⟩, ?_, ?_⟩
  · simp [mkQe, genQe]
    rfl
  · intro i _ j _ k _
    exact ⟨gauss_nonneg _, (gauss_le _).trans (by norm_num)⟩
  · intro i j k x hx
    refine ⟨gauss_nonneg _, gauss_le _, fun h0 h1 => ?_⟩
    have : w.getD k 0 = x := by simp [List.getD, hx]
    show 0 < gauss (w.getD k 0)
    rw [this]
    exact gauss_pos x h0 h1
  · intro i j k i' j' k' h h'
    have : w.getD k 0 = 450 := by simp [List.getD, h]
    show gauss _ ≤ gauss (w.getD k 0)
    rw [this]
    exact gauss_peak _

/-- C75: a given array is used as it is exactly if it has a value for every pixel and wavelength; with another shape `ValueError`
(two dimensions) or `TypeError`. -/
theorem C75_given (qe : Nd) (w : List ℝ) (width height : ℕ) :
    (mkQe (some qe) w width height none = .ok (qe, some qe) ↔ qe.shape = [height, width, w.length]) ∧
    ∀ e, mkQe (some qe) w width height none = .error e ↔ qe.shape ≠ [height, width, w.length] ∧
      e = if qe.shape.length = 2 then .valueError else .typeError := by
  by_cases h : qe.shape = [height, width, w.length]
  · have : mkQe (some qe) w width height none = .ok (qe, some qe) := by simp [mkQe, h]; rfl
    simp [this, h]
  · have : mkQe (some qe) w width height none = .error (shapeError qe.shape) := by simp [mkQe, h]
    simp [this, h, shapeError, eq_comm]

/-- C75: an array of any other shape is rejected, whatever the filter.  (The message cannot be made: only for an array of two
dimensions is it the `ValueError` intended.) -/
theorem C75_rejected (qe : Nd) (w : List ℝ) (width height : ℕ) (filter : Option Nd) (h : qe.shape ≠ [height, width, w.length]) :
    ∃ e, mkQe (some qe) w width height filter = .error e ∧ (e = .valueError ↔ qe.shape.length = 2) ∧
      (e = .valueError ∨ e = .typeError) := by
  refine ⟨shapeError qe.shape, ?_, ?_, ?_⟩
  · simp [mkQe, h]
  · unfold shapeError; split <;> simp_all
  · unfold shapeError; split <;> simp

/-- the filter applied to an array of its own shape, or a spectrum applied to every pixel -/
theorem imul_at (a f : Nd) (h w n : ℕ) (ha : a.shape = [h, w, n]) (hf : f.shape = [h, w, n] ∨ f.shape = [n]) :
    ∃ b, imul a f = .ok b ∧ b.shape = [h, w, n] ∧ ∀ i < h, ∀ j < w, ∀ k < n,
      b.at' [i, j, k] = a.at' [i, j, k] * (if f.shape = [n] then f.at' [k] else f.at' [i, j, k]) := by
  have e : ∀ (d i : ℕ), i < d → (if d = 1 then 0 else i) = i := by
    intro d i hi; split <;> omega
  rcases hf with hf | hf
  · refine ⟨_, by unfold imul; rw [ha, hf, if_pos (by simp [fits])], rfl, ?_⟩
    intro i hi j hj k hk
    simp [hf, project, e h i hi, e w j hj, e n k hk]
  · refine ⟨_, by unfold imul; rw [ha, hf, if_pos (by simp [fits])], rfl, ?_⟩
    intro i hi j hj k hk
    simp [hf, project, e n k hk]

/-- C75: with a filter (of the shape of the efficiency, or a spectrum) every value is the product; so a filter between 0 and 1
makes an efficiency of an efficiency.  `qe = none` is the generated one. -/
theorem C75_filter_partial (qe : Option Nd) (f : Nd) (w : List ℝ) (width height : ℕ)
    (hq : ∀ a, qe = some a → a.shape = [height, width, w.length])
    (hf : f.shape = [height, width, w.length] ∨ f.shape = [w.length]) :
    ∃ a b : Nd, mkQe qe w width height none = .ok (a, qe.map fun _ => a) ∧
      mkQe qe w width height (some f) = .ok (b, qe.map fun _ => b) ∧
      (∀ i < height, ∀ j < width, ∀ k < w.length, b.at' [i, j, k] = a.at' [i, j, k] *
        (if f.shape = [w.length] then f.at' [k] else f.at' [i, j, k])) ∧
      (Spec.IsEfficiency a height width w.length →
        (∀ i < height, ∀ j < width, ∀ k < w.length, 0 ≤ (if f.shape = [w.length] then f.at' [k] else f.at' [i, j, k]) ∧
          (if f.shape = [w.length] then f.at' [k] else f.at' [i, j, k]) ≤ 1) →
        Spec.IsEfficiency b height width w.length) := by
  obtain ⟨a, ha⟩ : ∃ a, a = qe.getD (genQe w width height) := ⟨_, rfl⟩
  have hs : a.shape = [height, width, w.length] := by
    subst ha
    cases qe with
    | none => rfl
    | some q => exact hq q rfl
  obtain ⟨b, e1, e2, e3⟩ := imul_at a f height width w.length hs hf
  refine ⟨a, b, ?_, ?_, e3, ?_⟩
  · simp only [mkQe, ← ha, hs]
    simp
    rfl
  · simp only [mkQe, ← ha, hs]
    simp [e1]
    rfl
  · rintro ⟨-, hA⟩ hF
    refine ⟨e2, fun i hi j hj k hk => ?_⟩
    obtain ⟨a0, a1⟩ := hA i hi j hj k hk
    obtain ⟨f0, f1⟩ := hF i hi j hj k hk
    rw [e3 i hi j hj k hk]
    exact ⟨mul_nonneg a0 f0, by nlinarith⟩

/-- C75: a filter of another size is rejected with `ValueError`: one of its three dimensions is neither that of the efficiency
nor one. -/
theorem C75_filter_rejected (qe : Option Nd) (f : Nd) (w : List ℝ) (width height h' w' n' : ℕ)
    (hq : ∀ a, qe = some a → a.shape = [height, width, w.length]) (hf : f.shape = [h', w', n'])
    (hne : (h' ≠ height ∧ h' ≠ 1) ∨ (w' ≠ width ∧ w' ≠ 1) ∨ (n' ≠ w.length ∧ n' ≠ 1)) :
    mkQe qe w width height (some f) = .error .valueError := by
  obtain ⟨a, ha⟩ : ∃ a, a = qe.getD (genQe w width height) := ⟨_, rfl⟩
  have hs : a.shape = [height, width, w.length] := by
    subst ha
    cases qe with
    | none => rfl
    | some q => exact hq q rfl
  have : imul a f = .error .valueError := by
    unfold imul
    rw [hs, hf, if_neg]
    simp [fits]
    tauto
  simp only [mkQe, ← ha, hs]
  simp [this]
  rfl

/-- C75: a filter with three dimensions that are those of the array or one is applied to all pixels or wavelengths along
the dimensions that are one. -/
theorem C75_broadcast (qe : Option Nd) (f : Nd) (w : List ℝ) (width height h' w' n' : ℕ)
    (hq : ∀ a, qe = some a → a.shape = [height, width, w.length]) (hf : f.shape = [h', w', n'])
    (hh : h' = height ∨ h' = 1) (hw : w' = width ∨ w' = 1) (hn : n' = w.length ∨ n' = 1) :
    ∃ a b : Nd, mkQe qe w width height none = .ok (a, qe.map fun _ => a) ∧
      mkQe qe w width height (some f) = .ok (b, qe.map fun _ => b) ∧ b.shape = [height, width, w.length] ∧
      ∀ i j k i' j' k' : ℕ, i < height → j < width → k < w.length → i' < h' → j' < w' → k' < n' →
        (h' ≠ 1 → i' = i) → (w' ≠ 1 → j' = j) → (n' ≠ 1 → k' = k) →
        b.at' [i, j, k] = a.at' [i, j, k] * f.at' [i', j', k'] := by
  obtain ⟨a, ha⟩ : ∃ a, a = qe.getD (genQe w width height) := ⟨_, rfl⟩
  have hs : a.shape = [height, width, w.length] := by
    subst ha
    cases qe with
    | none => rfl
    | some q => exact hq q rfl
  have hfit : fits f.shape.reverse a.shape.reverse = true := by
    rw [hf, hs]
    simp [fits]
    tauto
  refine ⟨a, ⟨a.shape, fun ix => a.at' ix * f.at' (project f.shape.reverse ix.reverse).reverse⟩, ?_, ?_, hs, ?_⟩
  · simp only [mkQe, ← ha, hs]
    simp
    rfl
  · simp only [mkQe, ← ha, hs]
    simp only [imul, hfit, if_true]
    simp [hs]
    rfl
  · intro i j k i' j' k' _ _ _ hi hj hk ei ej ek
    have e : ∀ d x x' : ℕ, x' < d → (d ≠ 1 → x' = x) → (if d = 1 then 0 else x) = x' := by
      intro d x x' h1 h2
      split
      · omega
      · exact (h2 ‹_›).symm
    simp [hf, project, e h' i i' hi ei, e w' j j' hj ej, e n' k k' hk ek]

/-- a row of filters: the same for all rows and wavelengths of a 2 x 3 sensor -/
example : ∃ b : Nd, mkQe none [500, 600] 3 2 (some ⟨[1, 3, 1], fun ix => ix.getD 1 0⟩) = .ok (b, none) ∧
    b.at' [1, 2, 1] = 2 * (genQe [500, 600] 3 2).at' [1, 2, 1] := by
  obtain ⟨a, b, h1, h2, -, h3⟩ := C75_broadcast none ⟨[1, 3, 1], fun ix => ix.getD 1 0⟩ [500, 600] 3 2 1 3 1 (by simp) rfl
    (.inr rfl) (.inl rfl) (.inr rfl)
  have : a = genQe [500, 600] 3 2 := by
    have : mkQe none [500, 600] 3 2 none = .ok (genQe [500, 600] 3 2, none) := by simp [mkQe, genQe]; rfl
    rw [this] at h1
    simpa using h1.symm
  refine ⟨b, h2, ?_⟩
  rw [h3 1 2 1 0 2 0 (by simp) (by simp) (by simp) (by simp) (by simp) (by simp) (by simp) (by simp) (by simp), this]
  simp
  ring

/-- C75 fails for the argument itself: the array given is multiplied in place.  A second efficiency made of the same array
and filter has the filter twice. -/
theorem C75_argument_changed (qe f : Nd) (w : List ℝ) (width height : ℕ) (hq : qe.shape = [height, width, w.length])
    (hf : f.shape = [height, width, w.length]) :
    ∃ (b c qe' qe'' : Nd), mkQe (some qe) w width height (some f) = .ok (b, some qe') ∧
      mkQe (some qe') w width height (some f) = .ok (c, some qe'') ∧
      ∀ i < height, ∀ j < width, ∀ k < w.length,
        (if f.shape = [w.length] then f.at' [k] else f.at' [i, j, k]) = f.at' [i, j, k] ∧
        qe'.at' [i, j, k] = qe.at' [i, j, k] * f.at' [i, j, k] ∧
        c.at' [i, j, k] = qe.at' [i, j, k] * f.at' [i, j, k] ^ 2 := by
  obtain ⟨b, e1, e2, e3⟩ := imul_at qe f height width w.length hq (.inl hf)
  obtain ⟨c, f1, f2, f3⟩ := imul_at b f height width w.length e2 (.inl hf)
  have hn : f.shape ≠ [w.length] := by rw [hf]; simp
  refine ⟨b, c, b, c, ?_, ?_, ?_⟩
  · simp [mkQe, hq, e1]
    rfl
  · simp [mkQe, e2, f1]
    rfl
  · intro i hi j hj k hk
    rw [if_neg hn, f3 i hi j hj k hk, e3 i hi j hj k hk, if_neg hn]
    exact ⟨rfl, rfl, by ring⟩

/-! ### cases meeting the hypotheses -/

/-- one pixel, one wavelength, efficiency and filter one half: the second object has one eighth -/
example : ∃ (b c q q' : Nd), mkQe (some ⟨[1, 1, 1], fun _ => 1 / 2⟩) [450] 1 1 (some ⟨[1, 1, 1], fun _ => 1 / 2⟩) = .ok (b, some q) ∧
    mkQe (some q) [450] 1 1 (some ⟨[1, 1, 1], fun _ => 1 / 2⟩) = .ok (c, some q') ∧ q.at' [0, 0, 0] = 1 / 4 ∧
    c.at' [0, 0, 0] = 1 / 8 := by
  obtain ⟨b, c, q, q', h1, h2, h3⟩ := C75_argument_changed ⟨[1, 1, 1], fun _ => 1 / 2⟩ ⟨[1, 1, 1], fun _ => 1 / 2⟩ [450] 1 1 rfl rfl
  obtain ⟨-, h4, h5⟩ := h3 0 (by norm_num) 0 (by norm_num) 0 (by simp)
  exact ⟨b, c, q, q', h1, h2, by rw [h4]; norm_num, by rw [h5]; norm_num⟩

/-- the usual mistake, rows and columns exchanged, raises `TypeError` -/
example : mkQe (some ⟨[640, 480, 1], fun _ => 1 / 2⟩) [450] 640 480 none = .error .typeError := by
  simp [mkQe, shapeError]

/-- a filter for 3 x 2 pixels on 2 x 2 -/
example : mkQe none [450] 2 2 (some ⟨[2, 3, 1], fun _ => 1⟩) = .error .valueError :=
  C75_filter_rejected none _ [450] 2 2 2 3 1 (by simp) rfl (by simp)

end Emva
