import Verif.Lemmas.Fit
import Verif.Model.FitErr
import Mathlib.Tactic.NormNum
import Mathlib.Data.Rat.Lemmas
import Mathlib.Tactic.Positivity
import Mathlib.Tactic.NormNum.RealSqrt

/-!
C27-C28: the linear fits `LinearB0` and `LinearB`, for every solver that returns a minimiser of the
residual function it is given (`LSQ.Good`; `exactLSQ_good` shows one exists).
-/
set_option autoImplicit false
set_option linter.unusedSectionVars false
namespace Emva
open Spec Fit
variable {F : Type} [Field F] [LinearOrder F] [IsStrictOrderedRing F]

/-- C27: on equally long finite arrays with a non-zero `x`, `LinearB0` returns the only slope of least
squared error, `sum(x*y) / sum(x*x)`. -/
theorem C27_best_slope (q : LSQ F) (hq : q.Good) (X Y : List F) (hl : X.length = Y.length)
    (h : ∃ x ∈ X, x ≠ 0) :
    ∃ m, linearB0 q (X.map .fin) (Y.map .fin) = .ok (.fin m) ∧ BestSlope (X.zip Y) m ∧
      m * (X.map fun x => x * x).sum = (List.zipWith (· * ·) X Y).sum := by
  obtain ⟨m, h1, h2, h3⟩ := linearB0_fin hq X Y hl h
  refine ⟨m, h1, h2, ?_⟩
  have hpt : ∃ p ∈ X.zip Y, p.1 ≠ 0 := by
    obtain ⟨x, hx, hx0⟩ := h
    rw [← List.map_fst_zip (l₁ := X) (l₂ := Y) hl.le, List.mem_map] at hx
    obtain ⟨p, hp, rfl⟩ := hx
    exact ⟨p, hp, hx0⟩
  rw [h3, ← zip_sxx X Y hl, ← zip_sxy, div_mul_cancel₀ _ (Sxx_pos hpt).ne']

/-- C27: data on a line through the origin give its slope. -/
theorem C27_exact (q : LSQ F) (hq : q.Good) (X : List F) (m : F) (h : ∃ x ∈ X, x ≠ 0) :
    linearB0 q (X.map .fin) ((X.map fun x => m * x).map .fin) = .ok (.fin m) := by
  obtain ⟨m', h1, h2, -⟩ := C27_best_slope q hq X (X.map fun x => m * x) (by simp) h
  rw [h1]
  congr 2
  by_contra hne
  have := h2 m (Ne.symm hne)
  rw [sqErr_exact (m := m) (b := 0)] at this
  · exact absurd (sqErr_nonneg _ _ _) (not_le.2 this)
  · intro p hp
    have hz : ∀ (X : List F) (p : F × F), p ∈ X.zip (X.map fun x => m * x) → p.2 = m * p.1 := by
      intro X
      induction X with
      | nil => intro p hp; simp at hp
      | cons x X ih =>
        intro p hp
        rw [List.map_cons, List.zip_cons_cons, List.mem_cons] at hp
        rcases hp with rfl | hp
        · rfl
        · exact ih p hp
    rw [hz X p hp, add_zero]

/-- C27: the slope is linear in the ordinates. -/
theorem C27_linear (q : LSQ F) (hq : q.Good) (X Y Z : List F) (hY : X.length = Y.length)
    (hZ : X.length = Z.length) (h : ∃ x ∈ X, x ≠ 0) (a c m k : F)
    (hm : linearB0 q (X.map .fin) (Y.map .fin) = .ok (.fin m))
    (hk : linearB0 q (X.map .fin) (Z.map .fin) = .ok (.fin k)) :
    linearB0 q (X.map .fin) ((List.zipWith (fun y z => a * y + c * z) Y Z).map .fin)
      = .ok (.fin (a * m + c * k)) := by
  obtain ⟨m', h1, -, h3⟩ := C27_best_slope q hq X Y hY h
  obtain ⟨k', g1, -, g3⟩ := C27_best_slope q hq X Z hZ h
  obtain ⟨n, f1, f2, f3⟩ := C27_best_slope q hq X (List.zipWith (fun y z => a * y + c * z) Y Z)
    (by simp [← hY, ← hZ]) h
  rw [h1] at hm; rw [g1] at hk
  cases hm; cases hk
  rw [f1]
  have hsum : (List.zipWith (· * ·) X (List.zipWith (fun y z => a * y + c * z) Y Z)).sum
      = a * (List.zipWith (· * ·) X Y).sum + c * (List.zipWith (· * ·) X Z).sum := by
    clear * - hY hZ
    induction X generalizing Y Z with
    | nil => simp
    | cons x X ih =>
      match Y, Z, hY, hZ with
      | y :: Y, z :: Z, hY, hZ =>
        simp only [List.zipWith_cons_cons, List.sum_cons]
        rw [ih Y Z (by simpa using hY) (by simpa using hZ)]; ring
  have hx : (X.map fun x => x * x).sum ≠ 0 := by
    obtain ⟨x, hx, hx0⟩ := h
    rw [← zip_sxx X Y hY]
    rw [← List.map_fst_zip (l₁ := X) (l₂ := Y) hY.le, List.mem_map] at hx
    obtain ⟨p, hp, rfl⟩ := hx
    exact (Sxx_pos ⟨p, hp, hx0⟩).ne'
  rw [hsum, ← h3, ← g3] at f3
  congr 2
  apply mul_right_cancel₀ hx
  rw [f3]; ring

theorem bin_cases {α : Type} (f : Fl F → Fl F → α) (X Y : List (Fl F)) :
    (Mismatch X Y ∧ Np.bin f X Y = .error .valueError) ∨ (¬ Mismatch X Y ∧ ∃ r, Np.bin f X Y = .ok r ∧
      r.length = if X = [] ∨ Y = [] then 0 else max X.length Y.length) := by
  unfold Np.bin Mismatch
  match X, Y with
  | [], [] => simp
  | [], [y] => simp
  | [], a :: b :: l => simp
  | [x], [] => simp
  | [x], [y] => simp
  | [x], a :: b :: l => simp
  | a :: b :: l, [] => simp
  | a :: b :: l, [x] => simp
  | a :: b :: l, a' :: b' :: l' =>
    by_cases h : l.length = l'.length
    · simp [h]
    · simp [h]

/-- C27: `ValueError` for arrays that cannot be broadcast, `TypeError` without any point, and no other error. -/
theorem C27_rejected (q : LSQ F) (X Y : List (Fl F)) (e : PyErr) : linearB0 q X Y = .error e ↔
    Mismatch X Y ∧ e = .valueError ∨ ¬ Mismatch X Y ∧ (X = [] ∨ Y = []) ∧ e = .typeError := by
  unfold linearB0
  rcases bin_cases (fun x y : Fl F => x * .fin 1 - y) X Y with ⟨h, hb⟩ | ⟨h, r, hb, hr⟩
  · rw [hb]; simp [h, eq_comm]
  · rw [hb]
    simp only [hr]
    split_ifs with h0 h1 h1
    · simp [h, h0, eq_comm]
    · omega
    · have : X.length ≠ 0 := by rw [Ne, List.length_eq_zero_iff]; tauto
      omega
    · simp [h, h0]

theorem zipWith_fin_resid (m b : F) (X Y : List F) :
    ((List.zipWith (fun x y => x * Fl.fin m + .fin b - y) (X.map Fl.fin) (Y.map .fin)).map Fl.sq)
      = ((X.zip Y).map fun p => (p.2 - (m * p.1 + b)) ^ 2).map .fin := by
  induction X generalizing Y with
  | nil => simp
  | cons x X ih =>
    cases Y with
    | nil => simp
    | cons y Y =>
      simp only [List.map_cons, List.zipWith_cons_cons, List.zip_cons_cons, ih]
      congr 1
      simp only [Fl.fin_mul, Fl.fin_add, Fl.fin_sub, Fl.sq_fin, Fl.fin_inj]
      ring

theorem fitErr_value (n : ℕ) (hn : 1 ≤ n) (e : ℝ) (he : 0 ≤ e) :
    Fl.sqrt (Fl.fin e / .fin ((n : ℝ) * n)) = .fin (Real.sqrt e / n) := by
  have hn' : (0 : ℝ) < n := by exact_mod_cast hn
  rw [Fl.fin_div (by positivity), Fl.sqrt_fin (by positivity), Real.sqrt_div he,
    Real.sqrt_mul_self hn'.le]

/-- C27: the reported fit error is the root of the squared error over the number of points; it is zero
exactly when the points lie on the fitted line. -/
theorem C27_fit_error (q : LSQ ℝ) (hq : q.Good) (X Y : List ℝ) (hl : X.length = Y.length)
    (h : ∃ x ∈ X, x ≠ 0) :
    ∃ m e, linearB0 q (X.map .fin) (Y.map .fin) = .ok (.fin m) ∧
      linearB0Err q (X.map .fin) (Y.map .fin) = .ok (.fin e) ∧
      e = Real.sqrt (sqErr (X.zip Y) m 0) / X.length ∧
      (e = 0 ↔ ∀ p ∈ X.zip Y, p.2 = m * p.1) := by
  obtain ⟨m, h1, -, -⟩ := C27_best_slope q hq X Y hl h
  obtain ⟨x, hx, -⟩ := h
  have hn : 1 ≤ X.length := List.length_pos_of_mem hx
  have hn' : (X.length : ℝ) ≠ 0 := by exact_mod_cast (by omega : X.length ≠ 0)
  refine ⟨m, _, h1, ?_, rfl, ?_⟩
  · have e0 := zipWith_fin_resid m 0 X Y
    have e1 : (List.zipWith (fun x y => x * Fl.fin m - y) (X.map Fl.fin) (Y.map Fl.fin)).map Fl.sq
        = ((X.zip Y).map fun p => (p.2 - (m * p.1 + 0)) ^ 2).map .fin := by
      rw [← e0]
      clear * -
      induction X generalizing Y with
      | nil => simp
      | cons x X ih =>
        cases Y with
        | nil => simp
        | cons y Y => simp
    simp only [linearB0Err, h1, Np.bin, List.length_map, hl, if_true]
    rw [e1, Fl.sum_fin, ← hl]
    exact congrArg _ (fitErr_value X.length hn _ (sqErr_nonneg _ _ _))
  · rw [div_eq_zero_iff, or_iff_left hn', Real.sqrt_eq_zero (sqErr_nonneg _ _ _)]
    constructor
    · intro h0 p hp
      have := sqErr_zero h0 p hp
      rw [this, add_zero]
    · intro h0
      exact sqErr_exact fun p hp => by rw [h0 p hp, add_zero]

/-- C28: on equally long finite arrays with two different `x`, `LinearB` returns the only line of least
squared error. -/
theorem C28_best_line (q : LSQ F) (hq : q.Good) (X Y : List F) (hl : X.length = Y.length)
    (h : ∃ x ∈ X, ∃ x' ∈ X, x ≠ x') :
    ∃ m b, linearB q (X.map .fin) (Y.map .fin) = .ok (.fin m, .fin b) ∧
      BestLine (X.zip Y) m b :=
  linearB_fin hq X Y hl h

theorem sqErr_zip_map (X Y : List F) (f : F → F → F) (m b : F) :
    sqErr (X.zip (List.zipWith f X Y)) m b
      = ((X.zip Y).map fun p => (f p.1 p.2 - (m * p.1 + b)) ^ 2).sum := by
  induction X generalizing Y with
  | nil => simp [sqErr]
  | cons x X ih =>
    cases Y with
    | nil => simp [sqErr]
    | cons y Y =>
      have := ih Y
      simp only [sqErr, List.zip_cons_cons, List.zipWith_cons_cons, List.map_cons, List.sum_cons]
        at this ⊢
      rw [this]

/-- C28: data on a line give that line. -/
theorem C28_exact (q : LSQ F) (hq : q.Good) (X : List F) (m b : F)
    (h : ∃ x ∈ X, ∃ x' ∈ X, x ≠ x') :
    linearB q (X.map .fin) ((X.map fun x => m * x + b).map .fin) = .ok (.fin m, .fin b) := by
  obtain ⟨m', b', h1, h2⟩ := C28_best_line q hq X (X.map fun x => m * x + b) (by simp) h
  rw [h1]
  by_contra hne
  have hne : (m, b) ≠ (m', b') := fun e => hne (by cases e; rfl)
  have hlt := h2 m b hne
  have hz : sqErr (X.zip (X.map fun x => m * x + b)) m b = 0 := by
    refine sqErr_exact fun p hp => ?_
    clear * - hp
    induction X with
    | nil => simp at hp
    | cons x X ih =>
      rw [List.map_cons, List.zip_cons_cons, List.mem_cons] at hp
      rcases hp with rfl | hp
      · rfl
      · exact ih hp
  rw [hz] at hlt
  exact absurd (sqErr_nonneg _ _ _) (not_le.2 hlt)

/-- C28: replacing every `y` by `s*y + k*x + c` turns the fitted line `m*x + b` into
`(s*m + k)*x + (s*b + c)`; in particular a constant added to `y` changes only the offset. -/
theorem C28_affine (q : LSQ F) (hq : q.Good) (X Y : List F) (hl : X.length = Y.length)
    (h : ∃ x ∈ X, ∃ x' ∈ X, x ≠ x') (s k c m b : F)
    (hm : linearB q (X.map .fin) (Y.map .fin) = .ok (.fin m, .fin b)) :
    linearB q (X.map .fin) ((List.zipWith (fun x y => s * y + k * x + c) X Y).map .fin)
      = .ok (.fin (s * m + k), .fin (s * b + c)) := by
  obtain ⟨m0, b0, h1, h2⟩ := C28_best_line q hq X Y hl h
  rw [h1] at hm; cases hm
  obtain ⟨m', b', g1, g2⟩ := C28_best_line q hq X (List.zipWith (fun x y => s * y + k * x + c) X Y)
    (by simp [← hl]) h
  rw [g1]
  have key : ∀ m' b' : F, sqErr (X.zip (List.zipWith (fun x y => s * y + k * x + c) X Y))
      (s * m' + k) (s * b' + c) = s ^ 2 * sqErr (X.zip Y) m' b' := by
    intro m' b'
    rw [sqErr_zip_map]
    show S _ _ = s ^ 2 * S _ _
    rw [← S_mul]
    exact S_congr fun p _ => by ring
  by_contra hne
  have hne : (s * m + k, s * b + c) ≠ (m', b') := fun e => hne (by cases e; rfl)
  have hlt := g2 _ _ hne
  rw [key] at hlt
  by_cases hs : s = 0
  · subst hs
    simp only [zero_mul, ne_eq, OfNat.ofNat_ne_zero, not_false_eq_true, zero_pow] at hlt
    exact absurd (sqErr_nonneg _ _ _) (not_le.2 hlt)
  · have e := key ((m' - k) / s) ((b' - c) / s)
    rw [show s * ((m' - k) / s) + k = m' by field_simp; ring,
      show s * ((b' - c) / s) + c = b' by field_simp; ring] at e
    rw [e] at hlt
    have hle : sqErr (X.zip Y) m b ≤ sqErr (X.zip Y) ((m' - k) / s) ((b' - c) / s) := by
      by_cases he : ((m' - k) / s, (b' - c) / s) = (m, b)
      · cases he; exact le_rfl
      · exact (h2 _ _ he).le
    exact absurd (mul_le_mul_of_nonneg_left hle (sq_nonneg s)) (not_le.2 hlt)

/-- C28: `ValueError` for arrays that cannot be broadcast, `TypeError` for less than two points, and no other error. -/
theorem C28_rejected (q : LSQ F) (X Y : List (Fl F)) (e : PyErr) : linearB q X Y = .error e ↔
    Mismatch X Y ∧ e = .valueError ∨
      ¬ Mismatch X Y ∧ (X = [] ∨ Y = [] ∨ X.length = 1 ∧ Y.length = 1) ∧ e = .typeError := by
  unfold linearB
  rcases bin_cases (fun x y : Fl F => x * .fin 1 + .fin 1 - y) X Y with ⟨h, hb⟩ | ⟨h, r, hb, hr⟩
  · rw [hb]; simp [h, eq_comm]
  · rw [hb]
    simp only [hr]
    by_cases h0 : X = [] ∨ Y = []
    · rw [if_pos h0, if_pos (by omega)]
      have : X = [] ∨ Y = [] ∨ X.length = 1 ∧ Y.length = 1 := by tauto
      simp [h, this, eq_comm]
    · have h1 : X.length ≠ 0 := by rw [Ne, List.length_eq_zero_iff]; tauto
      have h2 : Y.length ≠ 0 := by rw [Ne, List.length_eq_zero_iff]; tauto
      rw [if_neg h0]
      push Not at h0
      by_cases h3 : max X.length Y.length < 2
      · rw [if_pos h3]
        have : X.length = 1 ∧ Y.length = 1 := by omega
        simp [h, this, eq_comm]
      · rw [if_neg h3]
        have : ¬ (X.length = 1 ∧ Y.length = 1) := by omega
        simp [h, h0, this]

/-- C28: the reported fit error. -/
theorem C28_fit_error (q : LSQ ℝ) (hq : q.Good) (X Y : List ℝ) (hl : X.length = Y.length)
    (h : ∃ x ∈ X, ∃ x' ∈ X, x ≠ x') :
    ∃ m b e, linearB q (X.map .fin) (Y.map .fin) = .ok (.fin m, .fin b) ∧
      linearBErr q (X.map .fin) (Y.map .fin) = .ok (.fin e) ∧
      e = Real.sqrt (sqErr (X.zip Y) m b) / X.length ∧
      (e = 0 ↔ ∀ p ∈ X.zip Y, p.2 = m * p.1 + b) := by
  obtain ⟨m, b, h1, -⟩ := C28_best_line q hq X Y hl h
  obtain ⟨x, hx, -⟩ := h
  have hn : 1 ≤ X.length := List.length_pos_of_mem hx
  have hn' : (X.length : ℝ) ≠ 0 := by exact_mod_cast (by omega : X.length ≠ 0)
  refine ⟨m, b, _, h1, ?_, rfl, ?_⟩
  · simp only [linearBErr, h1, Np.bin, List.length_map, hl, if_true]
    rw [zipWith_fin_resid, Fl.sum_fin, ← hl]
    exact congrArg _ (fitErr_value X.length hn _ (sqErr_nonneg _ _ _))
  · rw [div_eq_zero_iff, or_iff_left hn', Real.sqrt_eq_zero (sqErr_nonneg _ _ _)]
    exact ⟨sqErr_zero, sqErr_exact⟩

/-! ### cases meeting the hypotheses -/

/-- a solver meeting the assumption exists -/
example : (exactLSQ ℚ).Good := exactLSQ_good

/-- points (1,2), (2,5), (0,7): slope 12/5 through the origin; line -x + 17/3 -/
example : linearB0 (exactLSQ ℚ) ([1, 2, 0].map .fin) ([2, 5, 7].map .fin) = .ok (.fin (12 / 5)) ∧
    linearB (exactLSQ ℚ) ([1, 2, 0].map .fin) ([2, 5, 7].map .fin) = .ok (.fin (-1), .fin (17 / 3)) := by
  constructor <;> decide +kernel

example : (∃ x ∈ [1, 2, (0 : ℚ)], x ≠ 0) ∧ (∃ x ∈ [1, 2, (0 : ℚ)], ∃ x' ∈ [1, 2, (0 : ℚ)], x ≠ x') := by
  decide +kernel

end Emva
