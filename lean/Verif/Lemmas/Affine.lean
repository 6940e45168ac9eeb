import Verif.Spec.Affine
import Verif.Py.FlReal
import Mathlib.Algebra.Order.Ring.Unbundled.Basic
import Mathlib.Tactic.FieldSimp
import Mathlib.Tactic.Positivity

/-!
`a * x + b` on floats commutes with the arithmetic.
-/
set_option autoImplicit false
set_option linter.unusedSectionVars false
namespace Emva
namespace Spec
variable {F : Type} [Field F] [LinearOrder F] [IsStrictOrderedRing F]

@[simp] theorem aff_fin (a b x : F) : aff a b (.fin x) = .fin (a * x + b) := rfl
@[simp] theorem aff_nan (a b : F) : aff a b .nan = .nan := rfl
@[simp] theorem aff_inf (a b : F) (s : Bool) : aff a b (.inf s) = .inf s := rfl
@[simp] theorem scale_fin (a x : F) : scale a (.fin x) = .fin (a * x) := by simp [scale]
@[simp] theorem scale_nan (a : F) : scale a .nan = .nan := rfl
@[simp] theorem scale_inf (a : F) (s : Bool) : scale a (.inf s) = .inf s := rfl

@[simp] theorem aff_one_zero (x : Fl F) : aff 1 0 x = x := by cases x <;> simp
@[simp] theorem scale_one (x : Fl F) : scale 1 x = x := by cases x <;> simp

theorem aff_add (g a b : F) (x y : Fl F) : aff g a x + aff g b y = aff g (a + b) (x + y) := by
  cases x with
  | nan => simp
  | inf s => cases y with
    | nan => simp
    | inf t => cases s <;> cases t <;> rfl
    | fin y => rfl
  | fin x => cases y with
    | nan => simp
    | inf t => rfl
    | fin y => simp; ring

theorem aff_sub (g a b : F) (x y : Fl F) : aff g a x - aff g b y = aff g (a - b) (x - y) := by
  cases x with
  | nan => simp
  | inf s => cases y with
    | nan => simp
    | inf t => cases s <;> cases t <;> rfl
    | fin y => rfl
  | fin x => cases y with
    | nan => simp
    | inf t => rfl
    | fin y => simp; ring

/-- a common offset cancels -/
theorem aff_sub_aff (g a : F) (x y : Fl F) : aff g a x - aff g a y = scale g (x - y) := by
  rw [aff_sub, sub_self]; rfl

theorem scale_add (g : F) (x y : Fl F) : scale g x + scale g y = scale g (x + y) := by
  unfold scale; rw [aff_add, add_zero]

theorem scale_sub (g : F) (x y : Fl F) : scale g x - scale g y = scale g (x - y) := aff_sub_aff g 0 x y

theorem scale_mul {a b : F} (ha : 0 < a) (hb : 0 < b) (x y : Fl F) :
    scale a x * scale b y = scale (a * b) (x * y) := by
  cases x with
  | nan => simp
  | inf s => cases y with
    | nan => simp
    | inf t => rfl
    | fin y =>
      rw [scale_inf, scale_fin]
      show (if b * y = 0 then Fl.nan else Fl.inf (xor s (decide (b * y < 0)))) =
        scale _ (if y = 0 then Fl.nan else Fl.inf (xor s (decide (y < 0))))
      have h1 : b * y = 0 ↔ y = 0 := by simp [hb.ne']
      have h2 : b * y < 0 ↔ y < 0 := by rw [mul_neg_iff]; simp [hb, hb.le, not_lt.2 hb.le]
      by_cases hy : y = 0 <;> simp [h1, h2, hy]
  | fin x => cases y with
    | nan => simp
    | inf t =>
      rw [scale_inf, scale_fin]
      show (if a * x = 0 then Fl.nan else Fl.inf (xor t (decide (a * x < 0)))) =
        scale _ (if x = 0 then Fl.nan else Fl.inf (xor t (decide (x < 0))))
      have h1 : a * x = 0 ↔ x = 0 := by simp [ha.ne']
      have h2 : a * x < 0 ↔ x < 0 := by rw [mul_neg_iff]; simp [ha, not_lt.2 ha.le]
      by_cases hx : x = 0 <;> simp [h1, h2, hx]
    | fin y => simp; ring

theorem scale_div {a b : F} (ha : 0 < a) (hb : 0 < b) (x y : Fl F) :
    scale a x / scale b y = scale (a / b) (x / y) := by
  cases x with
  | nan => simp
  | inf s => cases y with
    | nan => simp
    | inf t => rfl
    | fin y =>
      rw [scale_inf, scale_fin]
      show Fl.inf (xor s (decide (b * y < 0))) = scale _ (Fl.inf (xor s (decide (y < 0))))
      have h2 : b * y < 0 ↔ y < 0 := by rw [mul_neg_iff]; simp [hb, not_lt.2 hb.le]
      simp [h2]
  | fin x => cases y with
    | nan => simp
    | inf t => rw [scale_inf, scale_fin]; show Fl.fin 0 = scale _ (Fl.fin 0); simp
    | fin y =>
      rw [scale_fin, scale_fin, Fl.fin_div_def, Fl.fin_div_def]
      have h1 : b * y = 0 ↔ y = 0 := by simp [hb.ne']
      have h2 : a * x < 0 ↔ x < 0 := by rw [mul_neg_iff]; simp [ha, not_lt.2 ha.le]
      have h3 : a * x = 0 ↔ x = 0 := by simp [ha.ne']
      by_cases hy : y = 0
      · by_cases hx : x = 0 <;> simp [h1, h2, h3, hy, hx]
      · simp only [h1, hy, if_false, scale_fin]
        congr 1
        field_simp

theorem scale_div_fin {a : F} (ha : 0 < a) (x : Fl F) (y : F) : scale a x / .fin y = scale a (x / .fin y) := by
  have := scale_div ha one_pos x (.fin y)
  simpa using this

theorem scale_mul_fin {a : F} (ha : 0 < a) (x : Fl F) (y : F) : .fin y * scale a x = scale a (.fin y * x) := by
  have := scale_mul one_pos ha (.fin y) x
  simpa using this

theorem scale_mul_fin' {a : F} (ha : 0 < a) (x : Fl F) (y : F) : scale a x * .fin y = scale a (x * .fin y) := by
  have := scale_mul ha one_pos x (.fin y)
  simpa using this

theorem scale_sq {a : F} (ha : 0 < a) (x : Fl F) : Fl.sq (scale a x) = scale (a ^ 2) (Fl.sq x) := by
  unfold Fl.sq; rw [scale_mul ha ha, sq]

theorem le_scale {a : F} (ha : 0 < a) (x y : Fl F) : Fl.le (scale a x) (scale a y) = Fl.le x y := by
  cases x <;> cases y <;> simp [Fl.le, ha]

theorem lt_scale {a : F} (ha : 0 < a) (x y : Fl F) : Fl.lt (scale a x) (scale a y) = Fl.lt x y := by
  cases x <;> cases y <;> simp [Fl.lt, ha]

theorem isNan_scale (a : F) (x : Fl F) : (scale a x).isNan = x.isNan := by cases x <;> simp [Fl.isNan]

theorem foldl_add_aff (g c : F) (l : List (Fl F)) (b : F) (x : Fl F) :
    (l.map (aff g c)).foldl (· + ·) (aff g b x) = aff g (b + l.length * c) (l.foldl (· + ·) x) := by
  induction l generalizing b x with
  | nil => simp
  | cons y l ih =>
    simp only [List.map_cons, List.foldl_cons, List.length_cons]
    rw [aff_add, ih]
    congr 1
    push_cast; ring

theorem sum_aff (g c : F) (l : List (Fl F)) : Fl.sum (l.map (aff g c)) = aff g (l.length * c) (Fl.sum l) := by
  have := foldl_add_aff g c l 0 (.fin 0)
  simpa [Fl.sum] using this

theorem sum_scale (g : F) (l : List (Fl F)) : Fl.sum (l.map (scale g)) = scale g (Fl.sum l) := by
  have := sum_aff g 0 l
  rw [mul_zero] at this
  exact this

theorem aff_div_fin {g : F} (hg : 0 < g) (c : F) (x : Fl F) {y : F} (hy : 0 < y) :
    aff g c x / .fin y = aff g (c / y) (x / .fin y) := by
  cases x with
  | nan => simp
  | inf s => simp only [aff_inf]; show Fl.inf _ = aff _ _ (Fl.inf _); simp
  | fin x => simp only [aff_fin, Fl.fin_div hy.ne']; congr 1; ring

theorem mean_aff {g : F} (hg : 0 < g) (c : F) (l : List (Fl F)) : Fl.mean (l.map (aff g c)) = aff g c (Fl.mean l) := by
  cases l with
  | nil => simp
  | cons x l =>
    have hl : (0 : F) < ((x :: l).length : ℕ) := by simp; positivity
    unfold Fl.mean
    rw [sum_aff, List.length_map, aff_div_fin hg _ _ hl]
    congr 1
    field_simp

theorem mean_scale {g : F} (hg : 0 < g) (l : List (Fl F)) : Fl.mean (l.map (scale g)) = scale g (Fl.mean l) :=
  mean_aff hg 0 l

theorem sqrt_scale {a : ℝ} (ha : 0 < a) (x : Fl ℝ) : Fl.sqrt (scale (a ^ 2) x) = scale a (Fl.sqrt x) := by
  cases x with
  | nan => rfl
  | inf s => cases s <;> rfl
  | fin x =>
    rw [scale_fin]
    unfold Fl.sqrt
    have h : a ^ 2 * x < 0 ↔ x < 0 := by rw [mul_neg_iff]; simp [ha, pow_pos ha 2, not_lt.2 (pow_pos ha 2).le]
    by_cases hx : x < 0
    · simp [h, hx]
    · simp only [h, hx, if_false, scale_fin]
      rw [Real.sqrt_mul (by positivity), Real.sqrt_sq ha.le]

end Spec
end Emva
