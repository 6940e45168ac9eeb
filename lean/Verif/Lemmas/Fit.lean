import Verif.Model.Fit
import Verif.Spec.Fit
import Mathlib.Tactic.FieldSimp
import Mathlib.Tactic.LinearCombination
import Mathlib.Algebra.Order.BigOperators.Group.List

/-!
Least squares over lists of points.
-/
set_option autoImplicit false
set_option linter.unusedSectionVars false
namespace Emva
open Spec
variable {F : Type} [Field F] [LinearOrder F] [IsStrictOrderedRing F]

namespace Fit

/-- sums over points -/
def S (f : F × F → F) (pts : List (F × F)) : F := (pts.map f).sum

@[simp] theorem S_nil (f : F × F → F) : S f [] = 0 := rfl
@[simp] theorem S_cons (f : F × F → F) (p) (l) : S f (p :: l) = f p + S f l := by simp [S]

theorem S_nonneg {f : F × F → F} (hf : ∀ p, 0 ≤ f p) (l) : 0 ≤ S f l := by
  induction l with
  | nil => simp
  | cons p l ih => rw [S_cons]; exact add_nonneg (hf p) ih

theorem S_eq_zero {f : F × F → F} (hf : ∀ p, 0 ≤ f p) {l} (h : S f l = 0) : ∀ p ∈ l, f p = 0 := by
  induction l with
  | nil => simp
  | cons p l ih =>
    rw [S_cons] at h
    have h1 := hf p
    have h2 := S_nonneg hf l
    intro r hr
    rcases List.mem_cons.1 hr with rfl | hr
    · linarith
    · exact ih (by linarith) r hr

theorem S_pos {f : F × F → F} (hf : ∀ p, 0 ≤ f p) {l} {p} (hp : p ∈ l) (h : f p ≠ 0) :
    0 < S f l :=
  lt_of_le_of_ne (S_nonneg hf l) fun h0 => h (S_eq_zero hf h0.symm p hp)

theorem S_congr {f g : F × F → F} {l} (h : ∀ p ∈ l, f p = g p) : S f l = S g l := by
  induction l with
  | nil => rfl
  | cons p l ih =>
    rw [S_cons, S_cons, h p (by simp), ih fun q hq => h q (List.mem_cons_of_mem _ hq)]

theorem S_mul (c : F) (f : F × F → F) (l) : S (fun p => c * f p) l = c * S f l := by
  induction l with
  | nil => simp
  | cons p l ih => rw [S_cons, S_cons, ih, mul_add]

def Sx := S (F := F) fun p => p.1
def Sy := S (F := F) fun p => p.2
def Sxx := S (F := F) fun p => p.1 * p.1
def Sxy := S (F := F) fun p => p.1 * p.2
def Syy := S (F := F) fun p => p.2 * p.2

theorem sqErr_expand (l : List (F × F)) (m b : F) :
    sqErr l m b = m ^ 2 * Sxx l + 2 * m * b * Sx l + b ^ 2 * l.length - 2 * m * Sxy l - 2 * b * Sy l
      + Syy l := by
  induction l with
  | nil => simp [sqErr, Sx, Sy, Sxx, Sxy, Syy]
  | cons p l ih =>
    simp only [sqErr, List.map_cons, List.sum_cons, Sx, Sy, Sxx, Sxy, Syy, S_cons,
      List.length_cons, Nat.cast_add, Nat.cast_one] at ih ⊢
    rw [ih]; ring

/-- squared difference of two lines over the points -/
theorem S_line (l : List (F × F)) (m b : F) :
    S (fun p => (m * p.1 + b) ^ 2) l = m ^ 2 * Sxx l + 2 * m * b * Sx l + b ^ 2 * l.length := by
  induction l with
  | nil => simp [Sx, Sxx]
  | cons p l ih =>
    simp only [Sx, Sxx, S_cons, List.length_cons, Nat.cast_add, Nat.cast_one] at ih ⊢
    rw [ih]; ring

/-- The error of any line in terms of a solution of the normal equations. -/
theorem sqErr_normal {l : List (F × F)} {m b : F} (h1 : m * Sxx l + b * Sx l = Sxy l)
    (h2 : m * Sx l + b * l.length = Sy l) (m' b' : F) :
    sqErr l m' b' = sqErr l m b + S (fun p => ((m' - m) * p.1 + (b' - b)) ^ 2) l := by
  rw [S_line, sqErr_expand, sqErr_expand, ← h1, ← h2]; ring

theorem sqErr_normal0 {l : List (F × F)} {m : F} (h1 : m * Sxx l = Sxy l) (m' : F) :
    sqErr l m' 0 = sqErr l m 0 + (m' - m) ^ 2 * Sxx l := by
  rw [sqErr_expand, sqErr_expand, ← h1]; ring

theorem Sxx_pos {l : List (F × F)} (h : ∃ p ∈ l, p.1 ≠ 0) : 0 < Sxx l := by
  obtain ⟨p, hp, h⟩ := h
  exact S_pos (fun p => mul_self_nonneg _) hp (mul_self_ne_zero.2 h)

/-- the discriminant of the normal equations -/
theorem disc_eq (l : List (F × F)) (hl : l ≠ []) :
    (l.length : F) * Sxx l - Sx l * Sx l
      = l.length * S (fun p => (1 * p.1 + -(Sx l / l.length)) ^ 2) l := by
  have hn : (l.length : F) ≠ 0 := by
    exact_mod_cast (List.length_pos_of_ne_nil hl).ne'
  rw [S_line]; field_simp; ring

theorem disc_pos {l : List (F × F)} (h : ∃ p ∈ l, ∃ p' ∈ l, p.1 ≠ p'.1) :
    0 < (l.length : F) * Sxx l - Sx l * Sx l := by
  obtain ⟨p, hp, p', hp', hne⟩ := h
  have hl : l ≠ [] := List.ne_nil_of_mem hp
  have hn : 0 < (l.length : F) := by exact_mod_cast List.length_pos_of_ne_nil hl
  rw [disc_eq l hl]
  refine mul_pos hn (lt_of_le_of_ne (S_nonneg (fun _ => sq_nonneg _) l) fun h0 => hne ?_)
  have hz := S_eq_zero (fun _ => sq_nonneg _) h0.symm
  have a := pow_eq_zero_iff (two_ne_zero) |>.1 (hz p hp)
  have b := pow_eq_zero_iff (two_ne_zero) |>.1 (hz p' hp')
  linear_combination a - b

theorem bestSlope_unique {l : List (F × F)} {m m' : F} (h : BestSlope l m)
    (hm : ∀ k, sqErr l m' 0 ≤ sqErr l k 0) : m' = m := by
  by_contra hne
  exact absurd (hm m) (not_le.2 (h m' hne))

theorem bestLine_unique {l : List (F × F)} {m b m' b' : F} (h : BestLine l m b)
    (hm : ∀ k c, sqErr l m' b' ≤ sqErr l k c) : m' = m ∧ b' = b := by
  by_contra hne
  exact absurd (hm m b) (not_le.2 (h m' b' fun e => hne (by cases e; exact ⟨rfl, rfl⟩)))

theorem bestSlope_of {l : List (F × F)} (h : ∃ p ∈ l, p.1 ≠ 0) : BestSlope l (Sxy l / Sxx l) := by
  have hp := Sxx_pos h
  intro m' hne
  rw [sqErr_normal0 (m := Sxy l / Sxx l) (by field_simp) m']
  have : 0 < (m' - Sxy l / Sxx l) ^ 2 := by
    have := sub_ne_zero.2 hne; positivity
  nlinarith [mul_pos this hp]

theorem bestLine_of_normal {l : List (F × F)} (h : ∃ p ∈ l, ∃ p' ∈ l, p.1 ≠ p'.1) {m b : F}
    (h1 : m * Sxx l + b * Sx l = Sxy l) (h2 : m * Sx l + b * l.length = Sy l) :
    BestLine l m b := by
  intro m' b' hne
  rw [sqErr_normal h1 h2 m' b']
  obtain ⟨p, hp, p', hp', hx⟩ := h
  refine lt_add_of_pos_right _ (lt_of_le_of_ne (S_nonneg (fun _ => sq_nonneg _) l) fun h0 => hne ?_)
  have hz := S_eq_zero (fun _ => sq_nonneg _) h0.symm
  have a := pow_eq_zero_iff (two_ne_zero) |>.1 (hz p hp)
  have c := pow_eq_zero_iff (two_ne_zero) |>.1 (hz p' hp')
  have hm : (m' - m) * (p.1 - p'.1) = 0 := by linear_combination a - c
  have hm : m' - m = 0 := (mul_eq_zero.1 hm).resolve_right (sub_ne_zero.2 hx)
  have hb : b' - b = 0 := by rw [hm] at a; linear_combination a
  rw [sub_eq_zero.1 hm, sub_eq_zero.1 hb]

/-- slope of the normal equations -/
def slope (l : List (F × F)) : F :=
  ((l.length : F) * Sxy l - Sx l * Sy l) / ((l.length : F) * Sxx l - Sx l * Sx l)

theorem bestLine_of {l : List (F × F)} (h : ∃ p ∈ l, ∃ p' ∈ l, p.1 ≠ p'.1) :
    BestLine l (slope l) ((Sy l - slope l * Sx l) / l.length) := by
  have hd := disc_pos h
  obtain ⟨p, hp, _⟩ := id h
  have hn : (l.length : F) ≠ 0 := by
    exact_mod_cast (List.length_pos_of_ne_nil (List.ne_nil_of_mem hp)).ne'
  have hs : slope l * ((l.length : F) * Sxx l - Sx l * Sx l) = (l.length : F) * Sxy l - Sx l * Sy l := by
    unfold slope; exact div_mul_cancel₀ _ hd.ne'
  apply bestLine_of_normal h
  · have : (l.length : F) * (slope l * Sxx l + (Sy l - slope l * Sx l) / l.length * Sx l - Sxy l)
        = 0 := by
      have e : (l.length : F) * ((Sy l - slope l * Sx l) / l.length) = Sy l - slope l * Sx l := by
        field_simp
      linear_combination hs + Sx l * e
    exact sub_eq_zero.1 ((mul_eq_zero.1 this).resolve_left hn)
  · field_simp; ring

/-! ### the arrays as lists of points -/

theorem sumSq_residB (X Y : List F) (m b : F) :
    sumSq (residB m b X Y) = sqErr (X.zip Y) m b := by
  induction X generalizing Y with
  | nil => simp [sumSq, residB, sqErr]
  | cons x X ih =>
    cases Y with
    | nil => simp [sumSq, residB, sqErr]
    | cons y Y =>
      have := ih Y
      simp only [sumSq, residB, sqErr, List.zip_cons_cons, List.zipWith_cons_cons, List.map_cons,
        List.sum_cons] at this ⊢
      rw [this]; ring

theorem sumSq_residB0 (X Y : List F) (m : F) :
    sumSq (residB0 m X Y) = sqErr (X.zip Y) m 0 := by
  rw [← sumSq_residB]; simp [residB, residB0]

theorem zip_fst_sum (X Y : List F) (h : X.length = Y.length) : Sx (X.zip Y) = X.sum := by
  have := List.map_fst_zip (l₁ := X) (l₂ := Y) h.le
  show ((X.zip Y).map Prod.fst).sum = _
  rw [this]

theorem zip_snd_sum (X Y : List F) (h : X.length = Y.length) : Sy (X.zip Y) = Y.sum := by
  have := List.map_snd_zip (l₁ := X) (l₂ := Y) h.ge
  show ((X.zip Y).map Prod.snd).sum = _
  rw [this]

theorem zip_sxx (X Y : List F) (h : X.length = Y.length) :
    Sxx (X.zip Y) = (X.map fun a => a * a).sum := by
  conv_rhs => rw [← List.map_fst_zip (l₁ := X) (l₂ := Y) h.le]
  simp [Sxx, S, Function.comp_def]

theorem zip_sxy (X Y : List F) : Sxy (X.zip Y) = (List.zipWith (· * ·) X Y).sum := by
  simp only [Sxy, S, List.zip, List.map_zipWith]

theorem finite?_map (l : List F) : finite? (l.map .fin) = some l := by
  induction l with
  | nil => rfl
  | cons x l ih => simp [finite?, ih]

theorem zip_len (X Y : List F) (h : X.length = Y.length) : (X.zip Y).length = X.length := by
  simp [h]

/-- The normal equation solver meets the assumption. -/
theorem exactLSQ_good : (exactLSQ F).Good where
  b0 := by
    intro X Y hl h1
    refine ⟨_, by simp only [exactLSQ, finite?_map]; rfl, fun m' => ?_⟩
    rw [sumSq_residB0, sumSq_residB0, ← zip_sxy, ← zip_sxx X Y hl]
    by_cases h : Sxx (X.zip Y) = 0
    · have hz := S_eq_zero (fun p => mul_self_nonneg _) h
      have hxy : Sxy (X.zip Y) = 0 := by
        rw [show (0 : F) = S (fun _ => 0) (X.zip Y) by simp [S]]
        refine S_congr fun p hp => ?_
        rw [mul_self_eq_zero.1 (hz p hp), zero_mul]
      rw [sqErr_expand, sqErr_expand, h, hxy]; simp
    · rw [sqErr_normal0 (m := Sxy (X.zip Y) / Sxx (X.zip Y)) (by field_simp) m']
      have := S_nonneg (fun p => mul_self_nonneg _) (f := fun p : F × F => p.1 * p.1) (X.zip Y)
      have := mul_nonneg (sq_nonneg (m' - Sxy (X.zip Y) / Sxx (X.zip Y))) this
      exact le_add_of_nonneg_right this
  b := by
    intro X Y hl h2
    refine ⟨_, _, by simp only [exactLSQ, finite?_map]; rfl, fun m' c' => ?_⟩
    rw [sumSq_residB, sumSq_residB, ← zip_sxy, ← zip_sxx X Y hl, ← zip_fst_sum X Y hl,
      ← zip_snd_sum X Y hl, ← zip_len X Y hl]
    set l := X.zip Y with hldef
    have hlen : 2 ≤ l.length := by rw [hldef, zip_len X Y hl]; exact h2
    by_cases h : ∃ p ∈ l, ∃ p' ∈ l, p.1 ≠ p'.1
    · by_cases hne : (m', c') = (slope l, (Sy l - slope l * Sx l) / l.length)
      · cases hne; exact le_rfl
      · exact (bestLine_of h _ _ hne).le
    · push Not at h
      obtain ⟨p0, hp0⟩ : ∃ p, p ∈ l := List.exists_mem_of_length_pos (by omega)
      have hn : (l.length : F) ≠ 0 := by
        have : l.length ≠ 0 := by omega
        exact_mod_cast this
      have hx : Sx l = l.length * p0.1 := by
        rw [show Sx l = S (fun _ => p0.1) l from S_congr fun p hp => h p hp p0 hp0]
        simp [S]
      have hxx : Sxx l = l.length * (p0.1 * p0.1) := by
        rw [show Sxx l = S (fun _ => p0.1 * p0.1) l from S_congr fun p hp => by
          rw [h p hp p0 hp0]]
        simp [S]
      have hxy : Sxy l = p0.1 * Sy l := by
        rw [show Sxy l = S (fun p => p0.1 * p.2) l from S_congr fun p hp => by
          rw [h p hp p0 hp0]]
        exact S_mul _ _ l
      have hd : (l.length : F) * Sxx l - Sx l * Sx l = 0 := by rw [hx, hxx]; ring
      rw [hd, div_zero, zero_mul, sub_zero]
      rw [sqErr_normal (l := l) (m := 0) (b := Sy l / l.length) (by rw [hx, hxy]; field_simp; ring)
        (by field_simp; ring) m' c']
      exact le_add_of_nonneg_right (S_nonneg (fun _ => sq_nonneg _) l)

/-! ### the model's functions on finite data -/

theorem linearB0_fin {q : LSQ F} (hq : q.Good) (X Y : List F) (hl : X.length = Y.length)
    (h : ∃ x ∈ X, x ≠ 0) :
    ∃ m, linearB0 q (X.map .fin) (Y.map .fin) = .ok (.fin m) ∧ BestSlope (X.zip Y) m ∧
      m = Sxy (X.zip Y) / Sxx (X.zip Y) := by
  obtain ⟨x, hx, hx0⟩ := h
  have h1 : 1 ≤ X.length := List.length_pos_of_mem hx
  obtain ⟨m, hm, hmin⟩ := hq.b0 X Y hl h1
  have hpt : ∃ p ∈ X.zip Y, p.1 ≠ 0 := by
    rw [← List.map_fst_zip (l₁ := X) (l₂ := Y) hl.le, List.mem_map] at hx
    obtain ⟨p, hp, rfl⟩ := hx
    exact ⟨p, hp, hx0⟩
  have hb := bestSlope_of hpt
  have he : m = _ := bestSlope_unique hb fun k => by
    rw [← sumSq_residB0, ← sumSq_residB0]; exact hmin k
  refine ⟨m, ?_, he ▸ hb, he⟩
  simp only [linearB0, Np.bin, List.length_map, hl, if_true, List.length_zipWith, min_self]
  rw [if_neg (by omega), hm]

theorem linearB_fin {q : LSQ F} (hq : q.Good) (X Y : List F) (hl : X.length = Y.length)
    (h : ∃ x ∈ X, ∃ x' ∈ X, x ≠ x') :
    ∃ m b, linearB q (X.map .fin) (Y.map .fin) = .ok (.fin m, .fin b) ∧ BestLine (X.zip Y) m b := by
  obtain ⟨x, hx, x', hx', hne⟩ := h
  have h2 : 2 ≤ X.length := by
    match X, hx, hx' with
    | [a], hx, hx' =>
      rw [List.mem_singleton] at hx hx'
      exact absurd (hx.trans hx'.symm) hne
    | a :: b :: t, _, _ => simp
  obtain ⟨m, b, hm, hmin⟩ := hq.b X Y hl h2
  have hpt : ∃ p ∈ X.zip Y, ∃ p' ∈ X.zip Y, p.1 ≠ p'.1 := by
    rw [← List.map_fst_zip (l₁ := X) (l₂ := Y) hl.le, List.mem_map] at hx hx'
    obtain ⟨p, hp, rfl⟩ := hx
    obtain ⟨p', hp', rfl⟩ := hx'
    exact ⟨p, hp, p', hp', hne⟩
  have hb := bestLine_of hpt
  have he := bestLine_unique hb fun k c => by
    rw [← sumSq_residB, ← sumSq_residB]; exact hmin k c
  refine ⟨m, b, ?_, by rw [he.1, he.2]; exact hb⟩
  simp only [linearB, Np.bin, List.length_map, hl, if_true, List.length_zipWith, min_self]
  rw [if_neg (by omega), hm]

/-! ### equivariance of the best line -/

theorem sqErr_exact {l : List (F × F)} {m b : F} (h : ∀ p ∈ l, p.2 = m * p.1 + b) :
    sqErr l m b = 0 := by
  have : sqErr l m b = S (fun _ => 0) l := S_congr fun p hp => by rw [h p hp]; ring
  rw [this]; simp [S]

theorem sqErr_nonneg (l : List (F × F)) (m b : F) : 0 ≤ sqErr l m b :=
  S_nonneg (f := fun p => (p.2 - (m * p.1 + b)) ^ 2) (fun _ => sq_nonneg _) l

theorem sqErr_zero {l : List (F × F)} {m b : F} (h : sqErr l m b = 0) :
    ∀ p ∈ l, p.2 = m * p.1 + b := fun p hp =>
  sub_eq_zero.1 (pow_eq_zero_iff two_ne_zero |>.1
    (S_eq_zero (f := fun p => (p.2 - (m * p.1 + b)) ^ 2) (fun _ => sq_nonneg _) h p hp))

end Fit
end Emva
