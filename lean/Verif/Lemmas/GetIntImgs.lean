import Verif.Model.GetIntImgs
import Verif.Spec.Stats
import Mathlib.Data.Int.ModEq
import Mathlib.Algebra.BigOperators.Ring.List
import Mathlib.Algebra.Order.BigOperators.Group.List
import Mathlib.Tactic.Ring
import Mathlib.Tactic.Linarith
import Mathlib.Tactic.FieldSimp
import Mathlib.Tactic.Positivity

set_option autoImplicit false
namespace Emva
open Finset
set_option linter.unusedSectionVars false
variable {F : Type*} [Field F] [LinearOrder F] [IsStrictOrderedRing F]

/-! ### wrap-around -/

theorem i64_modEq (x : ℤ) : i64 x ≡ x [ZMOD 2 ^ 64] := by
  unfold i64
  have := Int.bmod_emod (x := x) (m := 2 ^ 64)
  simpa [Int.ModEq] using this

theorem i64_eq_of_modEq {x y : ℤ} (h : x ≡ y [ZMOD 2 ^ 64]) : i64 x = i64 y := by
  unfold i64
  unfold Int.bmod
  simp only [Int.ModEq] at h
  norm_num at h ⊢
  rw [h]

theorem i64_of_mem {x : ℤ} (h0 : -2 ^ 63 ≤ x) (h1 : x < 2 ^ 63) : i64 x = x := by
  unfold i64
  apply Int.bmod_eq_of_le <;> norm_num at * <;> omega

theorem i64_of_nonneg {x : ℤ} (h0 : 0 ≤ x) (h1 : x < 2 ^ 63) : i64 x = x :=
  i64_of_mem (by norm_num; omega) h1

@[simp] theorem i64_i64 (x : ℤ) : i64 (i64 x) = i64 x := i64_eq_of_modEq (i64_modEq x)

/-! ### the loop invariant, exact integers -/

/-- values of pixel `(r, c)` through the series -/
def pxs (imgs : List Img) (r c : ℕ) : List ℤ := imgs.map fun a => a.px r c

theorem foldl_sum_id (imgs : List Img) (s : IntAcc F) (r c : ℕ) :
    (imgs.foldl (intStep id) s).sum r c = s.sum r c + (pxs imgs r c).sum := by
  induction imgs generalizing s with
  | nil => simp [pxs]
  | cons a t ih => simp [ih, intStep, pxs]; ring

theorem foldl_sq_id (imgs : List Img) (s : IntAcc F) (r c : ℕ) :
    (imgs.foldl (intStep id) s).sq r c
      = s.sq r c + ((pxs imgs r c).map fun x => x * x).sum := by
  induction imgs generalizing s with
  | nil => simp [pxs]
  | cons a t ih => simp [ih, intStep, pxs]; ring

theorem sum_id (imgs : List Img) (r c : ℕ) :
    (getIntImgs F id imgs).sum r c = (pxs imgs r c).sum := by
  simp [getIntImgs, foldl_sum_id, intInit]

theorem pvar_id (imgs : List Img) (r c : ℕ) :
    (getIntImgs F id imgs).pvar r c = imgs.length *
      (imgs.length * ((pxs imgs r c).map fun x => x * x).sum - (pxs imgs r c).sum ^ 2) := by
  simp [getIntImgs, foldl_sum_id, foldl_sq_id, intInit]; left; ring

/-! ### the loop invariant, int64 -/

theorem foldl_sum_i64 (imgs : List Img) (s : IntAcc F) (r c : ℕ) :
    (imgs.foldl (intStep i64) s).sum r c ≡ s.sum r c + (pxs imgs r c).sum [ZMOD 2 ^ 64] := by
  induction imgs generalizing s with
  | nil => simp [pxs]
  | cons a t ih =>
    refine (ih _).trans ?_
    have : (intStep i64 s a).sum r c ≡ s.sum r c + a.px r c [ZMOD 2 ^ 64] :=
      (i64_modEq _).trans ((Int.ModEq.refl _).add (i64_modEq _))
    simpa [pxs, add_assoc] using this.add_right ((pxs t r c).sum)

theorem foldl_sq_i64 (imgs : List Img) (s : IntAcc F) (r c : ℕ) :
    (imgs.foldl (intStep i64) s).sq r c
      ≡ s.sq r c + ((pxs imgs r c).map fun x => x * x).sum [ZMOD 2 ^ 64] := by
  induction imgs generalizing s with
  | nil => simp [pxs]
  | cons a t ih =>
    refine (ih _).trans ?_
    have : (intStep i64 s a).sq r c ≡ s.sq r c + a.px r c * a.px r c [ZMOD 2 ^ 64] :=
      (i64_modEq _).trans ((Int.ModEq.refl _).add
        ((i64_modEq _).trans ((i64_modEq _).mul (i64_modEq _))))
    simpa [pxs, add_assoc] using this.add_right (((pxs t r c).map fun x => x * x).sum)

theorem sum_i64_modEq (imgs : List Img) (r c : ℕ) :
    (getIntImgs F i64 imgs).sum r c ≡ (pxs imgs r c).sum [ZMOD 2 ^ 64] := by
  simpa [getIntImgs, intInit] using foldl_sum_i64 (F := F) imgs intInit r c

theorem pvar_i64 (imgs : List Img) (r c : ℕ) :
    (getIntImgs F i64 imgs).pvar r c = i64 ((getIntImgs F id imgs).pvar r c) := by
  rw [pvar_id]
  have h1 := foldl_sum_i64 (F := F) imgs intInit r c
  have h2 := foldl_sq_i64 (F := F) imgs intInit r c
  simp only [intInit, zero_add] at h1 h2
  apply i64_eq_of_modEq
  refine Int.ModEq.mul_left _ ((i64_modEq _).trans (Int.ModEq.sub ?_ ?_))
  · exact (i64_modEq _).trans (Int.ModEq.mul_left _ h2)
  · rw [sq]; exact (i64_modEq _).trans (h1.mul h1)

/-- the running sum is a canonical int64 value as soon as there is one image -/
theorem sum_i64 (imgs : List Img) (r c : ℕ) :
    (getIntImgs F i64 imgs).sum r c = i64 ((pxs imgs r c).sum) := by
  have canon : ∀ (l : List Img) (s : IntAcc F), i64 (s.sum r c) = s.sum r c →
      i64 ((l.foldl (intStep i64) s).sum r c) = (l.foldl (intStep i64) s).sum r c := by
    intro l
    induction l with
    | nil => intro s h; simpa using h
    | cons a t ih => intro s _; exact ih _ (by simp [intStep])
  have h0 := canon imgs (intInit (F := F)) (by simp [intInit, i64])
  have : (getIntImgs F i64 imgs).sum r c = (imgs.foldl (intStep i64) (intInit (F := F))).sum r c :=
    rfl
  rw [this, ← h0]
  exact i64_eq_of_modEq (sum_i64_modEq (F := F) imgs r c)

/-! ### variance algebra -/

theorem sum_sq_dev (l : List F) (m : F) :
    (l.map fun x => (x - m) ^ 2).sum
      = (l.map fun x => x * x).sum - 2 * m * l.sum + l.length * m ^ 2 := by
  induction l with
  | nil => simp
  | cons a t ih => simp [ih]; ring

theorem sampleVar_eq (l : List F) (h : 2 ≤ l.length) :
    (l.length : F) ^ 2 * (l.length - 1) * Spec.sampleVar l
      = l.length * (l.length * (l.map fun x => x * x).sum - l.sum ^ 2) := by
  have hL : (0 : F) < l.length := by exact_mod_cast (by omega : 0 < l.length)
  have hL1 : (0 : F) < (l.length : F) - 1 := by
    have : (2 : F) ≤ l.length := by exact_mod_cast h
    linarith
  unfold Spec.sampleVar
  rw [sum_sq_dev]
  unfold Spec.mean
  have h1 := hL.ne'
  have h2 := hL1.ne'
  field_simp
  ring

theorem sum_sq_dev_nonneg (l : List ℤ) : 0 ≤ (l.length : ℤ) * (l.map fun x => x * x).sum - l.sum ^ 2 := by
  induction l with
  | nil => simp
  | cons a t ih =>
    -- L Σx² - S² is increased by Σ (x - a)²
    have key : (0 : ℤ) ≤ (t.map fun x => (x - a) ^ 2).sum :=
      List.sum_nonneg (by simp only [List.mem_map]; rintro _ ⟨x, _, rfl⟩; positivity)
    have e : (t.map fun x => (x - a) ^ 2).sum
        = (t.map fun x => x * x).sum - 2 * a * t.sum + t.length * a ^ 2 := by
      clear ih key
      induction t with
      | nil => simp
      | cons b u ih => simp [ih]; ring
    rw [e] at key
    simp only [List.map_cons, List.sum_cons, List.length_cons]
    push_cast
    nlinarith

theorem sum_sq_dev_eq_zero (l : List ℤ)
    (h : (l.length : ℤ) * (l.map fun x => x * x).sum - l.sum ^ 2 = 0) :
    ∀ x ∈ l, ∀ y ∈ l, x = y := by
  induction l with
  | nil => simp
  | cons a t ih =>
    have ih0 := sum_sq_dev_nonneg t
    have key : ∀ x ∈ t.map (fun x => (x - a) ^ 2), (0 : ℤ) ≤ x := by
      simp only [List.mem_map]; rintro _ ⟨x, _, rfl⟩; positivity
    have e : (t.map fun x => (x - a) ^ 2).sum
        = (t.map fun x => x * x).sum - 2 * a * t.sum + t.length * a ^ 2 := by
      clear ih key h ih0
      induction t with
      | nil => simp
      | cons b u ih => simp [ih]; ring
    simp only [List.map_cons, List.sum_cons, List.length_cons] at h
    push_cast at h
    have h0 : (t.map fun x => (x - a) ^ 2).sum = 0 := by
      have := List.sum_nonneg key
      rw [e] at this ⊢
      nlinarith
    have all : ∀ x ∈ t, x = a := by
      intro x hx
      have hx' : (x - a) ^ 2 ≤ 0 := by
        rw [← h0]
        exact List.single_le_sum key _ (List.mem_map.2 ⟨x, hx, rfl⟩)
      have : (x - a) ^ 2 = 0 := le_antisymm hx' (by positivity)
      have := pow_eq_zero_iff (two_ne_zero) |>.1 this
      omega
    intro x hx y hy
    have hx' : x = a := by rcases List.mem_cons.1 hx with h | h; exacts [h, all x h]
    have hy' : y = a := by rcases List.mem_cons.1 hy with h | h; exacts [h, all y h]
    rw [hx', hy']

theorem sum_sq_dev_of_const (l : List ℤ) (h : ∀ x ∈ l, ∀ y ∈ l, x = y) :
    (l.length : ℤ) * (l.map fun x => x * x).sum - l.sum ^ 2 = 0 := by
  cases l with
  | nil => simp
  | cons a t =>
    have hr : a :: t = List.replicate (t.length + 1) a := by
      rw [List.eq_replicate_iff]
      exact ⟨by simp, fun x hx => h x hx a (by simp)⟩
    rw [hr]
    simp
    ring

/-- `L Σx² - S² ≤ (L B)² / 4` for values in `[0, B]`. -/
theorem sum_sq_dev_le (l : List ℤ) (B : ℤ) (h : ∀ x ∈ l, 0 ≤ x ∧ x ≤ B) :
    4 * ((l.length : ℤ) * (l.map fun x => x * x).sum - l.sum ^ 2) ≤ ((l.length : ℤ) * B) ^ 2 := by
  have h1 : (l.map fun x => x * x).sum ≤ B * l.sum := by
    induction l with
    | nil => simp
    | cons a t ih =>
      have ha := h a (by simp)
      have := ih fun x hx => h x (List.mem_cons_of_mem _ hx)
      simp only [List.map_cons, List.sum_cons]
      nlinarith
  have hl : (0 : ℤ) ≤ l.length := by positivity
  nlinarith [sq_nonneg ((l.length : ℤ) * B - 2 * l.sum), mul_le_mul_of_nonneg_left h1 hl]

theorem sum_bounds (l : List ℤ) (B : ℤ) (h : ∀ x ∈ l, 0 ≤ x ∧ x ≤ B) :
    0 ≤ l.sum ∧ l.sum ≤ l.length * B := by
  induction l with
  | nil => simp
  | cons a t ih =>
    have ha := h a (by simp)
    have := ih fun x hx => h x (List.mem_cons_of_mem _ hx)
    simp only [List.sum_cons, List.length_cons]
    push_cast
    constructor <;> nlinarith

theorem pvar_bounds (imgs : List Img) (B : ℤ) (r c : ℕ)
    (h : ∀ a ∈ imgs, 0 ≤ a.px r c ∧ a.px r c ≤ B) :
    0 ≤ (getIntImgs F id imgs).pvar r c ∧
      4 * (getIntImgs F id imgs).pvar r c ≤ (imgs.length : ℤ) ^ 3 * B ^ 2 := by
  have h' : ∀ x ∈ pxs imgs r c, 0 ≤ x ∧ x ≤ B := by
    simp only [pxs, List.mem_map]; rintro _ ⟨a, ha, rfl⟩; exact h a ha
  have h1 := sum_sq_dev_le _ _ h'
  have h2 := sum_sq_dev_nonneg (pxs imgs r c)
  have hl : (pxs imgs r c).length = imgs.length := by simp [pxs]
  rw [hl] at h1 h2
  rw [pvar_id]
  have hL : (0 : ℤ) ≤ imgs.length := by positivity
  constructor
  · positivity
  · nlinarith [mul_le_mul_of_nonneg_left h1 hL]

/-! ### dmean -/

/-- conversion of an image to int64 -/
def Img.as64 (wr : ℤ → ℤ) (a : Img) : Img := { a with px := fun r c => wr (a.px r c) }

theorem foldl_dmean (wr : ℤ → ℤ) (imgs : List Img) (s : IntAcc F) (o : Img) (d : F)
    (ho : 0 < o.size) (hs : s.oi = some o) (hd : s.dmean = .fin d)
    (hsz : ∀ a ∈ imgs, 0 < a.size) :
    (imgs.foldl (intStep wr) s).dmean
      = .fin (d + ((((imgs.map (Img.as64 wr)).getLast?.getD o).total : F)
            / (((imgs.map (Img.as64 wr)).getLast?.getD o).size : F) - o.total / o.size)) := by
  induction imgs generalizing s o d with
  | nil => simp [hd]
  | cons a t ih =>
    have ha := hsz a (by simp)
    have hsa : ((Img.as64 wr a).size : F) ≠ 0 := by
      have : 0 < (Img.as64 wr a).size := ha
      exact_mod_cast this.ne'
    have hso : (o.size : F) ≠ 0 := by exact_mod_cast ho.ne'
    have hd' : (intStep wr s a).dmean = .fin (d + ((Img.as64 wr a).total / (Img.as64 wr a).size
        - o.total / o.size)) := by
      show (match s.oi with
        | none => s.dmean
        | some oi => s.dmean + ((Img.as64 wr a).mean F - oi.mean F)) = _
      rw [hs, hd]
      simp [Img.mean, Fl.fin_div hsa, Fl.fin_div hso]
    rw [List.foldl_cons, ih (intStep wr s a) (Img.as64 wr a) _ ha rfl hd'
      (fun b hb => hsz b (List.mem_cons_of_mem _ hb))]
    congr 1
    have : ((a :: t).map (Img.as64 wr)).getLast?.getD o
        = ((t.map (Img.as64 wr)).getLast?.getD (Img.as64 wr a)) := by
      simp [List.getLast?_cons]
    rw [this]
    ring

theorem dmean_eq (wr : ℤ → ℤ) (a : Img) (t : List Img) (hsz : ∀ b ∈ a :: t, 0 < b.size) :
    (getIntImgs F wr (a :: t)).dmean
      = .fin ((((((a :: t).map (Img.as64 wr)).getLast (by simp)).total : F)
            / ((((a :: t).map (Img.as64 wr)).getLast (by simp)).size : F)
          - (Img.as64 wr a).total / (Img.as64 wr a).size)) := by
  have := foldl_dmean (F := F) wr t (intStep wr intInit a) (Img.as64 wr a) 0
    (hsz a (by simp)) rfl rfl (fun b hb => hsz b (List.mem_cons_of_mem _ hb))
  show (t.foldl (intStep wr) (intStep wr intInit a)).dmean = _
  rw [this]
  have e : ((a :: t).map (Img.as64 wr)).getLast (by simp)
      = (t.map (Img.as64 wr)).getLast?.getD (Img.as64 wr a) := by
    rw [List.getLast_eq_iff_getLast?_eq_some]
    simp [List.getLast?_cons]
  rw [e]
  congr 1
  ring

end Emva
