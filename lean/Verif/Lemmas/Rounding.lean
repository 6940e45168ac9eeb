import Verif.Py.Rounding
import Mathlib.Analysis.SpecialFunctions.Pow.Real
import Mathlib.Analysis.Real.Sqrt
import Mathlib.Algebra.Order.BigOperators.Group.List

/-!
Errors of floating point operations: relative errors as factors, sums, sums of squared deviations.
-/
set_option autoImplicit false
namespace Emva

/-- `x'` is `x` up to the factor `g` -/
def Rel (g x' x : ℝ) : Prop := |x' - x| ≤ (g - 1) * |x|

namespace Rel
variable {u : ℝ} {R : Rounding u}

theorem refl (x : ℝ) : Rel 1 x x := by simp [Rel]

theorem abs_le {g x' x : ℝ} (h : Rel g x' x) : |x'| ≤ g * |x| := by
  have := abs_add_le (x' - x) x
  rw [sub_add_cancel] at this
  unfold Rel at h
  linarith

theorem rnd {g x' x : ℝ} (h : Rel g x' x) : Rel (g * (1 + u)) (R.rnd x') x := by
  have h1 := R.err x'
  have h2 := mul_le_mul_of_nonneg_left h.abs_le R.u_nonneg
  have h3 := abs_add_le (R.rnd x' - x') (x' - x)
  rw [sub_add_sub_cancel] at h3
  unfold Rel at *
  nlinarith

theorem div {g x' x : ℝ} (h : Rel g x' x) (c : ℝ) : Rel g (x' / c) (x / c) := by
  unfold Rel at *
  rw [← sub_div, abs_div, abs_div, ← mul_div_assoc]
  exact div_le_div_of_nonneg_right h (abs_nonneg c)

theorem mul {g g' x' x y' y : ℝ} (h : Rel g x' x) (h' : Rel g' y' y) (hg' : 1 ≤ g') :
    Rel (g * g') (x' * y') (x * y) := by
  have h1 := h.abs_le
  have h2 := h'.abs_le
  unfold Rel at *
  have e : x' * y' - x * y = (x' - x) * y' + x * (y' - y) := by ring
  rw [e]
  refine (abs_add_le _ _).trans ?_
  rw [abs_mul, abs_mul, abs_mul]
  have a1 : |x' - x| * |y'| ≤ (g - 1) * |x| * (g' * |y|) :=
    mul_le_mul h h2 (abs_nonneg _) ((abs_nonneg _).trans h)
  have a2 : |x| * |y' - y| ≤ |x| * ((g' - 1) * |y|) := mul_le_mul_of_nonneg_left h' (abs_nonneg _)
  nlinarith

theorem mono {g g' x' x : ℝ} (h : Rel g x' x) (hg : g ≤ g') : Rel g' x' x := by
  unfold Rel at *
  exact h.trans (mul_le_mul_of_nonneg_right (by linarith) (abs_nonneg x))

/-- sums of numbers with relative errors, of one sign -/
theorem sum {ι : Type*} (I : List ι) {g : ℝ} (hg : 1 ≤ g) (x' x : ι → ℝ) (hx : ∀ i ∈ I, 0 ≤ x i)
    (h : ∀ i ∈ I, Rel g (x' i) (x i)) {s : ℝ} {d : ℕ} (hs : SumOf R (I.map x') s d) :
    Rel (g * (1 + u) ^ d) s (I.map x).sum := by
  have hu := R.u_nonneg
  have a0 : 0 ≤ (I.map x).sum := List.sum_nonneg fun y hy => by
    obtain ⟨i, hi, rfl⟩ := List.mem_map.1 hy
    exact hx i hi
  have a1 : |(I.map x').sum - (I.map x).sum| ≤ (g - 1) * (I.map x).sum := by
    clear hs a0
    induction I with
    | nil => simp
    | cons i I ih =>
      have h1 := h i (.head _)
      have h2 := ih (fun j hj => hx j (.tail _ hj)) (fun j hj => h j (.tail _ hj))
      simp only [List.map_cons, List.sum_cons]
      have h3 := abs_add_le (x' i - x i) ((I.map x').sum - (I.map x).sum)
      unfold Rel at h1
      rw [abs_of_nonneg (hx i (.head _))] at h1
      rw [show x' i + (I.map x').sum - (x i + (I.map x).sum) = (x' i - x i) + ((I.map x').sum - (I.map x).sum) by ring]
      linarith
  have a2 : ((I.map x').map fun y => |y|).sum ≤ g * (I.map x).sum := by
    clear hs a0 a1
    induction I with
    | nil => simp
    | cons i I ih =>
      have h1 := (h i (.head _)).abs_le
      have h2 := ih (fun j hj => hx j (.tail _ hj)) (fun j hj => h j (.tail _ hj))
      simp only [List.map_cons, List.sum_cons]
      rw [abs_of_nonneg (hx i (.head _))] at h1
      linarith
  have a3 := hs.err
  have hp : 1 ≤ (1 + u) ^ d := one_le_pow₀ (by linarith)
  have a4 := mul_le_mul_of_nonneg_left a2 (by linarith : 0 ≤ (1 + u) ^ d - 1)
  have a5 := abs_add_le (s - (I.map x').sum) ((I.map x').sum - (I.map x).sum)
  rw [sub_add_sub_cancel] at a5
  unfold Rel
  rw [abs_of_nonneg a0]
  nlinarith

end Rel

/-- `t` is near the square mean `q` (of numbers with errors up to `e`, up to the factor `f`) -/
def NearSq (f e t q : ℝ) : Prop := |t - q| ≤ f * (√q + e) ^ 2 - q

theorem NearSq.rel {f e t q g t' : ℝ} (h : NearSq f e t q) (hq : 0 ≤ q) (h' : Rel g t' t) (hg : 1 ≤ g) :
    NearSq (g * f) e t' q := by
  unfold NearSq Rel at *
  have h1 := abs_add_le (t' - t) (t - q)
  rw [sub_add_sub_cancel] at h1
  have h2 := abs_add_le (t - q) q
  rw [sub_add_cancel, abs_of_nonneg hq] at h2
  have h3 : (g - 1) * |t| ≤ (g - 1) * (f * (√q + e) ^ 2) :=
    mul_le_mul_of_nonneg_left (by linarith) (by linarith)
  nlinarith

theorem sum_sq_le {ι : Type*} (I : List ι) (x : ι → ℝ) (q : ℝ) (hq : (I.map fun i => x i ^ 2).sum = I.length * q)
    (hn : I ≠ []) : 0 ≤ q ∧ (I.map fun i => |x i|).sum ≤ I.length * √q := by
  have hl : (0 : ℝ) < I.length := by exact_mod_cast List.length_pos_of_ne_nil hn
  have s0 : 0 ≤ (I.map fun i => x i ^ 2).sum := List.sum_nonneg fun y hy => by
    obtain ⟨i, -, rfl⟩ := List.mem_map.1 hy
    exact sq_nonneg _
  have hq0 : 0 ≤ q := by
    rw [hq] at s0
    exact nonneg_of_mul_nonneg_right s0 hl
  refine ⟨hq0, ?_⟩
  -- for every c > 0
  have key : ∀ c : ℝ, 2 * c * (I.map fun i => |x i|).sum ≤ (I.map fun i => x i ^ 2).sum + I.length * c ^ 2 := by
    intro c
    clear hq hn hl s0
    induction I with
    | nil => simp
    | cons i I ih =>
      simp only [List.map_cons, List.sum_cons, List.length_cons]
      push_cast
      have := sq_nonneg (|x i| - c)
      rw [sub_sq, sq_abs] at this
      nlinarith
  by_cases h0 : q = 0
  · -- all the numbers are 0
    rw [h0, Real.sqrt_zero, mul_zero]
    rw [h0, mul_zero] at hq
    have h1 := key 1
    by_contra hc
    rw [not_le] at hc
    set A := (I.map fun i => |x i|).sum
    have h2 := key (A / I.length)
    rw [hq, zero_add] at h2
    have : 2 * (A / I.length) * A - I.length * (A / I.length) ^ 2 = A ^ 2 / I.length := by
      field_simp
      ring
    have : 0 < A ^ 2 / I.length := by positivity
    linarith
  · have hs : 0 < √q := Real.sqrt_pos.2 (lt_of_le_of_ne hq0 (Ne.symm h0))
    have h2 := key √q
    rw [hq, Real.sq_sqrt hq0] at h2
    have e : (I.length : ℝ) * q + I.length * q = 2 * √q * (I.length * √q) := by
      have := Real.mul_self_sqrt hq0
      linear_combination (-2 * (I.length : ℝ)) * this
    rw [e] at h2
    exact le_of_mul_le_mul_left h2 (by positivity)

/-- the sum of the squared deviations -/
theorem devsq {u : ℝ} {R : Rounding u} {ι : Type*} (I : List ι) (hn : I ≠ []) (x' x : ι → ℝ) (m' m e1 e2 : ℝ)
    (h1 : ∀ i ∈ I, |x' i - x i| ≤ e1) (h2 : |m' - m| ≤ e2) {s : ℝ} {d : ℕ}
    (hs : SumOf R (I.map fun i => R.rnd (R.rnd (x' i - m') * R.rnd (x' i - m'))) s d) :
    NearSq ((1 + u) ^ (d + 3)) (e1 + e2) (s / I.length) ((I.map fun i => (x i - m) ^ 2).sum / I.length) := by
  have hu := R.u_nonneg
  have hl : (0 : ℝ) < I.length := by exact_mod_cast List.length_pos_of_ne_nil hn
  set q := (I.map fun i => (x i - m) ^ 2).sum / I.length with hq
  have hqs : (I.map fun i => (x i - m) ^ 2).sum = I.length * q := by rw [hq]; field_simp
  obtain ⟨hq0, hsum⟩ := sum_sq_le I (fun i => x i - m) q hqs hn
  have he1 : 0 ≤ e1 := by
    obtain ⟨i, hi⟩ := List.exists_mem_of_ne_nil I hn
    exact (abs_nonneg _).trans (h1 i hi)
  have he2 : 0 ≤ e2 := (abs_nonneg _).trans h2
  set e := e1 + e2 with he
  have he0 : 0 ≤ e := add_nonneg he1 he2
  -- the operations up to the sum
  have rel : ∀ i ∈ I, Rel ((1 + u) ^ 3) (R.rnd (R.rnd (x' i - m') * R.rnd (x' i - m'))) ((x' i - m') ^ 2) := by
    intro i _
    have a := (Rel.refl (x' i - m')).rnd (R := R)
    rw [one_mul] at a
    have b := (a.mul a (by linarith)).rnd (R := R)
    rw [sq (x' i - m')]
    refine b.mono (le_of_eq ?_)
    ring
  have a1 := Rel.sum I (one_le_pow₀ (by linarith)) _ (fun i => (x' i - m') ^ 2) (fun i _ => sq_nonneg _) rel hs
  rw [← pow_add, add_comm 3 d] at a1
  have a2 := a1.div I.length
  -- the exact squares
  have a3 : ∀ J : List ι, (∀ i ∈ J, i ∈ I) →
      |(J.map fun i => (x' i - m') ^ 2).sum - (J.map fun i => (x i - m) ^ 2).sum|
        ≤ 2 * e * (J.map fun i => |x i - m|).sum + J.length * e ^ 2 := by
    intro J hJ
    induction J with
    | nil => simp
    | cons i J ih =>
      have ih' := ih fun j hj => hJ j (.tail _ hj)
      have b1 : |x' i - m' - (x i - m)| ≤ e := by
        have := abs_sub (x' i - x i) (m' - m)
        rw [show x' i - m' - (x i - m) = x' i - x i - (m' - m) by ring]
        have := h1 i (hJ i (.head _))
        linarith
      have b2 : |(x' i - m') ^ 2 - (x i - m) ^ 2| ≤ 2 * e * |x i - m| + e ^ 2 := by
        set z := x' i - m' - (x i - m) with hz
        have : (x' i - m') ^ 2 - (x i - m) ^ 2 = 2 * z * (x i - m) + z ^ 2 := by rw [hz]; ring
        rw [this]
        refine (abs_add_le _ _).trans ?_
        rw [abs_mul, abs_mul, abs_two, abs_pow]
        have c1 := mul_le_mul_of_nonneg_right b1 (abs_nonneg (x i - m))
        have c2 := pow_le_pow_left₀ (abs_nonneg z) b1 2
        linarith
      simp only [List.map_cons, List.sum_cons, List.length_cons]
      push_cast
      have b3 := abs_add_le ((x' i - m') ^ 2 - (x i - m) ^ 2)
        ((J.map fun i => (x' i - m') ^ 2).sum - (J.map fun i => (x i - m) ^ 2).sum)
      rw [show (x' i - m') ^ 2 + (J.map fun i => (x' i - m') ^ 2).sum - ((x i - m) ^ 2 + (J.map fun i => (x i - m) ^ 2).sum)
        = ((x' i - m') ^ 2 - (x i - m) ^ 2)
          + ((J.map fun i => (x' i - m') ^ 2).sum - (J.map fun i => (x i - m) ^ 2).sum) by ring]
      linarith
  have a4 := a3 I fun _ h => h
  have a5 : NearSq 1 e ((I.map fun i => (x' i - m') ^ 2).sum / I.length) q := by
    unfold NearSq
    rw [one_mul]
    have b1 : |(I.map fun i => (x' i - m') ^ 2).sum / I.length - q|
        = |(I.map fun i => (x' i - m') ^ 2).sum - (I.map fun i => (x i - m) ^ 2).sum| / I.length := by
      rw [hq, ← sub_div, abs_div, abs_of_pos hl]
    rw [b1, div_le_iff₀ hl]
    refine a4.trans ?_
    have b2 := mul_le_mul_of_nonneg_left hsum (by linarith : 0 ≤ 2 * e)
    have b3 : ((√q + e) ^ 2 - q) * I.length = 2 * e * (I.length * √q) + I.length * e ^ 2 := by
      have := Real.sq_sqrt hq0
      linear_combination (I.length : ℝ) * this
    rw [b3]
    linarith
  have a6 := a5.rel hq0 a2 (one_le_pow₀ (by linarith))
  rw [mul_one] at a6
  exact a6

/-- the factor of `k` operations -/
theorem growth {u : ℝ} (hu : 0 ≤ u) (k : ℕ) (hk : k * u ≤ 1 / 2) : (1 + u) ^ k ≤ 1 + 2 * k * u := by
  by_cases h0 : k = 0
  · subst h0; simp
  have hk1 : (1 : ℝ) ≤ k := by exact_mod_cast Nat.one_le_iff_ne_zero.2 h0
  have hu1 : u ≤ 1 / 2 := by nlinarith
  have b := one_add_mul_le_pow (a := -u) (by linarith) k
  have e : (1 + u) ^ k * (1 + -u) ^ k ≤ 1 := by
    rw [← mul_pow]
    refine pow_le_one₀ (by nlinarith) (by nlinarith [sq_nonneg u])
  have p0 : 0 ≤ (1 + u) ^ k := by positivity
  have h1 : (1 + u) ^ k * (1 - k * u) ≤ 1 := by
    refine le_trans (mul_le_mul_of_nonneg_left ?_ p0) e
    linarith
  have h2 : 1 ≤ (1 + 2 * k * u) * (1 - k * u) := by
    have : 0 ≤ k * u := by positivity
    nlinarith
  have h3 : 0 < 1 - k * u := by linarith
  exact le_of_mul_le_mul_right (h1.trans h2) h3

end Emva
