import Verif.Model.Histogram
import Verif.Spec.Histogram
import Mathlib.Tactic.Linarith
import Mathlib.Tactic.Ring
import Mathlib.Tactic.Positivity
import Mathlib.Algebra.BigOperators.Group.List.Lemmas
import Mathlib.Algebra.Order.BigOperators.Group.List

set_option autoImplicit false
namespace Emva
namespace Routines
open Spec

theorem foldl_min_spec (l : List ℤ) (x : ℤ) : IsMin (x :: l) (l.foldl min x) := by
  induction l generalizing x with
  | nil => exact ⟨by simp, by simp⟩
  | cons a l ih =>
    obtain ⟨h1, h2⟩ := ih (min x a)
    rw [List.foldl_cons]
    refine ⟨?_, ?_⟩
    · rcases List.mem_cons.1 h1 with h | h
      · rw [h]; rcases min_choice x a with e | e <;> rw [e] <;> simp
      · exact List.mem_cons_of_mem _ (List.mem_cons_of_mem _ h)
    · intro v hv
      have h0 := h2 (min x a) (List.mem_cons_self ..)
      rcases List.mem_cons.1 hv with rfl | hv
      · exact h0.trans (min_le_left _ _)
      · rcases List.mem_cons.1 hv with rfl | hv
        · exact h0.trans (min_le_right _ _)
        · exact h2 v (List.mem_cons_of_mem _ hv)

theorem foldl_max_spec (l : List ℤ) (x : ℤ) : IsMax (x :: l) (l.foldl max x) := by
  induction l generalizing x with
  | nil => exact ⟨by simp, by simp⟩
  | cons a l ih =>
    obtain ⟨h1, h2⟩ := ih (max x a)
    rw [List.foldl_cons]
    refine ⟨?_, ?_⟩
    · rcases List.mem_cons.1 h1 with h | h
      · rw [h]; rcases max_choice x a with e | e <;> rw [e] <;> simp
      · exact List.mem_cons_of_mem _ (List.mem_cons_of_mem _ h)
    · intro v hv
      have h0 := h2 (max x a) (List.mem_cons_self ..)
      rcases List.mem_cons.1 hv with rfl | hv
      · exact (le_max_left _ _).trans h0
      · rcases List.mem_cons.1 hv with rfl | hv
        · exact (le_max_right _ _).trans h0
        · exact h2 v (List.mem_cons_of_mem _ hv)

theorem isMin_unique {l : List ℤ} {a b : ℤ} (ha : IsMin l a) (hb : IsMin l b) : a = b :=
  le_antisymm (ha.2 b hb.1) (hb.2 a ha.1)

theorem isMax_unique {l : List ℤ} {a b : ℤ} (ha : IsMax l a) (hb : IsMax l b) : a = b :=
  le_antisymm (hb.2 a ha.1) (ha.2 b hb.1)

theorem minZ_of {l : List ℤ} {m : ℤ} (h : IsMin l m) : minZ l = some m := by
  cases l with
  | nil => exact absurd h.1 (by simp)
  | cons x l => rw [minZ, isMin_unique (foldl_min_spec l x) h]

theorem maxZ_of {l : List ℤ} {m : ℤ} (h : IsMax l m) : maxZ l = some m := by
  cases l with
  | nil => exact absurd h.1 (by simp)
  | cons x l => rw [maxZ, isMax_unique (foldl_max_spec l x) h]

theorem min_max_cases (l : List ℤ) : (l = [] ∧ minZ l = none ∧ maxZ l = none) ∨
    ∃ a b, minZ l = some a ∧ maxZ l = some b ∧ IsMin l a ∧ IsMax l b := by
  cases l with
  | nil => exact .inl ⟨rfl, rfl, rfl⟩
  | cons x l => exact .inr ⟨_, _, rfl, rfl, foldl_min_spec l x, foldl_max_spec l x⟩

theorem exists_isMin {l : List ℤ} (h : l ≠ []) : ∃ m, IsMin l m := by
  obtain ⟨x, t, rfl⟩ := List.exists_cons_of_ne_nil h
  exact ⟨_, foldl_min_spec t x⟩

theorem exists_isMax {l : List ℤ} (h : l ≠ []) : ∃ m, IsMax l m := by
  obtain ⟨x, t, rfl⟩ := List.exists_cons_of_ne_nil h
  exact ⟨_, foldl_max_spec t x⟩

theorem binWidth_pos (q Qmax : ℕ) : 0 < binWidth q Qmax := by
  unfold binWidth; split <;> exact Nat.succ_pos _

theorem binCount_pos (q Qmax : ℕ) : 0 < binCount q Qmax := by
  unfold binCount; split <;> exact Nat.succ_pos _

theorem binCount_le (q Qmax : ℕ) (h : 0 < Qmax) : binCount q Qmax ≤ Qmax := by
  unfold binCount binWidth
  split
  · have h1 : q < Qmax * (q / Qmax + 1) := Nat.lt_mul_div_succ q h
    have : q / (q / Qmax + 1) < Qmax := Nat.div_lt_of_lt_mul (by rw [mul_comm]; exact h1)
    omega
  · omega

theorem q_lt (q Qmax : ℕ) : q < binCount q Qmax * binWidth q Qmax := by
  unfold binCount
  split
  · rename_i h
    have := Nat.lt_mul_div_succ q (binWidth_pos q Qmax)
    rw [mul_comm]; exact this
  · rename_i h
    simp [binWidth, h]

/-- the last bin holds the maximum -/
theorem q_ge (q Qmax : ℕ) : (binCount q Qmax - 1) * binWidth q Qmax ≤ q := by
  unfold binCount
  split
  · simpa using Nat.div_mul_le_self q (binWidth q Qmax)
  · rename_i h
    simp [binWidth, h]

/-- equally spaced edges -/
theorem edges_succ (m : ℤ) (W Q : ℕ) :
    (List.range (Q + 1)).map (fun i : ℕ => m + (i : ℤ) * (W : ℤ))
      = m :: (List.range Q).map (fun i : ℕ => (m + W) + (i : ℤ) * (W : ℤ)) := by
  rw [List.range_succ_eq_map, List.map_cons, List.map_map]
  simp only [Nat.cast_zero, zero_mul, add_zero, List.cons.injEq, true_and]
  refine List.map_congr_left fun i _ => ?_
  simp only [Function.comp, Nat.cast_succ]; ring

theorem npHistogram_edges (y : List ℤ) (m : ℤ) (W Q : ℕ) (hQ : 0 < Q) :
    npHistogram y ((List.range (Q + 1)).map fun i : ℕ => m + (i : ℤ) * (W : ℤ))
      = (List.range Q).map fun k : ℕ => y.countP fun v =>
        decide (m + k * W ≤ v ∧ if k + 1 = Q then v ≤ m + (k + 1) * W else v < m + (k + 1) * W) := by
  induction Q generalizing m with
  | zero => omega
  | succ Q ih =>
    rcases Nat.eq_zero_or_pos Q with rfl | hQ'
    · simp [npHistogram, List.range_succ]
    · obtain ⟨P, rfl⟩ : ∃ P, Q = P + 1 := ⟨Q - 1, by omega⟩
      have h := ih (m + W) hQ'
      rw [edges_succ] at h ⊢
      rw [edges_succ]
      obtain ⟨c, t, ht⟩ : ∃ c t, (List.range (P + 1)).map
          (fun i : ℕ => (m + W + W) + (i : ℤ) * (W : ℤ)) = c :: t := by
        rw [edges_succ]; exact ⟨_, _, rfl⟩
      rw [ht] at h ⊢
      rw [npHistogram, h]
      swap
      · simp
      rw [List.range_succ_eq_map (n := P + 1), List.map_cons, List.map_map]
      congr 1
      · congr 1
        funext v
        simp
      · refine List.map_congr_left fun k _ => ?_
        simp only [Function.comp]
        congr 1
        funext v
        have e1 : m + (W : ℤ) + k * W = m + ((k.succ : ℕ) : ℤ) * W := by push_cast; ring
        have e2 : m + (W : ℤ) + (k + 1) * W = m + (((k.succ : ℕ) : ℤ) + 1) * W := by push_cast; ring
        rw [e1, e2]
        simp only [Nat.succ_eq_add_one, Nat.add_right_cancel_iff]

/-- The membership test of bin `k` for values below the last edge. -/
theorem bin_iff (m v : ℤ) (W k : ℕ) (hW : 0 < W) (h : m ≤ v) :
    (m + k * W ≤ v ∧ v < m + (k + 1) * W) ↔ ((v - m) / (W : ℤ)).toNat = k := by
  have hW' : (0 : ℤ) < W := by exact_mod_cast hW
  have hd := Int.mul_ediv_add_emod (v - m) W
  have h1 := Int.emod_nonneg (v - m) hW'.ne'
  have h2 := Int.emod_lt_of_pos (v - m) hW'
  have h0 : 0 ≤ (v - m) / (W : ℤ) := Int.ediv_nonneg (by omega) hW'.le
  constructor
  · rintro ⟨a, b⟩
    have : (v - m) / (W : ℤ) = k := by
      apply le_antisymm
      · apply Int.lt_add_one_iff.1
        exact Int.ediv_lt_of_lt_mul hW' (by linarith)
      · exact (Int.le_ediv_iff_mul_le hW').2 (by linarith)
    omega
  · intro e
    have e' : (v - m) / (W : ℤ) = k := by omega
    rw [e'] at hd
    constructor <;> nlinarith

theorem length_foldl_modify (m : ℤ) (W : ℕ) (y : List ℤ) (H : List ℕ) :
    (y.foldl (fun H yi => H.modify ((yi - m) / (W : ℤ)).toNat (· + 1)) H).length = H.length := by
  induction y generalizing H with
  | nil => rfl
  | cons v y ih => rw [List.foldl_cons, ih, List.length_modify]

theorem getElem?_foldl_modify (m : ℤ) (W : ℕ) (y : List ℤ) (H : List ℕ) (k : ℕ) :
    (y.foldl (fun H yi => H.modify ((yi - m) / (W : ℤ)).toNat (· + 1)) H)[k]?
      = H[k]?.map (· + y.countP fun v => decide (((v - m) / (W : ℤ)).toNat = k)) := by
  induction y generalizing H with
  | nil => simp
  | cons v y ih =>
    rw [List.foldl_cons, ih, List.getElem?_modify, List.countP_cons]
    cases hk : H[k]? with
    | none => by_cases h : ((v - m) / (W : ℤ)).toNat = k <;> simp [h]
    | some c =>
      by_cases h : ((v - m) / (W : ℤ)).toNat = k
      · simp [h]; omega
      · simp [h]

theorem sum_countP_eq (f : ℤ → ℕ) (y : List ℤ) (Q : ℕ) (h : ∀ v ∈ y, f v < Q) :
    ((List.range Q).map fun k => y.countP fun v => decide (f v = k)).sum = y.length := by
  induction y with
  | nil => simp
  | cons a y ih =>
    have hr : ((List.range Q).map fun k => (a :: y).countP fun v => decide (f v = k)).sum
        = ((List.range Q).map fun k => (y.countP fun v => decide (f v = k))
          + if f a = k then 1 else 0).sum := by
      congr 1
      refine List.map_congr_left fun k _ => ?_
      rw [List.countP_cons]; simp
    rw [hr, List.sum_map_add, ih fun v hv => h v (List.mem_cons_of_mem _ hv), List.length_cons]
    congr 1
    have ha := h a (List.mem_cons_self ..)
    have : ∀ n, f a < n → ((List.range n).map fun k => if f a = k then 1 else 0).sum = 1 := by
      intro n
      induction n with
      | zero => omega
      | succ n ihn =>
        intro hn
        rw [List.range_succ, List.map_append, List.sum_append]
        by_cases e : f a = n
        · have : ((List.range n).map fun k => if f a = k then 1 else 0).sum = 0 := by
            rw [List.sum_eq_zero]
            intro x hx
            obtain ⟨k, hk, rfl⟩ := List.mem_map.1 hx
            rw [if_neg]
            have := List.mem_range.1 hk
            omega
          rw [this]; simp [e]
        · rw [ihn (by omega)]; simp [e]
    exact this Q ha

end Routines
end Emva
