import Verif.Lemmas.Results2
import Verif.Lemmas.HighPass
import Verif.Model.ResultsHist

set_option autoImplicit false
set_option linter.unusedSectionVars false
namespace Emva
namespace Results
open Data Spec Routines
variable {F : Type} [Field F] [LinearOrder F]

theorem stable_sumDark : Stable (sumDark : M F _) := by unfold sumDark; stab
theorem stable_sumDiff : Stable (sumDiff : M F _) := by unfold sumDiff; stab
theorem stable_histogramPRNU : Stable (histogramPRNU : M F _) := by
  have := stable_sumDiff (F := F); unfold histogramPRNU; stab
theorem stable_histogramPRNUAccumulated : Stable (histogramPRNUAccumulated : M F _) := by
  have := stable_sumDiff (F := F); unfold histogramPRNUAccumulated; stab
theorem stable_histogramDSNU : Stable (histogramDSNU : M F _) := by
  have := stable_sumDark (F := F); unfold histogramDSNU; stab
theorem stable_histogramDSNUAccumulated : Stable (histogramDSNUAccumulated : M F _) := by
  have := stable_sumDark (F := F); unfold histogramDSNUAccumulated; stab

theorem cumsum_length (acc : ℕ) (l : List ℕ) : (cumsum acc l).length = l.length := by
  induction l generalizing acc with
  | nil => rfl
  | cons x l ih => simp [cumsum, ih]

theorem cumsum_getElem? (acc : ℕ) (l : List ℕ) (k : ℕ) (hk : k < l.length) :
    (cumsum acc l)[k]? = some (acc + (l.take (k + 1)).sum) := by
  induction l generalizing acc k with
  | nil => simp at hk
  | cons x l ih =>
    cases k with
    | zero => simp [cumsum]
    | succ k =>
      rw [cumsum, List.getElem?_cons_succ, ih _ _ (by simpa using hk)]
      simp [List.take_succ_cons, add_assoc]

/-- entry `k` of the accumulated histogram is the number of counts in the bins from `k` on -/
theorem accumulate_getElem? (l : List ℕ) (k : ℕ) (hk : k < l.length) :
    (accumulate l)[k]? = some (l.drop k).sum := by
  unfold accumulate
  rw [List.getElem?_reverse (by rw [cumsum_length, List.length_reverse]; exact hk), cumsum_length,
    List.length_reverse, cumsum_getElem? _ _ _ (by rw [List.length_reverse]; omega), zero_add]
  have : l.length - 1 - k + 1 = l.length - k := by omega
  rw [this, List.take_reverse]
  simp only [List.sum_reverse]
  congr 3
  omega

theorem accumulate_length (l : List ℕ) : (accumulate l).length = l.length := by
  simp [accumulate, cumsum_length]

theorem sum_indicator (n Q k : ℕ) :
    (((List.range Q).drop k).map fun j => if n = j then 1 else 0).sum
      = if k ≤ n ∧ n < Q then 1 else 0 := by
  induction Q with
  | zero => simp
  | succ Q ih =>
    rw [List.range_succ]
    rcases Nat.lt_or_ge Q k with hk | hk
    · rw [List.drop_eq_nil_of_le (by simp; omega), if_neg (by omega)]; rfl
    · rw [List.drop_append_of_le_length (by simpa using hk), List.map_append, List.sum_append, ih]
      simp only [List.map_cons, List.map_nil, List.sum_cons, List.sum_nil, add_zero]
      by_cases h1 : n = Q
      · rw [if_neg (by omega), if_pos h1, if_pos (by omega)]
      · rw [if_neg h1]
        by_cases h2 : k ≤ n ∧ n < Q
        · rw [if_pos h2, if_pos (by omega)]
        · rw [if_neg h2, if_neg (by omega)]

theorem drop_sum_countP (f : ℤ → ℕ) (y : List ℤ) (Q k : ℕ) (h : ∀ v ∈ y, f v < Q) :
    (((List.range Q).map fun k => y.countP fun v => decide (f v = k)).drop k).sum
      = y.countP fun v => decide (k ≤ f v) := by
  rw [← List.map_drop]
  induction y with
  | nil => simp
  | cons a y ih =>
    have hr : (((List.range Q).drop k).map fun k => (a :: y).countP fun v => decide (f v = k)).sum
        = (((List.range Q).drop k).map fun k => (y.countP fun v => decide (f v = k))
          + if f a = k then 1 else 0).sum := by
      congr 1
      refine List.map_congr_left fun k _ => ?_
      rw [List.countP_cons]; simp
    rw [hr, List.sum_map_add, ih fun v hv => h v (List.mem_cons_of_mem _ hv), sum_indicator,
      List.countP_cons]
    have := h a (List.mem_cons_self ..)
    simp [this]

end Results
end Emva
