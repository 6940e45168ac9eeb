import Verif.Lemmas.Data
import Verif.Lemmas.GetIntImgs
import Verif.Spec.Stats

/-!
Lemmas about 2-D float arrays and the spatial statistics.
-/
set_option autoImplicit false
set_option linter.unusedSectionVars false
namespace Emva
namespace Data
open Py Loader Finset
variable {F : Type} [Field F] [LinearOrder F] [IsStrictOrderedRing F]

theorem sum_map_range {M : Type*} [AddCommMonoid M] (n : ℕ) (f : ℕ → M) :
    ((List.range n).map f).sum = ∑ i ∈ range n, f i := by
  induction n with
  | zero => simp
  | succ n ih => rw [List.range_succ, List.map_append, List.sum_append, ih, sum_range_succ]; simp

theorem flat_length {α : Type*} (h w : ℕ) (f : ℕ → ℕ → α) : (flat h w f).length = h * w := by
  simp [flat, List.length_flatMap]

theorem flat_map {α β : Type*} (h w : ℕ) (f : ℕ → ℕ → α) (g : α → β) :
    (flat h w f).map g = flat h w fun i j => g (f i j) := by
  simp [flat, List.map_flatMap, List.map_map, Function.comp_def]

theorem flat_sum {M : Type*} [AddCommMonoid M] (h w : ℕ) (f : ℕ → ℕ → M) :
    (flat h w f).sum = ∑ i ∈ range h, ∑ j ∈ range w, f i j := by
  rw [flat]
  have : ∀ l : List ℕ, (l.flatMap fun i => (List.range w).map (f i)).sum =
      (l.map fun i => ∑ j ∈ range w, f i j).sum := by
    intro l
    induction l with
    | nil => rfl
    | cons a l ih => rw [List.flatMap_cons, List.sum_append, ih, sum_map_range]; simp
  rw [this, sum_map_range]

theorem flat_congr {α : Type*} (h w : ℕ) (f g : ℕ → ℕ → α)
    (e : ∀ i < h, ∀ j < w, f i j = g i j) : flat h w f = flat h w g := by
  unfold flat
  refine List.flatMap_congr fun i hi => List.map_congr_left fun j hj => ?_
  exact e i (by simpa using hi) j (by simpa using hj)

theorem mean_flat (h w : ℕ) (hp : 0 < h * w) (f : ℕ → ℕ → F) :
    Fl.mean (flat h w fun i j => .fin (f i j)) = .fin (Spec.imgMean h w f) := by
  rw [← flat_map, Fl.mean_fin _ (by
    intro hc; have := flat_length h w f; rw [hc, List.length_nil] at this; omega)]
  rw [flat_sum, flat_length, Spec.imgMean]
  push_cast; rfl

theorem npVar1_flat (h w : ℕ) (hp : 2 ≤ h * w) (f : ℕ → ℕ → F) :
    npVar1 (flat h w fun i j => .fin (f i j)) = .fin (Spec.imgSampleVar h w f) := by
  unfold npVar1
  rw [mean_flat h w (by omega), flat_map]
  simp only [Fl.fin_sub, Fl.sq_fin]
  rw [← flat_map h w (fun i j => (f i j - Spec.imgMean h w f) * (f i j - Spec.imgMean h w f)) Fl.fin,
    Fl.sum_fin, flat_sum, flat_length, Spec.imgSampleVar]
  have h1 : ((h * w - 1 : ℕ) : F) = (h : F) * w - 1 := by
    rw [Nat.cast_sub (by omega)]; push_cast; rfl
  have h2 : ((h * w - 1 : ℕ) : F) ≠ 0 := by
    have : h * w - 1 ≠ 0 := by omega
    exact_mod_cast this
  rw [Fl.fin_div h2, h1]
  simp only [pow_two]

theorem npVar1_single (a : F) : npVar1 [(.fin a : Fl F)] = .nan := by
  simp [npVar1, Fl.mean, Fl.sum, Fl.fin_div_def]

theorem mean_range (n : ℕ) (hn : 0 < n) (f : ℕ → F) :
    Fl.mean ((List.range n).map fun i => (.fin (f i) : Fl F)) = .fin ((∑ i ∈ range n, f i) / n) := by
  have : ((List.range n).map fun i => (.fin (f i) : Fl F)) = ((List.range n).map f).map .fin := by
    simp [List.map_map, Function.comp_def]
  rw [this, Fl.mean_fin _ (by simp; omega), sum_map_range]
  simp

theorem sum_range_fl (n : ℕ) (f : ℕ → F) :
    Fl.sum ((List.range n).map fun i => (.fin (f i) : Fl F)) = .fin (∑ i ∈ range n, f i) := by
  have : ((List.range n).map fun i => (.fin (f i) : Fl F)) = ((List.range n).map f).map .fin := by
    simp [List.map_map, Function.comp_def]
  rw [this, Fl.sum_fin, sum_map_range]

end Data
end Emva
