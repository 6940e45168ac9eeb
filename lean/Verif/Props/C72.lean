import Verif.Model.HistModel
import Verif.Props.C36
import Mathlib.Tactic.Linarith
import Mathlib.Tactic.Positivity
import Mathlib.Tactic.FieldSimp
import Mathlib.Algebra.Order.BigOperators.Group.List

/-!
C72: the normal curve drawn over the histograms.
-/
set_option autoImplicit false
set_option linter.unusedSectionVars false
namespace Emva
open Routines Spec

/-- density of the normal distribution -/
noncomputable def Spec.normalDensity (μ σ x : ℝ) : ℝ := 1 / (σ * Real.sqrt (2 * Real.pi)) * Real.exp (-(x - μ) ^ 2 / (2 * σ ^ 2))

/-- mean and standard deviation of integers -/
noncomputable def Spec.meanOf (y : List ℤ) : ℝ := (y.sum : ℝ) / y.length
noncomputable def Spec.stdOf (y : List ℤ) : ℝ := Real.sqrt ((y.map fun v : ℤ => ((v : ℝ) - Spec.meanOf y) ^ 2).sum / y.length)

namespace Routines

theorem meanZ_fin (y : List ℤ) (h : y ≠ []) : meanZ y = .fin (Spec.meanOf y) := by
  have : (y.length : ℝ) ≠ 0 := by
    have := List.length_pos_iff.2 h
    exact_mod_cast this.ne'
  rw [meanZ, Fl.fin_div this]
  rfl

theorem stdZ_fin (y : List ℤ) (h : y ≠ []) : stdZ y = .fin (Spec.stdOf y) := by
  have hl : (y.length : ℝ) ≠ 0 := by
    have := List.length_pos_iff.2 h
    exact_mod_cast this.ne'
  have e : (y.map fun v : ℤ => Fl.sq (.fin (v : ℝ) - meanZ y)) = (y.map fun v : ℤ => ((v : ℝ) - Spec.meanOf y) ^ 2).map Fl.fin := by
    rw [List.map_map]
    refine List.map_congr_left fun v _ => ?_
    rw [meanZ_fin y h, Fl.fin_sub, Fl.sq_fin]
    simp [pow_two]
  rw [stdZ, e, Fl.sum_fin, Fl.fin_div hl, Fl.sqrt_fin]
  · rfl
  · refine div_nonneg (List.sum_nonneg ?_) (Nat.cast_nonneg _)
    intro x hx
    obtain ⟨v, -, rfl⟩ := List.mem_map.1 hx
    exact sq_nonneg _

theorem stdOf_pos (y : List ℤ) {a b : ℤ} (ha : a ∈ y) (hb : b ∈ y) (hab : a ≠ b) : 0 < Spec.stdOf y := by
  have hl : 0 < (y.length : ℝ) := by
    have := List.length_pos_of_mem ha
    exact_mod_cast this
  refine Real.sqrt_pos.2 (div_pos ?_ hl)
  obtain ⟨c, hc, hne⟩ : ∃ c ∈ y, (c : ℝ) ≠ Spec.meanOf y := by
    by_contra h
    push Not at h
    exact hab (by exact_mod_cast (h a ha).trans (h b hb).symm)
  have h0 : ∀ x ∈ y.map fun v : ℤ => ((v : ℝ) - Spec.meanOf y) ^ 2, 0 ≤ x := by
    intro x hx
    obtain ⟨v, -, rfl⟩ := List.mem_map.1 hx
    exact sq_nonneg _
  have hm : ((c : ℝ) - Spec.meanOf y) ^ 2 ∈ y.map fun v : ℤ => ((v : ℝ) - Spec.meanOf y) ^ 2 :=
    List.mem_map.2 ⟨c, hc, rfl⟩
  have := List.single_le_sum h0 _ hm
  have : 0 < ((c : ℝ) - Spec.meanOf y) ^ 2 := by
    have := sub_ne_zero.2 hne
    positivity
  linarith

theorem stdOf_const (y : List ℤ) (h : y ≠ []) (c : ℤ) (hc : ∀ v ∈ y, v = c) : Spec.stdOf y = 0 := by
  have hl : (y.length : ℝ) ≠ 0 := by
    have := List.length_pos_iff.2 h
    exact_mod_cast this.ne'
  have e : y = List.replicate y.length c := List.eq_replicate_iff.2 ⟨rfl, hc⟩
  have hm : Spec.meanOf y = c := by
    have : y.sum = y.length * c := by
      conv_lhs => rw [e]
      simp
    rw [Spec.meanOf, this]
    push_cast
    field_simp
  have : (y.map fun v : ℤ => ((v : ℝ) - Spec.meanOf y) ^ 2).sum = 0 := by
    refine List.sum_eq_zero fun x hx => ?_
    obtain ⟨v, hv, rfl⟩ := List.mem_map.1 hx
    rw [hm, hc v hv]
    simp
  rw [Spec.stdOf, this]
  simp

/-- the value for a positive standard deviation -/
theorem normalAt_fin (ymin ymax : ℤ) (Q N : ℕ) (hQ : 0 < Q) (μ σ b : ℝ) (hσ : 0 < σ) :
    normalAt ymin ymax Q N (.fin μ) (.fin σ) (.fin b) =
      .fin (((ymax - ymin : ℤ) : ℝ) / Q * N * Spec.normalDensity μ σ b) := by
  have hQ' : (Q : ℝ) ≠ 0 := by exact_mod_cast hQ.ne'
  have h2 : 0 < Real.sqrt (2 * Real.pi) := Real.sqrt_pos.2 (by positivity)
  rw [normalAt, Fl.fin_div hQ', Fl.fin_mul, Fl.fin_mul, Fl.fin_div (by positivity), Fl.fin_div hσ.ne', Fl.fin_sub, Fl.fin_mul,
    Fl.sq_fin, Fl.fin_mul, Fl.exp, Fl.fin_mul, Spec.normalDensity]
  have : -(1 / 2) * (1 / σ * (b - μ) * (1 / σ * (b - μ))) = -(b - μ) ^ 2 / (2 * σ ^ 2) := by
    field_simp
  congr 1
  first
  | rw [this]; field_simp
  | (rw [show -(1 / 2) * (1 / σ * (b - μ)) ^ 2 = -(b - μ) ^ 2 / (2 * σ ^ 2) by field_simp]; field_simp)

end Routines

theorem Routines.binWidth_le (q Qmax : ℕ) (hq : 1 ≤ q) (hQ : 2 ≤ Qmax) : binWidth q Qmax ≤ q := by
  unfold binWidth
  split
  · have : q / Qmax ≤ q / 2 := Nat.div_le_div_left hQ (by omega)
    omega
  · exact hq

theorem Routines.two_le_binCount (q Qmax : ℕ) (hq : 1 ≤ q) (hQ : 2 ≤ Qmax) : 2 ≤ binCount q Qmax := by
  have h1 := binWidth_le q Qmax hq hQ
  have h2 := binWidth_pos q Qmax
  unfold binCount
  split
  · have := (Nat.one_le_div_iff h2).2 h1
    omega
  · omega

/-- The normal curve with mean `μ` and standard deviation `σ` of `N` values as expected counts of bins of width `W`: the area
of the rectangle under the density at the left edge `x` -/
noncomputable def Spec.expectedCount (N : ℕ) (W μ σ x : ℝ) : ℝ := N * (W * Spec.normalDensity μ σ x)

/-- C72: for values that are not all equal, the model has one finite positive value per bin; it is the expected count of a
normal distribution with the mean and standard deviation of the values, at the left edge of the bin, times one
factor common to all bins.  That factor is the range over the total width of the bins, at least `q / (q + W)` (one half) and
less than one: the curve has the right shape and is always too low. -/
theorem C72_normal_model_partial (y : List ℤ) (Qmax : ℕ) (hQ : 1 ≤ Qmax) (ymin ymax : ℤ) (hmin : IsMin y ymin)
    (hmax : IsMax y ymax) (hne : ymin ≠ ymax) :
    ∃ (h : Hist) (W : ℕ) (model : List (Fl ℝ)) (ρ : ℝ), histogram1288 (plainList y) Qmax = .ok h ∧
      normalModel y Qmax = .ok model ∧ 0 < W ∧ model.length = h.bins.length ∧ model.length = h.values.length ∧
      (∀ k < h.bins.length, h.bins[k]? = some (ymin + k * W)) ∧
      ρ = (ymax - ymin : ℝ) / (h.bins.length * W) ∧
      (ymax - ymin : ℝ) / (ymax - ymin + W) ≤ ρ ∧ ρ < 1 ∧
      (2 ≤ Qmax → 2 ≤ h.bins.length ∧ 1 / 2 ≤ ρ) ∧
      ∀ (k : ℕ) (b : ℤ), h.bins[k]? = some b → ∃ v : ℝ, model[k]? = some (.fin v) ∧ 0 < v ∧
        v = ρ * Spec.expectedCount y.length W (Spec.meanOf y) (Spec.stdOf y) b := by
  have hle : ymin ≤ ymax := hmin.2 _ hmax.1
  have hlt : ymin < ymax := lt_of_le_of_ne hle hne
  have hy : y ≠ [] := List.ne_nil_of_mem hmin.1
  have hσ := stdOf_pos y hmin.1 hmax.1 hne
  have hqe : ((ymax - ymin).toNat : ℤ) = ymax - ymin := Int.toNat_of_nonneg (by omega)
  have heq := histogram1288_eq (plainList y) Qmax hQ ymin ymax (by rwa [visible_plain])
    (by rwa [visible_plain])
  have hW := binWidth_pos (ymax - ymin).toNat Qmax
  have hQp := binCount_pos (ymax - ymin).toNat Qmax
  have hge := q_ge (ymax - ymin).toNat Qmax
  have hlt' := q_lt (ymax - ymin).toNat Qmax
  have hM : normalModel y Qmax = .ok ((List.range (binCount (ymax - ymin).toNat Qmax)).map fun i : ℕ =>
        normalAt ymin ymax (binCount (ymax - ymin).toNat Qmax) y.length (meanZ y) (stdZ y)
          (.fin ((ymin + (i : ℤ) * (binWidth (ymax - ymin).toNat Qmax : ℤ) : ℤ) : ℝ))) := by
    unfold normalModel
    rw [minZ_of hmin, maxZ_of hmax]
    simp only
    rw [if_neg (by omega)]
  have hWl := binWidth_le (ymax - ymin).toNat Qmax (by omega)
  have hQl := two_le_binCount (ymax - ymin).toNat Qmax (by omega)
  generalize binWidth (ymax - ymin).toNat Qmax = W at *
  generalize binCount (ymax - ymin).toNat Qmax = Q at *
  obtain ⟨h, heq', hbins, hvals⟩ : ∃ h, histogram1288 (plainList y) Qmax = .ok h ∧
      h.bins = (List.range Q).map (fun k : ℕ => ymin + (k : ℤ) * (W : ℤ)) ∧ h.values.length = Q := by
    refine ⟨_, heq, ?_, ?_⟩
    · simp
    · rw [data_plain, npHistogram_edges _ _ _ _ hQp]; simp
  have hbl : h.bins.length = Q := by rw [hbins]; simp
  have hr : (ymax - ymin : ℝ) = ((ymax - ymin).toNat : ℝ) := by
    rw [← Int.cast_natCast, hqe]; push_cast; ring
  have hW' : 0 < (W : ℝ) := by exact_mod_cast hW
  have hQ' : 0 < (Q : ℝ) := by exact_mod_cast hQp
  have hq' : 0 < (ymax - ymin : ℝ) := by
    have : (ymin : ℝ) < ymax := by exact_mod_cast hlt
    linarith
  have hN : 0 < (y.length : ℝ) := by
    have := List.length_pos_iff.2 hy
    exact_mod_cast this
  have hlow : (ymax - ymin : ℝ) / (ymax - ymin + W) ≤ (ymax - ymin : ℝ) / (Q * W) := by
    refine div_le_div_of_nonneg_left hq'.le (by positivity) ?_
    have : (Q : ℝ) * W = ((Q - 1 : ℕ) * W : ℕ) + W := by
      rw [Nat.cast_mul, Nat.cast_sub (by omega)]; push_cast; ring
    rw [this, hr]
    have : (((Q - 1) * W : ℕ) : ℝ) ≤ ((ymax - ymin).toNat : ℝ) := by exact_mod_cast hge
    linarith
  refine ⟨h, W, _, (ymax - ymin : ℝ) / (Q * W), heq', hM, hW, by simp [hbl], by simp [hvals], ?_, by rw [hbl], hlow, ?_, ?_, ?_⟩
  · intro k hk
    rw [hbl] at hk
    rw [hbins, List.getElem?_map, List.getElem?_range hk]; rfl
  · rw [div_lt_one (by positivity), hr]
    exact_mod_cast hlt'
  · intro h2
    refine ⟨by rw [hbl]; exact hQl h2, le_trans ?_ hlow⟩
    have : (W : ℝ) ≤ (ymax - ymin : ℝ) := by rw [hr]; exact_mod_cast hWl h2
    rw [div_le_div_iff₀ (by norm_num) (by positivity)]
    linarith
  · intro k b hb
    have hk : k < Q := by
      by_contra hk
      rw [List.getElem?_eq_none (by rw [hbl]; omega)] at hb
      cases hb
    rw [hbins, List.getElem?_map, List.getElem?_range hk] at hb
    cases hb
    have hd : 0 < Spec.normalDensity (Spec.meanOf y) (Spec.stdOf y) ((ymin + (k : ℤ) * (W : ℤ) : ℤ) : ℝ) := by
      have h2 : 0 < Real.sqrt (2 * Real.pi) := Real.sqrt_pos.2 (by positivity)
      have := Real.exp_pos (-(((ymin + (k : ℤ) * (W : ℤ) : ℤ) : ℝ) - Spec.meanOf y) ^ 2 / (2 * Spec.stdOf y ^ 2))
      rw [Spec.normalDensity]
      positivity
    refine ⟨((ymax - ymin : ℤ) : ℝ) / Q * y.length *
      Spec.normalDensity (Spec.meanOf y) (Spec.stdOf y) ((ymin + (k : ℤ) * (W : ℤ) : ℤ) : ℝ), ?_, ?_, ?_⟩
    · rw [List.getElem?_map, List.getElem?_range hk, Option.map_some, meanZ_fin y hy, stdZ_fin y hy,
        normalAt_fin _ _ _ _ hQp _ _ _ hσ]
    · have : 0 < ((ymax - ymin : ℤ) : ℝ) := by push_cast; exact hq'
      positivity
    · rw [Spec.expectedCount]
      generalize Spec.normalDensity _ _ _ = d
      push_cast
      field_simp

/-- C72 fails: whatever the values, no bin has the expected count as its model value. -/
theorem C72_never_expected (y : List ℤ) (Qmax : ℕ) (hQ : 1 ≤ Qmax) (ymin ymax : ℤ) (hmin : IsMin y ymin)
    (hmax : IsMax y ymax) (hne : ymin ≠ ymax) :
    ∃ (h : Hist) (W : ℕ) (model : List (Fl ℝ)), histogram1288 (plainList y) Qmax = .ok h ∧
      normalModel y Qmax = .ok model ∧ (∀ k < h.bins.length, h.bins[k]? = some (ymin + k * W)) ∧
      ∀ (k : ℕ) (b : ℤ), h.bins[k]? = some b → ∃ v : ℝ, model[k]? = some (.fin v) ∧
        v < Spec.expectedCount y.length W (Spec.meanOf y) (Spec.stdOf y) b := by
  obtain ⟨h, W, model, ρ, e1, e2, hW, -, -, hb, -, hlo, hρ, -, hv⟩ := C72_normal_model_partial y Qmax hQ ymin ymax hmin hmax hne
  refine ⟨h, W, model, e1, e2, hb, fun k b hk => ?_⟩
  obtain ⟨v, hm, h0, rfl⟩ := hv k b hk
  refine ⟨_, hm, ?_⟩
  have hρ0 : 0 < ρ := by
    have : 0 < (ymax - ymin : ℝ) := by
      have : (ymin : ℝ) < ymax := by exact_mod_cast lt_of_le_of_ne (hmin.2 _ hmax.1) hne
      linarith
    have : 0 < (ymax - ymin : ℝ) / (ymax - ymin + W) := by positivity
    linarith
  have := pos_of_mul_pos_right h0 hρ0.le
  nlinarith

/-- C72: when all values are equal the model is one NaN. -/
theorem C72_constant (y : List ℤ) (Qmax : ℕ) (hQ : 1 ≤ Qmax) (hy : y ≠ []) (c : ℤ) (hc : ∀ v ∈ y, v = c) :
    normalModel y Qmax = .ok [.nan] := by
  have hmin : IsMin y c := by
    obtain ⟨a, ha⟩ := List.exists_mem_of_ne_nil y hy
    exact ⟨hc a ha ▸ ha, fun v hv => (hc v hv).ge⟩
  have hmax : IsMax y c := by
    obtain ⟨a, ha⟩ := List.exists_mem_of_ne_nil y hy
    exact ⟨hc a ha ▸ ha, fun v hv => (hc v hv).le⟩
  unfold normalModel
  rw [minZ_of hmin, maxZ_of hmax]
  simp only
  rw [if_neg (by omega), stdZ_fin y hy, stdOf_const y hy c hc, meanZ_fin y hy]
  have : binCount (c - c).toNat Qmax = 1 := by
    unfold binCount
    simp
  rw [this]
  simp only [List.range_one, List.map_cons, List.map_nil]
  congr 2
  unfold normalAt
  simp [Fl.fin_div (one_ne_zero (α := ℝ))]

/-- C72: exactly an empty image (`ValueError`) and a limit of no bins are rejected (`ValueError`, with more than one value
`OverflowError`). -/
theorem C72_rejected (y : List ℤ) (Qmax : ℕ) (e : PyErr) : normalModel y Qmax = .error e ↔
    (y = [] ∧ e = .valueError) ∨ (Qmax = 0 ∧ ∃ v ∈ y, (∀ v' ∈ y, v' = v) ∧ e = .valueError ∨
      (∃ v' ∈ y, v' ≠ v) ∧ e = .overflowError) := by
  unfold normalModel
  rcases min_max_cases y with ⟨rfl, h1, h2⟩ | ⟨a, b, h1, h2, ha, hb⟩
  · rw [h1, h2]
    constructor
    · intro h; cases h; exact .inl ⟨rfl, rfl⟩
    · rintro (⟨-, rfl⟩ | ⟨-, v, hv, -⟩)
      · rfl
      · cases hv
  · have hy : y ≠ [] := by rintro rfl; cases ha.1
    have h3 := ha.2 b hb.1
    rw [h1, h2]
    simp only
    by_cases hQ : Qmax = 0
    · rw [if_pos hQ]
      by_cases hq : (b - a).toNat = 0
      · rw [if_pos hq]
        have hall : ∀ r ∈ y, r = a := fun r hr => by
          have := ha.2 r hr; have := hb.2 r hr; omega
        constructor
        · intro h; cases h; exact .inr ⟨hQ, a, ha.1, .inl ⟨hall, rfl⟩⟩
        · rintro (⟨h, -⟩ | ⟨-, r, hr, ⟨-, rfl⟩ | ⟨⟨r', hr', h'⟩, -⟩⟩)
          · exact absurd h hy
          · rfl
          · exact absurd ((hall r' hr').trans (hall r hr).symm) h'
      · rw [if_neg hq]
        constructor
        · intro h; cases h
          exact .inr ⟨hQ, a, ha.1, .inr ⟨⟨b, hb.1, by omega⟩, rfl⟩⟩
        · rintro (⟨h, -⟩ | ⟨-, r, hr, ⟨h, rfl⟩ | ⟨-, rfl⟩⟩)
          · exact absurd h hy
          · have := h a ha.1; have := h b hb.1; omega
          · rfl
    · rw [if_neg hQ]
      constructor
      · intro h; cases h
      · rintro (⟨h, -⟩ | ⟨h, -⟩)
        · exact absurd h hy
        · exact absurd h hQ

/-! ### a case meeting the hypotheses: 0, 1, 1, 2 in at most 2 bins of width 2 -/

example : IsMin [0, 1, 1, 2] 0 ∧ IsMax [0, 1, 1, 2] 2 ∧ (0 : ℤ) ≠ 2 := by
  refine ⟨⟨by simp, by simp⟩, ⟨by simp, by simp⟩, by norm_num⟩

example : histogram1288 (plainList [0, 1, 1, 2]) 2 = .ok ⟨[0, 2], [3, 1]⟩ := by decide +kernel

/-- the factor is one half there -/
theorem C72_example : ∃ (model : List (Fl ℝ)), normalModel [0, 1, 1, 2] 2 = .ok model ∧ ∃ v : ℝ, model[0]? = some (.fin v) ∧
    v = 1 / 2 * Spec.expectedCount 4 2 1 (Real.sqrt (1 / 2)) 0 := by
  obtain ⟨h, W, model, ρ, e1, e2, hW, h1, h2, hb, hρ, hlo, hhi, -, hv⟩ := C72_normal_model_partial [0, 1, 1, 2] 2 (by norm_num) 0 2
    ⟨by simp, by simp⟩ ⟨by simp, by simp⟩ (by norm_num)
  have e : histogram1288 (plainList [0, 1, 1, 2]) 2 = .ok ⟨[0, 2], [3, 1]⟩ := by decide +kernel
  rw [e] at e1
  cases e1
  have hw : W = 2 := by
    have := hb 1 (by simp)
    simp at this
    omega
  subst hw
  obtain ⟨v, hm, -, rfl⟩ := hv 0 0 rfl
  refine ⟨model, e2, _, hm, ?_⟩
  rw [hρ, Spec.stdOf, Spec.meanOf]
  norm_num

end Emva
