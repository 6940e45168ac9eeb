import Verif.Lemmas.Histogram

/-!
C36: `Histogram1288`.
-/
set_option autoImplicit false
namespace Emva
open Spec Routines

namespace Routines

/-- an array without masked elements -/
def plainList (y : List ℤ) : List (ℤ × Bool) := y.map fun v => (v, false)

theorem visible_plain (y : List ℤ) : ((plainList y).filter fun p => !p.2).map Prod.fst = y := by
  simp [plainList, List.filter_map, Function.comp_def]

theorem data_plain (y : List ℤ) : (plainList y).map Prod.fst = y := by
  simp [plainList, Function.comp_def]

theorem histogram1288_eq (y : List (ℤ × Bool)) (Qmax : ℕ) (hQ : 1 ≤ Qmax) (ymin ymax : ℤ)
    (hmin : IsMin ((y.filter fun p => !p.2).map Prod.fst) ymin)
    (hmax : IsMax ((y.filter fun p => !p.2).map Prod.fst) ymax) :
    histogram1288 y Qmax = .ok
      ⟨(List.range (binCount (ymax - ymin).toNat Qmax)).map fun i : ℕ =>
          ymin + (i : ℤ) * (binWidth (ymax - ymin).toNat Qmax : ℤ),
        npHistogram (y.map Prod.fst) ((List.range (binCount (ymax - ymin).toNat Qmax + 1)).map
          fun i : ℕ => ymin + (i : ℤ) * (binWidth (ymax - ymin).toNat Qmax : ℤ))⟩ := by
  have hy : y ≠ [] := by rintro rfl; simpa using hmin.1
  simp only [histogram1288]
  rw [if_neg hy, minZ_of hmin, maxZ_of hmax]
  simp only
  rw [if_neg (by omega), ← List.map_dropLast]
  rw [List.range_succ, List.dropLast_concat]

/-- the bin number of an unmasked pixel -/
theorem bin_lt {y : List ℤ} {ymin ymax : ℤ} (hmin : IsMin y ymin) (hmax : IsMax y ymax) (Qmax : ℕ)
    {v : ℤ} (hv : v ∈ y) :
    ((v - ymin) / (binWidth (ymax - ymin).toNat Qmax : ℤ)).toNat < binCount (ymax - ymin).toNat Qmax ∧
      v < ymin + binCount (ymax - ymin).toNat Qmax * binWidth (ymax - ymin).toNat Qmax := by
  have h1 := hmin.2 v hv
  have h2 := hmax.2 v hv
  have hW := binWidth_pos (ymax - ymin).toNat Qmax
  have hW' : (0 : ℤ) < binWidth (ymax - ymin).toNat Qmax := by exact_mod_cast hW
  have hq := q_lt (ymax - ymin).toNat Qmax
  have hq' : ((ymax - ymin).toNat : ℤ) < binCount (ymax - ymin).toNat Qmax * binWidth (ymax - ymin).toNat Qmax := by
    exact_mod_cast hq
  have e : ((ymax - ymin).toNat : ℤ) = ymax - ymin := Int.toNat_of_nonneg (by omega)
  generalize binWidth (ymax - ymin).toNat Qmax = W at *
  generalize binCount (ymax - ymin).toNat Qmax = Q at *
  have hv' : v - ymin < Q * W := by omega
  have : (v - ymin) / (W : ℤ) < Q := Int.ediv_lt_of_lt_mul hW' hv'
  have h0 : 0 ≤ (v - ymin) / (W : ℤ) := Int.ediv_nonneg (by omega) hW'.le
  exact ⟨by omega, by omega⟩

end Routines

/-- C36: for every non-empty integer image and `Qmax >= 1` the histogram has `Q <= Qmax` bins of one
positive width `W` with lower edges `min + k*W`, the last edge not above the maximum; each pixel falls
in bin `floor((y - min)/W)`, which is one of them; the counts are those of the reference loop; they
sum to the number of pixels. -/
theorem C36_histogram (y : List ℤ) (Qmax : ℕ) (hQ : 1 ≤ Qmax) (ymin ymax : ℤ) (hmin : IsMin y ymin)
    (hmax : IsMax y ymax) :
    ∃ (h : Hist) (W Q : ℕ), histogram1288 (plainList y) Qmax = .ok h ∧
      0 < W ∧ 0 < Q ∧ Q ≤ Qmax ∧ (ymax - ymin < Qmax → W = 1) ∧
      h.bins.length = Q ∧ h.values.length = Q ∧
      (∀ k < Q, h.bins[k]? = some (ymin + k * W)) ∧
      ymin + (Q - 1 : ℕ) * W ≤ ymax ∧ ymax < ymin + Q * W ∧
      (∀ v ∈ y, ((v - ymin) / (W : ℤ)).toNat < Q) ∧
      (∀ k < Q, h.values[k]? = some (y.countP fun v => decide ((v - ymin) / (W : ℤ) = k))) ∧
      h.values = referenceLoop ymin W Q y ∧
      h.values.sum = y.length := by
  have hle : ymin ≤ ymax := hmin.2 _ hmax.1
  obtain ⟨q, hq⟩ : ∃ q, q = (ymax - ymin).toNat := ⟨_, rfl⟩
  have hqe : ((ymax - ymin).toNat : ℤ) = ymax - ymin := Int.toNat_of_nonneg (by omega)
  have heq := histogram1288_eq (plainList y) Qmax hQ ymin ymax (by rwa [visible_plain])
    (by rwa [visible_plain])
  rw [data_plain] at heq
  have hlt : ∀ v ∈ y, _ := fun v hv => bin_lt hmin hmax Qmax hv
  have hge := q_ge (ymax - ymin).toNat Qmax
  have hW := binWidth_pos (ymax - ymin).toNat Qmax
  have hQp := binCount_pos (ymax - ymin).toNat Qmax
  have hQl := binCount_le (ymax - ymin).toNat Qmax hQ
  have hW1 : ymax - ymin < Qmax → binWidth (ymax - ymin).toNat Qmax = 1 := by
    intro h; unfold binWidth; rw [if_neg (by omega)]
  generalize binWidth (ymax - ymin).toNat Qmax = W at *
  generalize binCount (ymax - ymin).toNat Qmax = Q at *
  have hvals : npHistogram y ((List.range (Q + 1)).map fun i : ℕ => ymin + (i : ℤ) * (W : ℤ))
      = (List.range Q).map fun k : ℕ => y.countP fun v => decide (((v - ymin) / (W : ℤ)).toNat = k) := by
    rw [npHistogram_edges _ _ _ _ hQp]
    refine List.map_congr_left fun k hk => ?_
    refine List.countP_congr fun v hv => ?_
    have hb := bin_iff ymin v W k hW (hmin.2 v hv)
    have hl := (hlt v hv).2
    simp only [decide_eq_true_eq]
    rw [← hb]
    by_cases hk1 : k + 1 = Q
    · rw [if_pos hk1]
      have : ymin + ((k : ℤ) + 1) * W = ymin + Q * W := by rw [← hk1]; push_cast; ring
      rw [this]
      constructor
      · rintro ⟨a, _⟩; exact ⟨a, hl⟩
      · rintro ⟨a, _⟩; exact ⟨a, hl.le⟩
    · rw [if_neg hk1]
  have hge' : ((Q - 1 : ℕ) : ℤ) * W ≤ ymax - ymin := by rw [← hqe]; exact_mod_cast hge
  refine ⟨_, W, Q, heq, hW, hQp, hQl, hW1, by simp, by rw [hvals]; simp, ?_, by omega,
    (hlt ymax hmax.1).2, fun v hv => (hlt v hv).1, ?_, ?_, ?_⟩
  · intro k hk
    simp [List.getElem?_range hk]
  · intro k hk
    simp only [hvals]
    rw [List.getElem?_map, List.getElem?_range hk, Option.map_some]
    congr 1
    refine List.countP_congr fun v hv => ?_
    simp only [decide_eq_true_eq]
    have : 0 ≤ (v - ymin) / (W : ℤ) :=
      Int.ediv_nonneg (by have := hmin.2 v hv; omega) (by omega)
    omega
  · simp only [hvals]
    apply List.ext_getElem?
    intro k
    rw [referenceLoop, getElem?_foldl_modify, List.getElem?_map]
    by_cases hk : k < Q
    · rw [List.getElem?_range hk, List.getElem?_replicate, if_pos hk]; simp
    · rw [List.getElem?_eq_none (by simpa using hk), List.getElem?_replicate, if_neg hk]; simp
  · simp only [hvals]
    exact sum_countP_eq _ y Q fun v hv => (hlt v hv).1

/-- C36: exactly the images without an unmasked pixel, and a limit of no bins, are rejected: `ValueError` without any pixel,
`TypeError` if all are masked, for no bins `ValueError` or (more than one value) `OverflowError`. -/
theorem C36_rejected (y : List (ℤ × Bool)) (Qmax : ℕ) (e : PyErr) : histogram1288 y Qmax = .error e ↔
    (y = [] ∧ e = .valueError) ∨ (y ≠ [] ∧ (∀ p ∈ y, p.2 = true) ∧ e = .typeError) ∨
      (Qmax = 0 ∧ ∃ p ∈ y, p.2 = false ∧ ((∀ p' ∈ y, p'.2 = false → p'.1 = p.1) ∧ e = .valueError ∨
        (∃ p' ∈ y, p'.2 = false ∧ p'.1 ≠ p.1) ∧ e = .overflowError)) := by
  by_cases hy : y = []
  · subst hy
    simp only [histogram1288, if_true]
    constructor
    · intro h; cases h; exact .inl ⟨trivial, rfl⟩
    · rintro (⟨-, rfl⟩ | ⟨h, -⟩ | ⟨-, p, hp, -⟩)
      · rfl
      · exact absurd rfl h
      · cases hp
  have vis : ∀ v, v ∈ (y.filter fun p => !p.2).map Prod.fst ↔ ∃ p ∈ y, p.2 = false ∧ p.1 = v := by
    intro v; simp
  simp only [histogram1288, if_neg hy]
  rcases min_max_cases ((y.filter fun p => !p.2).map Prod.fst) with ⟨h0, h1, h2⟩ | ⟨a, b, h1, h2, ha, hb⟩
  · have hall : ∀ p ∈ y, p.2 = true := by
      intro p hp
      by_contra h
      have := (vis p.1).2 ⟨p, hp, by simpa using h, rfl⟩
      rw [h0] at this
      simp at this
    rw [h1, h2]
    constructor
    · intro h; cases h; exact .inr (.inl ⟨hy, hall, rfl⟩)
    · rintro (⟨h, -⟩ | ⟨-, -, rfl⟩ | ⟨-, p, hp, h, -⟩)
      · exact absurd h hy
      · rfl
      · rw [hall p hp] at h; cases h
  · obtain ⟨p, hp, hpf, rfl⟩ := (vis a).1 ha.1
    obtain ⟨p', hp', hpf', rfl⟩ := (vis b).1 hb.1
    have hmin : ∀ r ∈ y, r.2 = false → p.1 ≤ r.1 := fun r hr hf => ha.2 _ ((vis _).2 ⟨r, hr, hf, rfl⟩)
    have hmax : ∀ r ∈ y, r.2 = false → r.1 ≤ p'.1 := fun r hr hf => hb.2 _ ((vis _).2 ⟨r, hr, hf, rfl⟩)
    have h3 := hmin p' hp' hpf'
    rw [h1, h2]
    simp only
    by_cases hQ : Qmax = 0
    · rw [if_pos hQ]
      by_cases hq : (p'.1 - p.1).toNat = 0
      · rw [if_pos hq]
        have hall : ∀ r ∈ y, r.2 = false → r.1 = p.1 := fun r hr hf => by
          have := hmin r hr hf; have := hmax r hr hf; omega
        constructor
        · intro h; cases h; exact .inr (.inr ⟨hQ, p, hp, hpf, .inl ⟨hall, rfl⟩⟩)
        · rintro (⟨h, -⟩ | ⟨-, h, rfl⟩ | ⟨-, r, hr, hf, ⟨-, rfl⟩ | ⟨⟨r', hr', hf', h'⟩, -⟩⟩)
          · exact absurd h hy
          · rw [h p hp] at hpf; cases hpf
          · rfl
          · exact absurd ((hall r' hr' hf').trans (hall r hr hf).symm) h'
      · rw [if_neg hq]
        constructor
        · intro h; cases h
          exact .inr (.inr ⟨hQ, p, hp, hpf, .inr ⟨⟨p', hp', hpf', by omega⟩, rfl⟩⟩)
        · rintro (⟨h, -⟩ | ⟨-, h, rfl⟩ | ⟨-, r, hr, hf, ⟨h, rfl⟩ | ⟨-, rfl⟩⟩)
          · exact absurd h hy
          · rw [h p hp] at hpf; cases hpf
          · have := h p hp hpf; have := h p' hp' hpf'; omega
          · rfl
    · rw [if_neg hQ]
      constructor
      · intro h; cases h
      · rintro (⟨h, -⟩ | ⟨-, h, -⟩ | ⟨h, -⟩)
        · exact absurd h hy
        · rw [h p hp] at hpf; cases hpf
        · exact absurd h hQ

/-- C36 does not extend to masked images: masked elements are counted as well, so that the counts need
not sum to the number of unmasked pixels. -/
theorem C36_masked_counterexample :
    ∃ (y : List (ℤ × Bool)) (h : Hist), histogram1288 y 256 = .ok h ∧
      h.values.sum ≠ (y.filter fun p => !p.2).length :=
  ⟨[(0, false), (2, false), (1, true)], ⟨[0, 1, 2], [1, 1, 1]⟩, by decide, by decide⟩

/-- C36, masked images: only masked elements outside the range of the unmasked ones are left out for
certain; if every masked value lies in that range all elements are counted. -/
theorem C36_masked_values (y : List (ℤ × Bool)) (Qmax : ℕ) (hQ : 1 ≤ Qmax) (ymin ymax : ℤ)
    (hmin : IsMin ((y.filter fun p => !p.2).map Prod.fst) ymin)
    (hmax : IsMax ((y.filter fun p => !p.2).map Prod.fst) ymax)
    (hr : ∀ p ∈ y, ymin ≤ p.1 ∧ p.1 ≤ ymax) :
    ∃ h : Hist, histogram1288 y Qmax = .ok h ∧ h.values.sum = y.length ∧
      histogram1288 y Qmax = histogram1288 (plainList (y.map Prod.fst)) Qmax := by
  have e := histogram1288_eq y Qmax hQ ymin ymax hmin hmax
  have hsub : ∀ v ∈ (y.filter fun p => !p.2).map Prod.fst, v ∈ y.map Prod.fst := by
    intro v hv
    obtain ⟨p, hp, rfl⟩ := List.mem_map.1 hv
    exact List.mem_map_of_mem (List.mem_of_mem_filter hp)
  have hmin' : IsMin (y.map Prod.fst) ymin := ⟨hsub _ hmin.1, fun v hv => by
    obtain ⟨p, hp, rfl⟩ := List.mem_map.1 hv; exact (hr p hp).1⟩
  have hmax' : IsMax (y.map Prod.fst) ymax := ⟨hsub _ hmax.1, fun v hv => by
    obtain ⟨p, hp, rfl⟩ := List.mem_map.1 hv; exact (hr p hp).2⟩
  have e' := histogram1288_eq (plainList (y.map Prod.fst)) Qmax hQ ymin ymax
    (by rwa [visible_plain]) (by rwa [visible_plain])
  rw [data_plain] at e'
  obtain ⟨h, W, Q, h1, -, -, -, -, -, -, -, -, -, -, -, -, hs⟩ :=
    C36_histogram (y.map Prod.fst) Qmax hQ ymin ymax hmin' hmax'
  refine ⟨h, by rw [e, ← e', h1], by rw [hs, List.length_map], by rw [e, e']⟩

/-! ### a case meeting the hypotheses: 11 grey values in at most 4 bins of width 3 -/

example : histogram1288 (plainList [5, 15, 7, 8, 11, 5, 14]) 4 = .ok ⟨[5, 8, 11, 14], [3, 1, 1, 2]⟩ := by
  decide
example : IsMin [5, 15, 7, 8, 11, 5, 14] 5 ∧ IsMax [5, 15, 7, 8, 11, 5, 14] 15 := by
  constructor <;> constructor <;> decide

end Emva
