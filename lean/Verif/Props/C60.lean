import Verif.Model.Profiles
import Verif.Spec.Profiles
import Verif.Lemmas.Results

/-!
C60: the profiles of an image.
-/
set_option autoImplicit false
set_option linter.unusedSectionVars false
namespace Emva
namespace Profiles
variable {F : Type} [Field F] [LinearOrder F] [IsStrictOrderedRing F]
open Spec

/-- The image as a section: horizontal profiles have one position per column, vertical ones one position
per row. -/
def sectionOf (vertical : Bool) (a : FImg F) : Section F :=
  match vertical with
  | false => ⟨a.h, a.w, fun i j => a.px i j, fun i j => a.masked i j = false⟩
  | true => ⟨a.w, a.h, fun i j => a.px j i, fun i j => a.masked j i = false⟩

theorem filterMap_ite {α β : Type} (p : α → Bool) (f : α → β) (l : List α) :
    (l.filterMap fun i => if p i then none else some (f i)) = (l.filter fun i => !p i).map f := by
  induction l with
  | nil => rfl
  | cons x l ih =>
    cases h : p x <;> simp [h, ih]

/-- the unmasked rows of column `j` -/
def rows (a : FImg F) (j : ℕ) : List ℕ := (List.range a.h).filter fun i => !a.masked i j

theorem col_eq (a : FImg F) (j : ℕ) : a.col j = (rows a j).map fun i => a.px i j :=
  filterMap_ite _ _ _

theorem mem_rows (a : FImg F) (i j : ℕ) : i ∈ rows a j ↔ i < a.h ∧ a.masked i j = false := by
  simp [rows]

theorem minOf_le {l : List F} {x : F} (h : x ∈ l) : minOf l ≤ x := by
  cases l with
  | nil => simp at h
  | cons y l =>
    have key : ∀ (l : List F) (y : F), l.foldl min y ≤ y ∧ ∀ x ∈ l, l.foldl min y ≤ x := by
      intro l
      induction l with
      | nil => intro y; simp
      | cons z l ih =>
        intro y
        obtain ⟨h1, h2⟩ := ih (min y z)
        rw [List.foldl_cons]
        refine ⟨h1.trans (min_le_left _ _), fun x hx => ?_⟩
        rcases List.mem_cons.1 hx with rfl | hx
        · exact h1.trans (min_le_right _ _)
        · exact h2 x hx
    rcases List.mem_cons.1 h with rfl | h
    · exact (key l x).1
    · exact (key l y).2 x h

theorem le_maxOf {l : List F} {x : F} (h : x ∈ l) : x ≤ maxOf l := by
  cases l with
  | nil => simp at h
  | cons y l =>
    have key : ∀ (l : List F) (y : F), y ≤ l.foldl max y ∧ ∀ x ∈ l, x ≤ l.foldl max y := by
      intro l
      induction l with
      | nil => intro y; simp
      | cons z l ih =>
        intro y
        obtain ⟨h1, h2⟩ := ih (max y z)
        rw [List.foldl_cons]
        refine ⟨(le_max_left _ _).trans h1, fun x hx => ?_⟩
        rcases List.mem_cons.1 hx with rfl | hx
        · exact (le_max_right _ _).trans h1
        · exact h2 x hx
    rcases List.mem_cons.1 h with rfl | h
    · exact (key l x).1
    · exact (key l y).2 x h

theorem minOf_mem {l : List F} (h : l ≠ []) : minOf l ∈ l := by
  cases l with
  | nil => exact absurd rfl h
  | cons y l =>
    show l.foldl min y ∈ y :: l
    clear h
    induction l generalizing y with
    | nil => simp
    | cons z l ih =>
      rw [List.foldl_cons]
      rcases List.mem_cons.1 (ih (min y z)) with h | h
      · rw [h]
        rcases min_choice y z with h' | h' <;> rw [h'] <;> simp
      · simp [h]

theorem maxOf_mem {l : List F} (h : l ≠ []) : maxOf l ∈ l := by
  cases l with
  | nil => exact absurd rfl h
  | cons y l =>
    show l.foldl max y ∈ y :: l
    clear h
    induction l generalizing y with
    | nil => simp
    | cons z l ih =>
      rw [List.foldl_cons]
      rcases List.mem_cons.1 (ih (max y z)) with h | h
      · rw [h]
        rcases max_choice y z with h' | h' <;> rw [h'] <;> simp
      · simp [h]

theorem mapM_idx {α : Type} (l : List α) (ix : List ℕ) (hlt : ∀ i ∈ ix, i < l.length) :
    ∃ l', (ix.mapM fun i : ℕ => Np.idx l (i : ℤ)) = .ok l' ∧ l'.length = ix.length ∧
      ∀ j i : ℕ, ix[j]? = some i → l'[j]? = l[i]? := by
  induction ix with
  | nil => exact ⟨[], rfl, rfl, by simp⟩
  | cons i ix ih =>
    obtain ⟨l', h1, h2, h3⟩ := ih fun i hi => hlt i (by simp [hi])
    have hi : l[i]? = some (l[i]'(hlt i (by simp))) := List.getElem?_eq_getElem (hlt i (by simp))
    refine ⟨l[i]'(hlt i (by simp)) :: l', ?_, by simp [h2], ?_⟩
    · rw [List.mapM_cons, Np.idx_of_some hi, h1]; rfl
    · intro j i' hj
      cases j with
      | zero => simp only [List.getElem?_cons_zero, Option.some.injEq] at hj; subst hj; simp [hi]
      | succ j => simpa using h3 j i' (by simpa using hj)

/-- the unmasked part of a masked profile of `n` values -/
theorem getXY_masked (n : ℕ) (v : ℕ → F) (m : ℕ → Bool) :
    ∃ p : List ℕ × List F, getXY (.masked ((List.range n).map v) ((List.range n).map m)) = .ok p ∧
      p.1.Pairwise (· < ·) ∧ (∀ j, j ∈ p.1 ↔ j < n ∧ m j = false) ∧ p.1.length = p.2.length ∧
      ∀ (k j : ℕ) (x : F), p.1[k]? = some j → p.2[k]? = some x → x = v j := by
  set ix := (List.range ((List.range n).map m).length).filter fun i => !(((List.range n).map m)[i]?.getD false) with hix
  have hmem : ∀ j, j ∈ ix ↔ j < n ∧ m j = false := by
    intro j
    rw [hix, List.mem_filter, List.mem_range, List.length_map, List.length_range]
    refine and_congr_right fun hj => ?_
    simp [List.getElem?_range hj]
  have hlt : ∀ i ∈ ix, i < n := fun i hi => ((hmem i).1 hi).1
  obtain ⟨x, hx, lx, gx⟩ := mapM_idx (List.range ((List.range n).map v).length) ix (by simpa using hlt)
  obtain ⟨y, hy, ly, gy⟩ := mapM_idx ((List.range n).map v) ix (by simpa using hlt)
  have hxe : x = ix := by
    apply List.ext_getElem? 
    intro k
    cases hk : ix[k]? with
    | none =>
      rw [List.getElem?_eq_none_iff] at hk ⊢
      omega
    | some i =>
      rw [gx k i hk, List.getElem?_range]
      simpa using hlt i (List.mem_of_getElem? hk)
  refine ⟨(x, y), ?_, ?_, ?_, ?_, ?_⟩
  · unfold getXY
    simp only [← hix]
    rw [hx, hy]; rfl
  · rw [hxe]; exact List.Pairwise.filter _ List.pairwise_lt_range
  · rw [hxe]; exact hmem
  · show x.length = y.length
    rw [lx, ly]
  · intro k j z hj hz
    simp only [hxe] at hj
    have : y[k]? = some z := hz
    rw [gy k j hj] at this
    simp [List.getElem?_range (hlt j (List.mem_of_getElem? hj))] at this
    exact this.symm

theorem getXY_plain (n : ℕ) (v : ℕ → F) :
    ∃ p : List ℕ × List F, getXY (.plain ((List.range n).map v)) = .ok p ∧
      p.1.Pairwise (· < ·) ∧ (∀ j, j ∈ p.1 ↔ j < n) ∧ p.1.length = p.2.length ∧
      ∀ (k j : ℕ) (x : F), p.1[k]? = some j → p.2[k]? = some x → x = v j := by
  refine ⟨(List.range n, (List.range n).map v), by simp [getXY], List.pairwise_lt_range, by simp, by simp, ?_⟩
  intro k j x hj hx
  obtain ⟨hk, rfl⟩ := List.getElem?_eq_some_iff.1 hj
  simp only [List.length_range] at hk
  simp [List.getElem?_range hk] at hx
  simp [hx]

/-- a reduction gives the reductions of the columns with an unmasked value -/
theorem getXY_reduce (f : List F → F) (a : FImg F) (hh : 0 < a.h) (hm : a.mask ≠ .nomask)
    (Q : ℕ → F → Prop) (hQ : ∀ j, a.col j ≠ [] → Q j (f (a.col j))) :
    ∃ p, getXY (reduce f a) = .ok p ∧ (sectionOf false a).Profile (sectionOf false a).Some Q p := by
  have hcol : ∀ j, a.col j ≠ [] ↔ (sectionOf false a).Some j := by
    intro j
    constructor
    · intro h
      obtain ⟨x, hx⟩ := List.exists_mem_of_ne_nil _ h
      rw [col_eq] at hx
      obtain ⟨i, hi, -⟩ := List.mem_map.1 hx
      obtain ⟨h1, h2⟩ := (mem_rows a i j).1 hi
      exact ⟨i, h1, h2⟩
    · rintro ⟨i, h1, h2⟩ h
      rw [col_eq, List.map_eq_nil_iff] at h
      have := (mem_rows a i j).2 ⟨h1, h2⟩
      rw [h] at this
      simp at this
  cases hk : a.mask with
  | nomask => exact absurd hk hm
  | plain =>
    obtain ⟨p, h1, h2, h3, h4, h5⟩ := getXY_plain a.w fun j => f (a.col j)
    have hall : ∀ j, (sectionOf false a).Some j := fun j => ⟨0, hh, by simp [sectionOf, FImg.masked, hk]⟩
    refine ⟨p, by simp only [reduce, hk]; exact h1, h2, ?_, h4, ?_⟩
    · intro j
      rw [h3]
      exact ⟨fun h => ⟨h, hall j⟩, fun h => h.1⟩
    · intro k j v hj hv
      rw [h5 k j v hj hv]
      exact hQ j ((hcol j).2 (hall j))
  | mask m =>
    obtain ⟨p, h1, h2, h3, h4, h5⟩ := getXY_masked a.w (fun j => f (a.col j)) fun j => (a.col j).isEmpty
    have h3' : ∀ j, j ∈ p.1 ↔ j < a.w ∧ (sectionOf false a).Some j := by
      intro j
      rw [h3, ← hcol j]
      simp
    refine ⟨p, by simp only [reduce, hk]; exact h1, h2, h3', h4, ?_⟩
    intro k j v hj hv
    rw [h5 k j v hj hv]
    exact hQ j ((hcol j).2 ((h3' j).1 (List.mem_of_getElem? hj)).2)

theorem getXY_row (a : FImg F) (k : ℕ) (hk : k < a.h) (hm : a.mask ≠ .nomask) :
    ∃ r p, rowAt a k = .ok r ∧ getXY r = .ok p ∧
      (r.allMasked = true ↔ (∃ m, a.mask = .mask m) ∧ ∀ j < a.w, a.masked k j = true) ∧
      (sectionOf false a).Profile ((sectionOf false a).present k) (fun j v => v = (sectionOf false a).value k j) p := by
  unfold rowAt
  rw [if_pos hk]
  cases hmk : a.mask with
  | nomask => exact absurd hmk hm
  | plain =>
    obtain ⟨p, h1, h2, h3, h4, h5⟩ := getXY_plain a.w fun j => a.px k j
    refine ⟨_, p, rfl, h1, by simp [Profile.allMasked], h2, ?_, h4, h5⟩
    intro j
    rw [h3]
    simp [sectionOf, FImg.masked, hmk]
  | mask m =>
    obtain ⟨p, h1, h2, h3, h4, h5⟩ := getXY_masked a.w (fun j => a.px k j) fun j => m k j
    refine ⟨_, p, rfl, h1, ?_, h2, ?_, h4, h5⟩
    · simp [Profile.allMasked, FImg.masked, hmk]
    · intro j
      rw [h3]
      simp [sectionOf, FImg.masked, hmk]

theorem mean_bounds {is : List ℕ} (hne : is ≠ []) (f : ℕ → F) {v lo hi : F}
    (hv : v * is.length = (is.map f).sum) (hlo : ∀ i ∈ is, lo ≤ f i) (hhi : ∀ i ∈ is, f i ≤ hi) :
    lo ≤ v ∧ v ≤ hi := by
  have hpos : (0 : F) < is.length := by exact_mod_cast List.length_pos_of_ne_nil hne
  have key : ∀ l : List ℕ, (∀ i ∈ l, lo ≤ f i) → (∀ i ∈ l, f i ≤ hi) →
      lo * l.length ≤ (l.map f).sum ∧ (l.map f).sum ≤ hi * l.length := by
    intro l
    induction l with
    | nil => intro _ _; simp
    | cons i l ih =>
      intro h1 h2
      obtain ⟨g1, g2⟩ := ih (fun j hj => h1 j (by simp [hj])) fun j hj => h2 j (by simp [hj])
      have a1 := h1 i (by simp)
      have a2 := h2 i (by simp)
      simp only [List.length_cons, List.map_cons, List.sum_cons, Nat.cast_add, Nat.cast_one, mul_add, mul_one]
      constructor <;> linarith
  obtain ⟨g1, g2⟩ := key is hlo hhi
  rw [← hv] at g1 g2
  exact ⟨le_of_mul_le_mul_right g1 hpos, le_of_mul_le_mul_right g2 hpos⟩

theorem transpose_masked (a : FImg F) (i j : ℕ) : a.transpose.masked i j = a.masked j i := by
  unfold FImg.transpose FImg.masked
  cases a.mask <;> rfl

theorem sectionOf_transpose (a : FImg F) : sectionOf true a = sectionOf false a.transpose := by
  simp only [sectionOf, transpose_masked]
  rfl

theorem transpose_nomask (a : FImg F) : a.transpose.mask = .nomask ↔ a.mask = .nomask := by
  unfold FImg.transpose
  cases h : a.mask <;> simp

theorem transpose_mask (a : FImg F) : (∃ m, a.transpose.mask = .mask m) ↔ ∃ m, a.mask = .mask m := by
  unfold FImg.transpose
  cases h : a.mask <;> simp

theorem sorted_ext {l l' : List ℕ} (h : l.Pairwise (· < ·)) (h' : l'.Pairwise (· < ·))
    (hm : ∀ j, j ∈ l ↔ j ∈ l') : l = l' := by
  have p : l.Perm l' := (List.perm_ext_iff_of_nodup (h.imp fun h => h.ne) (h'.imp fun h => h.ne)).2 hm
  exact p.eq_of_pairwise (le := (· < ·)) (fun a b _ _ h1 h2 => absurd h2 (by omega)) h h'

end Profiles

open Profiles Spec
variable {F : Type} [Field F] [LinearOrder F] [IsStrictOrderedRing F]

/-- C60: the profiles of every image, horizontal or vertical.  No line across the profile: `ValueError`; a
masked array without mask array: `TypeError`.  Otherwise the mean, min and max profiles hold, for exactly
the positions with an unmasked pixel, in order, the mean, the least and the greatest of the unmasked pixels;
the middle profile holds the unmasked pixels of line `m/2`, or of the next line if all of it is masked
(`IndexError` if there is none). -/
theorem C60_profiles (vertical : Bool) (a : FImg F) (s : Section F) (hs : s = sectionOf vertical a) :
    (s.m = 0 → imageProfiles vertical a = .error .valueError) ∧
    (0 < s.m → a.mask = .nomask → imageProfiles vertical a = .error .typeError) ∧
    (0 < s.m → a.mask ≠ .nomask → ∀ k : ℕ,
      (((∃ m, a.mask = .mask m) ∧ ∀ j < s.n, ¬ s.present (s.m / 2) j) → k = s.m / 2 + 1) →
      (¬ ((∃ m, a.mask = .mask m) ∧ ∀ j < s.n, ¬ s.present (s.m / 2) j) → k = s.m / 2) →
      (s.m ≤ k → imageProfiles vertical a = .error .indexError) ∧
      (k < s.m → ∃ p, imageProfiles vertical a = .ok p ∧ s.Profile s.Some s.IsMean p.mean ∧
        s.Profile s.Some s.IsLeast p.min ∧ s.Profile s.Some s.IsGreatest p.max ∧
        s.Profile (s.present k) (fun j v => v = s.value k j) p.mid)) := by
  subst hs
  have key : ∀ a : FImg F,
    ((sectionOf false a).m = 0 → imageProfiles false a = .error .valueError) ∧
    (0 < (sectionOf false a).m → a.mask = .nomask → imageProfiles false a = .error .typeError) ∧
    (0 < (sectionOf false a).m → a.mask ≠ .nomask → ∀ k : ℕ,
      (((∃ m, a.mask = .mask m) ∧ ∀ j < (sectionOf false a).n, ¬ (sectionOf false a).present ((sectionOf false a).m / 2) j) →
        k = (sectionOf false a).m / 2 + 1) →
      (¬ ((∃ m, a.mask = .mask m) ∧ ∀ j < (sectionOf false a).n, ¬ (sectionOf false a).present ((sectionOf false a).m / 2) j) →
        k = (sectionOf false a).m / 2) →
      ((sectionOf false a).m ≤ k → imageProfiles false a = .error .indexError) ∧
      (k < (sectionOf false a).m → ∃ p, imageProfiles false a = .ok p ∧
        (sectionOf false a).Profile (sectionOf false a).Some (sectionOf false a).IsMean p.mean ∧
        (sectionOf false a).Profile (sectionOf false a).Some (sectionOf false a).IsLeast p.min ∧
        (sectionOf false a).Profile (sectionOf false a).Some (sectionOf false a).IsGreatest p.max ∧
        (sectionOf false a).Profile ((sectionOf false a).present k) (fun j v => v = (sectionOf false a).value k j) p.mid)) := by
    clear vertical a
    intro a
    refine ⟨?_, ?_, ?_⟩
    · intro (h : a.h = 0)
      simp [imageProfiles, h]
    · intro (h : 0 < a.h) hm
      have h2 : a.h / 2 < a.h := Nat.div_lt_self h (by norm_num)
      simp only [imageProfiles, Bool.false_eq_true, if_false, h.ne', midRow, rowAt, h2, if_true, hm, reduce]
      rfl
    · intro (h : 0 < a.h) hm k hk1 hk2
      have h2 : a.h / 2 < a.h := Nat.div_lt_self h (by norm_num)
      obtain ⟨r, p, hr, hp, hall, hprof⟩ := getXY_row a (a.h / 2) h2 hm
      have hcond : r.allMasked = true ↔ (∃ m, a.mask = .mask m) ∧
          ∀ j < (sectionOf false a).n, ¬ (sectionOf false a).present ((sectionOf false a).m / 2) j := by
        rw [hall]
        simp [sectionOf]
      obtain ⟨pm, hpm, prm⟩ := getXY_reduce meanOf a h hm (sectionOf false a).IsMean (by
        intro j hj
        rw [col_eq] at hj ⊢
        refine ⟨rows a j, List.Nodup.filter _ List.nodup_range, fun i => mem_rows a i j, by simpa using hj, ?_⟩
        have : ((rows a j).length : F) ≠ 0 := by
          have : (rows a j).length ≠ 0 := by simpa using hj
          exact_mod_cast this
        rw [meanOf, List.length_map, div_mul_cancel₀ _ this]
        rfl)
      obtain ⟨pl, hpl, prl⟩ := getXY_reduce minOf a h hm (sectionOf false a).IsLeast (by
        intro j hj
        constructor
        · have := minOf_mem hj
          rw [col_eq] at this
          obtain ⟨i, hi, e⟩ := List.mem_map.1 this
          obtain ⟨h1, h2⟩ := (mem_rows a i j).1 hi
          rw [← col_eq] at e
          exact ⟨i, h1, h2, e⟩
        · intro i hi hpr
          apply minOf_le
          rw [col_eq]
          exact List.mem_map.2 ⟨i, (mem_rows a i j).2 ⟨hi, hpr⟩, rfl⟩)
      obtain ⟨pg, hpg, prg⟩ := getXY_reduce maxOf a h hm (sectionOf false a).IsGreatest (by
        intro j hj
        constructor
        · have := maxOf_mem hj
          rw [col_eq] at this
          obtain ⟨i, hi, e⟩ := List.mem_map.1 this
          obtain ⟨h1, h2⟩ := (mem_rows a i j).1 hi
          rw [← col_eq] at e
          exact ⟨i, h1, h2, e⟩
        · intro i hi hpr
          apply le_maxOf
          rw [col_eq]
          exact List.mem_map.2 ⟨i, (mem_rows a i j).2 ⟨hi, hpr⟩, rfl⟩)
      have run : ∀ r' p', midRow a = .ok r' → getXY r' = .ok p' → imageProfiles false a = .ok ⟨pm, pl, pg, p'⟩ := by
        intro r' p' h1 h2
        simp only [imageProfiles, Bool.false_eq_true, if_false, h.ne', h1, hpm, hpl, hpg]
        show (getXY r' >>= _) = _
        rw [h2]; rfl
      by_cases hc : r.allMasked = true
      · have hk := hk1 (hcond.1 hc)
        have hmid : midRow a = rowAt a k := by
          unfold midRow
          rw [hr, hk]
          show (if r.allMasked = true then _ else _) = _
          rw [if_pos hc]; rfl
        constructor
        · intro hle
          have : rowAt a k = .error .indexError := if_neg (not_lt.2 hle)
          simp only [imageProfiles, Bool.false_eq_true, if_false, h.ne', hmid, this]
          rfl
        · intro hlt
          obtain ⟨r', p', hr', hp', -, hprof'⟩ := getXY_row a k hlt hm
          exact ⟨_, run r' p' (hmid.trans hr') hp', prm, prl, prg, hprof'⟩
      · have hk := hk2 (fun h => hc (hcond.2 h))
        have hmid : midRow a = .ok r := by
          unfold midRow
          rw [hr]
          show (if r.allMasked = true then _ else _) = _
          rw [if_neg hc]; rfl
        subst hk
        exact ⟨fun hle => absurd h2 (not_lt.2 hle), fun _ => ⟨_, run r p hmid hp, prm, prl, prg, hprof⟩⟩
  cases vertical with
  | false => exact key a
  | true =>
    have := key a.transpose
    rw [← sectionOf_transpose] at this
    simp only [ne_eq, transpose_nomask, transpose_mask] at this
    have e : imageProfiles true a = imageProfiles false a.transpose := rfl
    rw [e]
    exact this

/-- C60: whenever the profiles are computed, the mean, min and max profiles have the same positions, at each
of them min ≤ mean ≤ max, and every position of the middle profile is one of them with min ≤ mid ≤ max. -/
theorem C60_order (vertical : Bool) (a : FImg F) (p : Set4 F) (h : imageProfiles vertical a = .ok p) :
    p.min.1 = p.mean.1 ∧ p.max.1 = p.mean.1 ∧
    (∀ (k : ℕ) (lo m hi : F), p.min.2[k]? = some lo → p.mean.2[k]? = some m → p.max.2[k]? = some hi →
      lo ≤ m ∧ m ≤ hi) ∧
    ∀ (k j : ℕ) (v : F), p.mid.1[k]? = some j → p.mid.2[k]? = some v →
      ∃ (k' : ℕ) (lo hi : F), p.mean.1[k']? = some j ∧ p.min.2[k']? = some lo ∧ p.max.2[k']? = some hi ∧ lo ≤ v ∧ v ≤ hi := by
  obtain ⟨s, hs⟩ : ∃ s, s = sectionOf vertical a := ⟨_, rfl⟩
  obtain ⟨h1, h2, h3⟩ := C60_profiles vertical a s hs
  have hm : 0 < s.m := Nat.pos_of_ne_zero fun h0 => by rw [h1 h0] at h; simp at h
  have hn : a.mask ≠ .nomask := fun h0 => by rw [h2 hm h0] at h; simp at h
  obtain ⟨k, hk⟩ : ∃ k : ℕ, (((∃ m, a.mask = .mask m) ∧ ∀ j < s.n, ¬ s.present (s.m / 2) j) → k = s.m / 2 + 1) ∧
      (¬ ((∃ m, a.mask = .mask m) ∧ ∀ j < s.n, ¬ s.present (s.m / 2) j) → k = s.m / 2) := by
    by_cases hc : ((∃ m, a.mask = .mask m) ∧ ∀ j < s.n, ¬ s.present (s.m / 2) j)
    · exact ⟨_, fun _ => rfl, fun h => absurd hc h⟩
    · exact ⟨_, fun h => absurd h hc, fun _ => rfl⟩
  obtain ⟨h4, h5⟩ := h3 hm hn k hk.1 hk.2
  have hlt : k < s.m := by
    by_contra hc
    rw [h4 (not_lt.1 hc)] at h
    simp at h
  obtain ⟨p', e, ⟨as, am, al, av⟩, ⟨bs, bm, bl, bv⟩, ⟨cs, cm, cl, cv⟩, ⟨ds, dm, dl, dv⟩⟩ := h5 hlt
  obtain rfl : p' = p := by rw [h] at e; exact (Except.ok.inj e).symm
  have e1 : p'.min.1 = p'.mean.1 := sorted_ext bs as fun j => by rw [bm, am]
  have e2 : p'.max.1 = p'.mean.1 := sorted_ext cs as fun j => by rw [cm, am]
  have get : ∀ {α β : Type} (x : List α) (y : List β) (k : ℕ) (v : α), x.length = y.length → x[k]? = some v →
      ∃ w, y[k]? = some w := by
    intro α β x y k v hl hv
    obtain ⟨hk, -⟩ := List.getElem?_eq_some_iff.1 hv
    exact ⟨_, List.getElem?_eq_getElem (hl ▸ hk)⟩
  refine ⟨e1, e2, ?_, ?_⟩
  · intro i lo m hi hlo hmn hhi
    obtain ⟨j, hj⟩ := get _ p'.mean.1 i m al.symm hmn
    obtain ⟨is, nd, mi, ne, sm⟩ := av i j m hj hmn
    obtain ⟨-, l2⟩ := bv i j lo (e1 ▸ hj) hlo
    obtain ⟨-, g2⟩ := cv i j hi (e2 ▸ hj) hhi
    exact mean_bounds ne (fun i => s.value i j) sm (fun i hi => l2 i ((mi i).1 hi).1 ((mi i).1 hi).2)
      fun i hi => g2 i ((mi i).1 hi).1 ((mi i).1 hi).2
  · intro i j v hj hv
    obtain ⟨jn, jp⟩ := (dm j).1 (List.mem_of_getElem? hj)
    obtain ⟨k', hk'⟩ := List.mem_iff_getElem?.1 ((am j).2 ⟨jn, k, hlt, jp⟩)
    obtain ⟨lo, hlo⟩ := get _ p'.min.2 k' j bl (e1 ▸ hk')
    obtain ⟨hi, hhi⟩ := get _ p'.max.2 k' j cl (e2 ▸ hk')
    have hve := dv i j v hj hv
    refine ⟨k', lo, hi, hk', hlo, hhi, ?_, ?_⟩
    · rw [hve]; exact (bv k' j lo (e1 ▸ hk') hlo).2 k hlt jp
    · rw [hve]; exact (cv k' j hi (e2 ▸ hk') hhi).2 k hlt jp

/-- C60: the drawn lines.  If the plot is drawn, each axis has the lines Mid, Min, Max, Mean in this order;
horizontal profiles have the positions on the x axis, vertical ones on the y axis.  The upper axis shows the
profiles of `(sum - sum_dark) / L`, whose pixels are there if unmasked in both images, the lower axis those
of `sum_dark / L`. -/
theorem C60_plot (vertical : Bool) (s d : MImg) (L : ℕ)
    (bl dl : List (String × Line F)) (h : plot vertical s d L = .ok (bl, dl))
    (bright dark : Section F)
    (hb : bright = if vertical
      then ⟨s.w, s.h, fun i j => ((s.px j i : F) - (d.px j i : F)) / L,
          fun i j => s.masked j i = false ∧ d.masked j i = false⟩
      else ⟨s.h, s.w, fun i j => ((s.px i j : F) - (d.px i j : F)) / L,
          fun i j => s.masked i j = false ∧ d.masked i j = false⟩)
    (hd : dark = if vertical
      then ⟨d.w, d.h, fun i j => (d.px j i : F) / L, fun i j => d.masked j i = false⟩
      else ⟨d.h, d.w, fun i j => (d.px i j : F) / L, fun i j => d.masked i j = false⟩) :
    ∀ (ls : List (String × Line F)) (sec : Section F), (ls = bl ∧ sec = bright) ∨ (ls = dl ∧ sec = dark) →
      ∃ mid lo hi mean : List ℕ × List F, ∃ k < sec.m, (k = sec.m / 2 ∨ k = sec.m / 2 + 1) ∧
        sec.Profile (sec.present k) (fun j v => v = sec.value k j) mid ∧
        sec.Profile sec.Some sec.IsLeast lo ∧ sec.Profile sec.Some sec.IsGreatest hi ∧
        sec.Profile sec.Some sec.IsMean mean ∧
        ls = [("Mid", mid), ("Min", lo), ("Max", hi), ("Mean", mean)].map fun p => (p.1,
          if vertical then Line.vertical p.2.2 p.2.1 else Line.horizontal p.2.1 p.2.2) := by
  have key : ∀ (a : FImg F) (p : Set4 F), imageProfiles vertical a = .ok p → ∀ sec, sec = sectionOf vertical a →
      ∃ mid lo hi mean : List ℕ × List F, ∃ k < sec.m, (k = sec.m / 2 ∨ k = sec.m / 2 + 1) ∧
        sec.Profile (sec.present k) (fun j v => v = sec.value k j) mid ∧
        sec.Profile sec.Some sec.IsLeast lo ∧ sec.Profile sec.Some sec.IsGreatest hi ∧
        sec.Profile sec.Some sec.IsMean mean ∧
        lines vertical p = [("Mid", mid), ("Min", lo), ("Max", hi), ("Mean", mean)].map fun p => (p.1,
          if vertical then Line.vertical p.2.2 p.2.1 else Line.horizontal p.2.1 p.2.2) := by
    intro a p h s hs
    obtain ⟨h1, h2, h3⟩ := C60_profiles vertical a s hs
    have hm : 0 < s.m := Nat.pos_of_ne_zero fun h0 => by rw [h1 h0] at h; simp at h
    have hn : a.mask ≠ .nomask := fun h0 => by rw [h2 hm h0] at h; simp at h
    obtain ⟨k, hk, hk'⟩ : ∃ k : ℕ, ((((∃ m, a.mask = .mask m) ∧ ∀ j < s.n, ¬ s.present (s.m / 2) j) → k = s.m / 2 + 1) ∧
        (¬ ((∃ m, a.mask = .mask m) ∧ ∀ j < s.n, ¬ s.present (s.m / 2) j) → k = s.m / 2)) ∧
        (k = s.m / 2 ∨ k = s.m / 2 + 1) := by
      by_cases hc : ((∃ m, a.mask = .mask m) ∧ ∀ j < s.n, ¬ s.present (s.m / 2) j)
      · exact ⟨_, ⟨fun _ => rfl, fun h => absurd hc h⟩, .inr rfl⟩
      · exact ⟨_, ⟨fun h => absurd h hc, fun _ => rfl⟩, .inl rfl⟩
    obtain ⟨h4, h5⟩ := h3 hm hn k hk.1 hk.2
    have hlt : k < s.m := by
      by_contra hc
      rw [h4 (not_lt.1 hc)] at h
      simp at h
    obtain ⟨p', e, p1, p2, p3, p4⟩ := h5 hlt
    obtain rfl : p' = p := by rw [h] at e; exact (Except.ok.inj e).symm
    refine ⟨_, _, _, _, k, hlt, hk', p4, p2, p3, p1, ?_⟩
    cases vertical <;> rfl
  unfold plot at h
  cases h1 : imageProfiles vertical (brightImg s d L : FImg F) with
  | error e => rw [h1] at h; simp [bind, Except.bind] at h
  | ok b =>
    cases h2 : imageProfiles vertical (darkImg d L : FImg F) with
    | error e => rw [h1, h2] at h; simp [bind, Except.bind] at h
    | ok k =>
      rw [h1, h2] at h
      have h' : (lines vertical b, lines vertical k) = (bl, dl) := Except.ok.inj h
      simp only [Prod.mk.injEq] at h'
      have m1 : ∀ i j, (brightImg s d L : FImg F).masked i j = (s.masked i j || d.masked i j) := by
        intro i j
        unfold brightImg FImg.masked quotMask MImg.masked
        cases s.mask <;> cases d.mask <;> simp
      have m2 : ∀ i j, (darkImg d L : FImg F).masked i j = d.masked i j := by
        intro i j
        unfold darkImg FImg.masked quotMask MImg.masked
        cases d.mask <;> simp
      rintro ls sec (⟨rfl, rfl⟩ | ⟨rfl, rfl⟩)
      · rw [← h'.1]
        apply key _ _ h1
        rw [hb]
        cases vertical <;> simp [sectionOf, m1] <;> simp [brightImg]
      · rw [← h'.2]
        apply key _ _ h2
        rw [hd]
        cases vertical <;> simp [sectionOf, m2] <;> simp [darkImg]

/-- A 3 × 3 image with the centre column partly and the last column entirely masked. -/
def sampleProfile : FImg ℚ := ⟨3, 3, fun i j => 10 * i + j, .mask fun i j => j == 2 || (i == 0 && j == 1)⟩

example : imageProfiles false sampleProfile =
    .ok ⟨([0, 1], [10, 16]), ([0, 1], [0, 11]), ([0, 1], [20, 21]), ([0, 1], [10, 11])⟩ := by decide +kernel

example : imageProfiles true sampleProfile =
    .ok ⟨([0, 1, 2], [0, 21/2, 41/2]), ([0, 1, 2], [0, 10, 20]), ([0, 1, 2], [0, 11, 21]), ([1, 2], [11, 21])⟩ := by
  decide +kernel

/-- C60: the middle profile may be empty although other lines have unmasked pixels: rows 1 and 2 of three
are masked. -/
theorem C60_empty_mid : imageProfiles false (⟨3, 1, fun i _ => i, .mask fun i _ => i != 0⟩ : FImg ℚ) =
    .ok ⟨([0], [0]), ([0], [0]), ([0], [0]), ([], [])⟩ := by decide +kernel

/-- C60: with two lines, of which the second is masked, there is no next line: the plot fails although the
first line has pixels. -/
theorem C60_last_masked : imageProfiles false (⟨2, 1, fun i _ => i, .mask fun i _ => i != 0⟩ : FImg ℚ) =
    .error .indexError := by decide +kernel

end Emva
