import Verif.Model.Results
import Verif.Spec.Results
import Verif.Lemmas.Fit

/-!
Lemmas about the results: arrays, the saturation search, and the computations of `Results1288`.
-/
set_option autoImplicit false
set_option linter.unusedSectionVars false
namespace Emva
open Spec
variable {F : Type} [Field F] [LinearOrder F]

/-! ### arrays -/
namespace Np
variable {α β γ : Type}

theorem idx_nat (l : List α) (i : ℕ) :
    idx l (i : ℤ) = match l[i]? with | some x => .ok x | none => .error .indexError := by
  have h : ¬ ((i : ℤ) < 0) := by omega
  simp only [idx, if_neg h]
  rfl

theorem idx_of_some {l : List α} {i : ℕ} {x : α} (h : l[i]? = some x) : idx l (i : ℤ) = .ok x := by
  rw [idx_nat, h]

theorem idx_of_none {l : List α} {i : ℕ} (h : l[i]? = none) :
    idx l (i : ℤ) = .error .indexError := by
  rw [idx_nat, h]

/-- an element or `IndexError` -/
def getE (l : List α) (i : ℕ) : Except PyErr α :=
  match l[i]? with | some x => .ok x | none => .error .indexError

theorem idx_cases (l : List α) (k : ℤ) :
    (0 ≤ k ∧ idx l k = getE l k.toNat) ∨ (k < 0 ∧ 0 ≤ k + l.length ∧ idx l k = getE l (k + l.length).toNat) ∨
      (k + l.length < 0 ∧ idx l k = .error .indexError) := by
  by_cases hk : k < 0
  · by_cases h2 : k + l.length < 0
    · exact .inr (.inr ⟨h2, by simp only [idx, if_pos hk, if_pos h2]⟩)
    · exact .inr (.inl ⟨hk, not_lt.1 h2, by simp only [idx, if_pos hk, if_neg h2]; rfl⟩)
  · exact .inl ⟨not_lt.1 hk, by simp only [idx, if_neg hk]; rfl⟩

theorem getE_ok (l : List α) (i : ℕ) (x : α) : getE l i = .ok x ↔ l[i]? = some x := by
  unfold getE; cases l[i]? <;> simp

theorem getE_error (l : List α) (i : ℕ) : getE l i = .error .indexError ↔ l.length ≤ i := by
  unfold getE
  by_cases h : i < l.length
  · simp [h]
  · simp [not_lt.1 h]

theorem idx_ok_iff (l : List α) (k : ℤ) (x : α) : idx l k = .ok x ↔ AtIndex l k x := by
  unfold AtIndex
  rcases idx_cases l k with ⟨h, e⟩ | ⟨h1, h2, e⟩ | ⟨h, e⟩ <;> rw [e]
  · rw [getE_ok]; constructor
    · exact fun hx => .inl ⟨h, hx⟩
    · rintro (⟨-, hx⟩ | ⟨hn, -⟩)
      · exact hx
      · omega
  · rw [getE_ok]; constructor
    · exact fun hx => .inr ⟨h1, h2, hx⟩
    · rintro (⟨hn, -⟩ | ⟨-, -, hx⟩)
      · omega
      · exact hx
  · constructor
    · intro hx; cases hx
    · rintro (⟨hn, -⟩ | ⟨-, hn, -⟩) <;> omega

theorem idx_error_iff (l : List α) (k : ℤ) : idx l k = .error .indexError ↔ ¬ HasIndex l k := by
  unfold HasIndex
  rcases idx_cases l k with ⟨h, e⟩ | ⟨h1, h2, e⟩ | ⟨h, e⟩ <;> rw [e]
  · rw [getE_error]; omega
  · rw [getE_error]; omega
  · simp only [true_iff]; omega

theorem bin_eq_len (op : α → β → γ) (a : List α) (b : List β) (h : a.length = b.length) :
    bin op a b = .ok (List.zipWith op a b) := by
  simp only [bin, if_pos h]

theorem mem_argwhere (p : α → Bool) (a : List α) (i : ℕ) :
    i ∈ argwhere p a ↔ ∃ x, a[i]? = some x ∧ p x = true := by
  simp only [argwhere, List.mem_filter, List.mem_range]
  constructor
  · rintro ⟨h, hp⟩
    refine ⟨a[i], List.getElem?_eq_getElem h, ?_⟩
    simpa [List.getElem?_eq_getElem h] using hp
  · rintro ⟨x, hx, hp⟩
    have hi := (List.getElem?_eq_some_iff.1 hx).1
    exact ⟨hi, by simp [hx, hp]⟩

theorem foldl_max_spec (l : List ℕ) (x : ℕ) :
    (l.foldl max x = x ∨ l.foldl max x ∈ l) ∧ x ≤ l.foldl max x ∧ ∀ y ∈ l, y ≤ l.foldl max x := by
  induction l generalizing x with
  | nil => simp
  | cons a l ih =>
    obtain ⟨h1, h2, h3⟩ := ih (max x a)
    simp only [List.foldl_cons, List.mem_cons, forall_eq_or_imp]
    refine ⟨?_, le_trans (le_max_left _ _) h2, le_trans (le_max_right _ _) h2, h3⟩
    rcases h1 with h1 | h1
    · rcases max_choice x a with h | h
      · rw [h] at h1; rw [h]; exact .inl h1
      · rw [h] at h1; rw [h]; exact .inr (.inl h1)
    · exact .inr (.inr h1)

theorem foldl_min_spec (l : List ℕ) (x : ℕ) :
    (l.foldl min x = x ∨ l.foldl min x ∈ l) ∧ l.foldl min x ≤ x ∧ ∀ y ∈ l, l.foldl min x ≤ y := by
  induction l generalizing x with
  | nil => simp
  | cons a l ih =>
    obtain ⟨h1, h2, h3⟩ := ih (min x a)
    simp only [List.foldl_cons, List.mem_cons, forall_eq_or_imp]
    refine ⟨?_, le_trans h2 (min_le_left _ _), le_trans h2 (min_le_right _ _), h3⟩
    rcases h1 with h1 | h1
    · rcases min_choice x a with h | h
      · rw [h] at h1; rw [h]; exact .inl h1
      · rw [h] at h1; rw [h]; exact .inr (.inl h1)
    · exact .inr (.inr h1)

theorem maxI_mem {l : List ℕ} (h : l ≠ []) :
    ∃ k, maxI l = .ok k ∧ k ∈ l ∧ ∀ y ∈ l, y ≤ k := by
  match l, h with
  | x :: l, _ =>
    obtain ⟨h1, h2, h3⟩ := foldl_max_spec l x
    refine ⟨_, rfl, ?_, ?_⟩
    · rcases h1 with h1 | h1
      · rw [h1]; exact List.mem_cons_self ..
      · exact List.mem_cons_of_mem _ h1
    · intro y hy
      rcases List.mem_cons.1 hy with rfl | hy
      · exact h2
      · exact h3 y hy

theorem minI_mem {l : List ℕ} (h : l ≠ []) :
    ∃ k, minI l = .ok k ∧ k ∈ l ∧ ∀ y ∈ l, k ≤ y := by
  match l, h with
  | x :: l, _ =>
    obtain ⟨h1, h2, h3⟩ := foldl_min_spec l x
    refine ⟨_, rfl, ?_, ?_⟩
    · rcases h1 with h1 | h1
      · rw [h1]; exact List.mem_cons_self ..
      · exact List.mem_cons_of_mem _ h1
    · intro y hy
      rcases List.mem_cons.1 hy with rfl | hy
      · exact h2
      · exact h3 y hy

/-- `max(np.argwhere(..))` is the last position, or `ValueError`. -/
theorem maxI_argwhere (p : α → Bool) (a : List α) :
    (∀ k, maxI (argwhere p a) = .ok k ↔ LastWhere (fun x => p x = true) a k) ∧
    ((¬ ∃ x ∈ a, p x = true) → maxI (argwhere p a) = .error .valueError) := by
  by_cases h : argwhere p a = []
  · have hno : ∀ i x, a[i]? = some x → p x ≠ true := fun i x hx hp => by
      have : i ∈ argwhere p a := (mem_argwhere p a i).2 ⟨x, hx, hp⟩
      rw [h] at this; exact absurd this (List.not_mem_nil)
    constructor
    · intro k
      rw [h]
      constructor
      · intro hk; cases hk
      · rintro ⟨⟨x, hx, hp⟩, -⟩; exact absurd hp (hno k x hx)
    · intro _; rw [h]; rfl
  · obtain ⟨k, hk, hmem, hle⟩ := maxI_mem h
    have hlast : LastWhere (fun x => p x = true) a k := by
      refine ⟨(mem_argwhere p a k).1 hmem, fun j x hj hx hp => ?_⟩
      have := hle j ((mem_argwhere p a j).2 ⟨x, hx, hp⟩)
      omega
    constructor
    · intro k'
      rw [hk]
      constructor
      · intro e; cases e; exact hlast
      · rintro ⟨⟨x, hx, hp⟩, hgt⟩
        have h1 := hle k' ((mem_argwhere p a k').2 ⟨x, hx, hp⟩)
        obtain ⟨⟨y, hy, hpy⟩, -⟩ := hlast
        by_contra hne
        have : k' < k := lt_of_le_of_ne h1 fun e => hne (by rw [e])
        exact hgt k y this hy hpy
    · intro hno
      obtain ⟨⟨y, hy, hpy⟩, -⟩ := hlast
      exact absurd ⟨y, List.mem_of_getElem? hy, hpy⟩ hno

/-- `min(np.argwhere(..))` is the first position, or `ValueError`. -/
theorem minI_argwhere (p : α → Bool) (a : List α) :
    (∀ k, minI (argwhere p a) = .ok k ↔ FirstWhere (fun x => p x = true) a k) ∧
    ((¬ ∃ x ∈ a, p x = true) → minI (argwhere p a) = .error .valueError) := by
  by_cases h : argwhere p a = []
  · have hno : ∀ i x, a[i]? = some x → p x ≠ true := fun i x hx hp => by
      have : i ∈ argwhere p a := (mem_argwhere p a i).2 ⟨x, hx, hp⟩
      rw [h] at this; exact absurd this (List.not_mem_nil)
    constructor
    · intro k
      rw [h]
      constructor
      · intro hk; cases hk
      · rintro ⟨⟨x, hx, hp⟩, -⟩; exact absurd hp (hno k x hx)
    · intro _; rw [h]; rfl
  · obtain ⟨k, hk, hmem, hle⟩ := minI_mem h
    have hlast : FirstWhere (fun x => p x = true) a k := by
      refine ⟨(mem_argwhere p a k).1 hmem, fun j x hj hx hp => ?_⟩
      have := hle j ((mem_argwhere p a j).2 ⟨x, hx, hp⟩)
      omega
    constructor
    · intro k'
      rw [hk]
      constructor
      · intro e; cases e; exact hlast
      · rintro ⟨⟨x, hx, hp⟩, hgt⟩
        have h1 := hle k' ((mem_argwhere p a k').2 ⟨x, hx, hp⟩)
        obtain ⟨⟨y, hy, hpy⟩, -⟩ := hlast
        by_contra hne
        have : k < k' := lt_of_le_of_ne h1 fun e => hne (by rw [e])
        exact hgt k y this hy hpy
    · intro hno
      obtain ⟨⟨y, hy, hpy⟩, -⟩ := hlast
      exact absurd ⟨y, List.mem_of_getElem? hy, hpy⟩ hno

theorem slice_map (f : α → β) (l : List α) (i j : ℕ) : slice (l.map f) i j = (slice l i j).map f := by
  simp [slice, List.map_drop, List.map_take]

theorem slice_zero (l : List α) (j : ℕ) : slice l 0 j = l.take j := by simp [slice]

end Np

namespace Results
open Data
variable {α β : Type}

/-! ### the monad -/

/-- value of a computation -/
def val (x : M F α) (r : Res F) : Except PyErr α := (x r).1

/-- object after the saturation index has been read -/
def touch (r : Res F) : Res F := (indexUysat r).2

theorem touch_fields (r : Res F) : (touch r).temporal = r.temporal ∧ (touch r).spatial = r.spatial ∧
    (touch r).pixel_area = r.pixel_area := by
  unfold touch indexUysat
  repeat' split
  all_goals exact ⟨rfl, rfl, rfl⟩

theorem indexUysat_touch (r : Res F) : indexUysat (touch r) = ((indexUysat r).1, touch r) := by
  unfold touch
  obtain ⟨t, s, a, i⟩ := r
  cases i with
  | none =>
    unfold indexUysat
    cases h : satLoop t.s2_y t.s2_y.length (.fin 0) 0 with
    | error e => simp only [h]
    | ok k =>
      simp only [h]
      by_cases hk : (k : ℤ) ≠ 0
      · rw [if_pos hk]
      · rw [if_neg hk]
  | some i =>
    unfold indexUysat
    by_cases hi : i ≠ 0
    · simp only [if_pos hi]
    · simp only [if_neg hi]
      cases h : satLoop t.s2_y t.s2_y.length (.fin 0) 0 with
      | error e => simp only [if_neg hi, h]
      | ok k =>
        simp only [h]
        by_cases hk : (k : ℤ) ≠ 0
        · rw [if_pos hk]
        · rw [if_neg hk]

theorem touch_touch (r : Res F) : touch (touch r) = touch r := by
  show (indexUysat (touch r)).2 = touch r
  rw [indexUysat_touch r]

/-- The object is unchanged or has the index cached, and the value does not depend on which. -/
def Stable (x : M F α) : Prop :=
  ∀ r, ((x r).2 = r ∨ (x r).2 = touch r) ∧ (x (touch r)).1 = (x r).1

theorem Stable.indexUysat : Stable (indexUysat : M F ℤ) := fun r =>
  ⟨.inr rfl, by rw [indexUysat_touch]⟩

theorem Stable.pure (a : α) : Stable (pure a : M F α) := fun _ => ⟨.inl rfl, rfl⟩
theorem Stable.lift (x : Except PyErr α) : Stable (lift x : M F α) := fun _ => ⟨.inl rfl, rfl⟩

theorem Stable.ask (f : Res F → α) (h : ∀ r i, f { r with index_u_ysat := i } = f r) :
    Stable (ask f) := fun r => by
  refine ⟨.inl rfl, ?_⟩
  show Except.ok (f (touch r)) = .ok (f r)
  obtain ⟨h1, h2, h3⟩ := touch_fields r
  have : touch r = { r with index_u_ysat := (touch r).index_u_ysat } := by
    rcases ht : touch r with ⟨a, b, c, d⟩
    rw [ht] at h1 h2 h3
    simp only at h1 h2 h3
    rw [h1, h2, h3]
  rw [this, h]

theorem bind_def (x : M F α) (f : α → M F β) (r : Res F) :
    (x >>= f) r = match x r with
      | (.ok a, r') => f a r'
      | (.error e, r') => (.error e, r') := rfl

theorem Stable.bind {x : M F α} {f : α → M F β} (hx : Stable x) (hf : ∀ a, Stable (f a)) :
    Stable (x >>= f) := fun r => by
  obtain ⟨h1, h2⟩ := hx r
  have h3 := (hx (touch r)).1
  rw [touch_touch, or_self] at h3
  rw [bind_def, bind_def]
  rcases hxr : x r with ⟨v, r'⟩
  rcases hxt : x (touch r) with ⟨v', r''⟩
  rw [hxr, hxt] at h2
  rw [hxr] at h1
  rw [hxt] at h3
  simp only at h1 h2 h3
  subst h2 h3
  cases v' with
  | error e => exact ⟨h1, rfl⟩
  | ok a =>
    simp only
    obtain ⟨g1, g2⟩ := hf a r
    obtain ⟨k1, k2⟩ := hf a (touch r)
    rw [touch_touch, or_self] at k1
    rcases h1 with h1 | h1
    · subst h1; exact ⟨g1, g2⟩
    · subst h1; exact ⟨.inr k1, rfl⟩

/-- Values of stable computations compose like exceptions. -/
theorem val_bind {x : M F α} {f : α → M F β} (hx : Stable x) (hf : ∀ a, Stable (f a)) (r : Res F) :
    val (x >>= f) r = (val x r >>= fun a => val (f a) r) := by
  unfold val
  rw [bind_def]
  obtain ⟨h1, -⟩ := hx r
  rcases hxr : x r with ⟨v, r'⟩
  rw [hxr] at h1
  simp only at h1
  cases v with
  | error e => rfl
  | ok a =>
    show (f a r').1 = (f a r).1
    rcases h1 with h1 | h1
    · subst h1; rfl
    · subst h1; exact (hf a r).2

@[simp] theorem val_pure (a : α) (r : Res F) : val (pure a : M F α) r = .ok a := rfl
@[simp] theorem val_lift (x : Except PyErr α) (r : Res F) : val (lift x : M F α) r = x := rfl
@[simp] theorem val_ask (f : Res F → α) (r : Res F) : val (ask f) r = .ok (f r) := rfl

theorem Stable.ite {c : Prop} [Decidable c] {x y : M F α} (hx : Stable x) (hy : Stable y) :
    Stable (if c then x else y) := by split <;> assumption

end Results
end Emva
