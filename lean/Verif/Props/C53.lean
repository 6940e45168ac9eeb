import Verif.Model.Tile
import Verif.Spec.Tile
import Mathlib.Tactic.Ring
import Mathlib.Tactic.NormNum

/-!
C53: tiled patterns.
-/
set_option autoImplicit false
namespace Emva
open Tile Spec

namespace Tile
variable {α : Type}

theorem length_flatten_replicate (n : ℕ) (l : List α) : (List.replicate n l).flatten.length = n * l.length := by
  induction n with
  | zero => simp
  | succ n ih => rw [List.replicate_succ, List.flatten_cons, List.length_append, ih]; ring

theorem get_flatten_replicate (n : ℕ) (l : List α) (i : ℕ) (h : i < n * l.length) :
    (List.replicate n l).flatten[i]? = l[i % l.length]? := by
  induction n generalizing i with
  | zero => simp at h
  | succ n ih =>
    rw [List.replicate_succ, List.flatten_cons]
    by_cases hi : i < l.length
    · rw [List.getElem?_append_left hi, Nat.mod_eq_of_lt hi]
    · have hi' := not_lt.1 hi
      rw [List.getElem?_append_right hi', ih (i - l.length) (by
        rw [Nat.succ_mul] at h
        omega)]
      rw [Nat.mod_eq_sub_mod hi']

theorem tile_periodic (rows : List (List α)) (w hr wr : ℕ) (hw : ∀ r ∈ rows, r.length = w) :
    Periodic rows (tile rows hr wr) w (hr * rows.length) (wr * w) := by
  refine ⟨?_, ?_, fun i j hi hj => ?_⟩
  · unfold tile
    rw [length_flatten_replicate, List.length_map]
  · intro r hr'
    simp only [tile, List.mem_flatten, List.mem_replicate] at hr'
    obtain ⟨l, ⟨-, rfl⟩, hl⟩ := hr'
    obtain ⟨r', hr1, rfl⟩ := List.mem_map.1 hl
    rw [length_flatten_replicate, hw r' hr1]
  · unfold tile
    rw [get_flatten_replicate _ _ _ (by rwa [List.length_map]), List.length_map, List.getElem?_map]
    cases h : rows[i % rows.length]? with
    | none => rfl
    | some r =>
      have hl := hw r (List.mem_of_getElem? h)
      show (List.replicate wr r).flatten[j]? = r[j % w]?
      rw [get_flatten_replicate _ _ _ (by rwa [hl]), hl]

theorem periodic_cut (p rows : List (List α)) (pw h w h' w' : ℕ) (hp : Periodic p rows pw h w) (hh : h' ≤ h)
    (hw : w' ≤ w) : Periodic p ((rows.take h').map fun r => r.take w') pw h' w' := by
  obtain ⟨h1, h2, h3⟩ := hp
  refine ⟨by simp [h1, hh], ?_, fun i j hi hj => ?_⟩
  · intro r hr
    obtain ⟨r', hr', rfl⟩ := List.mem_map.1 hr
    rw [List.length_take, h2 r' (List.mem_of_mem_take hr')]
    exact min_eq_left hw
  · rw [← h3 i j (by omega) (by omega), List.getElem?_map, List.getElem?_take_of_lt hi]
    cases rows[i]? with
    | none => rfl
    | some r =>
      show (r.take w')[j]? = _
      rw [List.getElem?_take_of_lt hj]
      rfl

/-- `cut` of a periodic array that is large enough -/
theorem cut_periodic (p rows : List (List α)) (pw h w h' w' : ℕ) (hp : Periodic p rows pw h w) (hh : h' ≤ h)
    (hw : w' ≤ w) :
    (h' = 1 → ∃ r, cut rows w h' w' = .ok (.one r) ∧ Periodic p [r] pw 1 w') ∧
    (h' ≠ 1 → ∃ t, cut rows w h' w' = .ok (.two w' t) ∧ Periodic p t pw h' w') := by
  have hc := periodic_cut p rows pw h w h' w' hp hh hw
  constructor
  · rintro rfl
    unfold cut
    rw [if_pos rfl]
    generalize ((rows.take 1).map fun r => r.take w') = t at hc
    match t, hc with
    | [], hc => exact absurd hc.1 (by simp)
    | [r], hc => exact ⟨r, rfl, hc⟩
    | r :: _ :: _, hc => exact absurd hc.1 (by simp)
  · intro hne
    refine ⟨_, ?_, hc⟩
    unfold cut
    rw [if_neg hne, min_eq_right hw]

theorem le_tiles (n k : ℕ) (hk : k ≠ 0) : n ≤ (n / k + 1) * k := by
  have := Nat.lt_div_mul_add (a := n) (Nat.pos_of_ne_zero hk)
  rw [Nat.add_mul, one_mul]
  exact this.le

end Tile

section
variable {α : Type}

/-- C53: a tiled two-dimensional pattern has the requested size and the period of the pattern; for the
height one it is one-dimensional. -/
theorem C53_two (w : ℕ) (rows : List (List α)) (height width : ℕ) (hr : rows ≠ []) (hw0 : w ≠ 0)
    (hw : ∀ r ∈ rows, r.length = w) :
    (height = 1 → ∃ r, getTile (.two w rows) height width = .ok (.one r) ∧ Periodic rows [r] w 1 width) ∧
    (height ≠ 1 → ∃ t, getTile (.two w rows) height width = .ok (.two width t) ∧
      Periodic rows t w height width) := by
  have hl : rows.length ≠ 0 := fun e => hr (List.length_eq_zero_iff.1 e)
  unfold getTile
  simp only [if_neg hl, if_neg hw0]
  exact cut_periodic rows _ w _ _ height width (tile_periodic rows w _ _ hw) (le_tiles _ _ hl) (le_tiles _ _ hw0)

/-- C53: a one-dimensional pattern is repeated along the row, all rows are equal. -/
theorem C53_one (a : List α) (height width : ℕ) (ha : a ≠ []) :
    (height = 1 → ∃ r, getTile (.one a) height width = .ok (.one r) ∧ Periodic [a] [r] a.length 1 width) ∧
    (height ≠ 1 → ∃ t, getTile (.one a) height width = .ok (.two width t) ∧
      Periodic [a] t a.length height width) := by
  have hl : a.length ≠ 0 := fun e => ha (List.length_eq_zero_iff.1 e)
  unfold getTile
  simp only [if_neg hl]
  refine cut_periodic [a] _ a.length _ _ height width (tile_periodic [a] a.length _ _ (by simp)) (by simp)
    (le_tiles _ _ hl)

/-- C53: exactly the empty patterns (`ZeroDivisionError`) and those with more than two dimensions (`UnboundLocalError`) are
rejected. -/
theorem C53_rejected (arr : Arr α) (height width : ℕ) (e : PyErr) : getTile arr height width = .error e ↔
    ((arr = .one [] ∨ (∃ w, arr = .two w []) ∨ ∃ rows, arr = .two 0 rows) ∧ e = .zeroDivisionError) ∨
      arr = .other ∧ e = .unboundLocalError := by
  have hcut : ∀ (rows : List (List α)) (w : ℕ), (height = 1 → rows ≠ []) → cut rows w height width ≠ .error e := by
    intro rows w hr h
    unfold cut at h
    split_ifs at h with h1
    cases rows with
    | nil => exact hr h1 rfl
    | cons r l => subst h1; simp at h
  have hne : ∀ (rows : List (List α)) (hr wr : ℕ), rows ≠ [] → hr ≠ 0 → tile rows hr wr ≠ [] := by
    intro rows hr wr h1 h2 h
    unfold tile at h
    rw [List.flatten_eq_nil_iff] at h
    have := h (rows.map fun r => (List.replicate wr r).flatten) (List.mem_replicate.2 ⟨h2, rfl⟩)
    exact h1 (List.map_eq_nil_iff.1 this)
  cases arr with
  | other => simp [getTile, eq_comm]
  | one a =>
    unfold getTile
    cases a with
    | nil => simp [eq_comm]
    | cons x l =>
      have := hcut (tile [x :: l] height (width / (x :: l).length + 1)) ((width / (x :: l).length + 1) * (x :: l).length)
        (fun h => hne _ _ _ (by simp) (by omega))
      simp only
      rw [if_neg (by simp)]
      simp only [this, false_iff]
      rintro (⟨h | ⟨w, h⟩ | ⟨r, h⟩, -⟩ | ⟨h, -⟩) <;> cases h
  | two w rows =>
    unfold getTile
    cases rows with
    | nil => simp [eq_comm]
    | cons r l =>
      simp only
      rw [if_neg (by simp)]
      by_cases hw : w = 0
      · subst hw; simp [eq_comm]
      · rw [if_neg hw]
        have := hcut (tile (r :: l) (height / (r :: l).length + 1) (width / w + 1)) ((width / w + 1) * w)
          (fun _ => hne _ _ _ (by simp) (Nat.succ_ne_zero _))
        simp only [this, false_iff]
        rintro (⟨h | ⟨w, h⟩ | ⟨r, h⟩, -⟩ | ⟨h, -⟩) <;> cases h
        exact hw rfl

/-- C53: `array_tile` of a three-dimensional pattern is periodic, and it has the requested size exactly
when the size is a multiple of the size of the pattern (otherwise it is smaller). -/
theorem C53_array_tile (w : ℕ) (rows : List (List α)) (height width : ℕ) (hr : rows ≠ []) (hw0 : w ≠ 0)
    (hw : ∀ r ∈ rows, r.length = w) :
    ∃ t, arrayTile (.three w rows) height width = .ok t ∧
      Periodic rows t.rows w (height / rows.length * rows.length) t.w ∧
      t.rows.length ≤ height ∧ t.w ≤ width ∧
      (t.rows.length = height ∧ t.w = width ↔ rows.length ∣ height ∧ w ∣ width) := by
  have hl : rows.length ≠ 0 := fun e => hr (List.length_eq_zero_iff.1 e)
  have hp := tile_periodic rows w (height / rows.length) (width / w) hw
  refine ⟨_, by unfold arrayTile; simp only [if_neg hl, if_neg hw0]; rfl, hp, ?_, ?_, ?_⟩
  · rw [hp.1]; exact Nat.div_mul_le_self _ _
  · exact Nat.div_mul_le_self _ _
  · rw [hp.1]
    show _ ∧ width / w * w = width ↔ _
    constructor
    · rintro ⟨h1, h2⟩
      exact ⟨⟨_, by rw [mul_comm]; exact h1.symm⟩, ⟨_, by rw [mul_comm]; exact h2.symm⟩⟩
    · rintro ⟨h1, h2⟩
      exact ⟨Nat.div_mul_cancel h1, Nat.div_mul_cancel h2⟩

/-- C53: a spectrum (one-dimensional array) is repeated for every pixel. -/
theorem C53_array_tile_spectrum (x : α) (height width : ℕ) :
    ∃ t, arrayTile (.one x) height width = .ok ⟨width, t⟩ ∧ t.length = height ∧
      (∀ r ∈ t, r.length = width) ∧ ∀ r ∈ t, ∀ y ∈ r, y = x := by
  have hp := tile_periodic [[x]] 1 height width (by simp)
  refine ⟨_, rfl, by simpa using hp.1, by simpa using hp.2.1, ?_⟩
  intro r hr y hy
  simp only [tile, List.map_cons, List.map_nil, List.mem_flatten, List.mem_replicate] at hr
  obtain ⟨l, ⟨-, rfl⟩, hl⟩ := hr
  rw [List.mem_singleton] at hl
  subst hl
  obtain ⟨l, hl, hy⟩ := List.mem_flatten.1 hy
  rw [(List.mem_replicate.1 hl).2] at hy
  exact List.mem_singleton.1 hy

/-- C53, what is wrong: for a two-dimensional array (pixels of a row, wavelengths) the number of columns
of the result depends on the number of wavelengths `d`: it is `width / d` times the number of pixels. -/
theorem C53_array_tile_rows (a : List α) (d height width : ℕ) (hd : d ≠ 0) :
    ∃ t, arrayTile (.two a d) height width = .ok ⟨width / d * a.length, t⟩ ∧
      Periodic [a] t a.length height (width / d * a.length) := by
  have hp := tile_periodic [a] a.length height (width / d) (by simp)
  refine ⟨tile [a] height (width / d), by unfold arrayTile; simp only [if_neg hd], ?_⟩
  simpa using hp

end

/-- C53, what is wrong: two pixels with 100 wavelengths do not fill 640 columns, though 640 is a multiple
of two. -/
theorem C53_array_tile_rows_counterexample : ∃ t, arrayTile (.two [1, 2] 100) 480 640 = .ok ⟨12, t⟩ := by
  obtain ⟨t, ht, -⟩ := C53_array_tile_rows [1, 2] 100 480 640 (by norm_num)
  exact ⟨t, ht⟩

/-! ### cases -/

example : getTile (.two 2 [[1, 2], [3, 4]]) 3 5 =
    .ok (.two 5 [[1, 2, 1, 2, 1], [3, 4, 3, 4, 3], [1, 2, 1, 2, 1]]) := by rfl

example : getTile (.one [1, 2, 3]) 1 4 = .ok (.one [1, 2, 3, 1]) := by rfl

/-- an odd size loses a row and a column -/
example : arrayTile (.three 2 [[1, 2], [3, 4]]) 3 5 = .ok ⟨4, [[1, 2, 1, 2], [3, 4, 3, 4]]⟩ := by rfl

end Emva
