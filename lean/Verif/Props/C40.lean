import Verif.Model.Compress
import Verif.Spec.Compress
import Mathlib.Tactic.Linarith

/-!
C40: row-wise compression of masked images.
-/
set_option autoImplicit false
namespace Emva
open Spec Routines

namespace Routines

theorem liveRows_succ (n w : ℕ) (mask : ℕ → ℕ → Bool) (px : ℕ → ℕ → ℤ) :
    liveRows (n + 1) w mask px = liveRows n w mask px ++
      if (rowVals w mask px n).isEmpty then [] else [rowVals w mask px n] := by
  unfold liveRows
  rw [List.range_succ, List.map_append, List.filter_append]
  congr 1
  simp only [List.map_cons, List.map_nil, List.filter_cons, List.filter_nil]
  cases (rowVals w mask px n).isEmpty <;> simp

theorem liveRows_length_le (n w : ℕ) (mask : ℕ → ℕ → Bool) (px : ℕ → ℕ → ℤ) :
    (liveRows n w mask px).length ≤ n := by
  refine (List.length_filter_le _ _).trans ?_
  simp

theorem rowVals_length_le (w : ℕ) (mask : ℕ → ℕ → Bool) (px : ℕ → ℕ → ℤ) (i : ℕ) :
    (rowVals w mask px i).length ≤ w := by
  unfold rowVals
  rw [List.length_map]
  refine (List.length_filter_le _ _).trans ?_
  simp

/-- What holds after `n` rows. -/
structure Inv (a : MRef) (mem0 : Mem) (px : ℕ → ℕ → ℤ) (n : ℕ) (s : CState) : Prop where
  lines : s.lines = (liveRows n a.w a.mask px).length
  /-- rows still to be read are as they were -/
  ahead : ∀ i, n ≤ i → ∀ j, s.mem a.addr i j = px i j
  done : ∀ k l, (liveRows n a.w a.mask px)[k]? = some l → ∀ j x, l[j]? = some x → s.mem a.addr k j = x
  others : ∀ p, p ≠ a.addr → s.mem p = mem0 p
  le : s.cols ≤ a.w
  colsLe : ∀ l ∈ liveRows n a.w a.mask px, s.cols ≤ l.length
  colsMem : s.cols = a.w ∧ liveRows n a.w a.mask px = [] ∨
    ∃ l ∈ liveRows n a.w a.mask px, s.cols = l.length

theorem Inv.start (a : MRef) (mem : Mem) (px : ℕ → ℕ → ℤ) (h : ∀ i j, mem a.addr i j = px i j) :
    Inv a mem px 0 ⟨mem, 0, a.w⟩ where
  lines := rfl
  ahead := fun i _ j => h i j
  done := fun k l hl => by simp [liveRows] at hl
  others := fun _ _ => rfl
  le := le_rfl
  colsLe := fun l hl => by simp [liveRows] at hl
  colsMem := .inl ⟨rfl, rfl⟩

theorem Inv.step {a : MRef} {mem0 : Mem} {px : ℕ → ℕ → ℤ} {n : ℕ} {s : CState}
    (h : Inv a mem0 px n s) : Inv a mem0 px (n + 1) (compressStep a s n) := by
  have hrow : rowCompressed a s.mem n = rowVals a.w a.mask px n := by
    unfold rowCompressed rowVals
    exact List.map_congr_left fun j _ => h.ahead n le_rfl j
  have hle := liveRows_length_le n a.w a.mask px
  unfold compressStep
  simp only [hrow]
  by_cases he : (rowVals a.w a.mask px n).length = 0
  · have he' : (rowVals a.w a.mask px n).isEmpty = true := by simpa using he
    have hsame : liveRows (n + 1) a.w a.mask px = liveRows n a.w a.mask px := by
      rw [liveRows_succ, he']; simp
    rw [if_pos he]
    exact ⟨by rw [hsame]; exact h.lines, fun i hi j => h.ahead i (by omega) j,
      by rw [hsame]; exact h.done, h.others, h.le, by rw [hsame]; exact h.colsLe,
      by rw [hsame]; exact h.colsMem⟩
  · have he' : (rowVals a.w a.mask px n).isEmpty = false := by
      rw [Bool.eq_false_iff]; intro e; exact he (by simpa using e)
    have hnew : liveRows (n + 1) a.w a.mask px
        = liveRows n a.w a.mask px ++ [rowVals a.w a.mask px n] := by
      rw [liveRows_succ, he']; simp
    rw [if_neg he]
    refine ⟨?_, ?_, ?_, ?_, ?_, ?_, ?_⟩
    · rw [hnew, List.length_append, h.lines]; rfl
    · intro i hi j
      simp only [writeRow]
      rw [if_neg (by rw [h.lines]; omega)]
      exact h.ahead i (by omega) j
    · intro k l hl j x hx
      rw [hnew] at hl
      simp only [writeRow, true_and]
      rcases Nat.lt_trichotomy k (liveRows n a.w a.mask px).length with hk | hk | hk
      · rw [List.getElem?_append_left hk] at hl
        rw [if_neg (by rw [h.lines]; omega)]
        exact h.done k l hl j x hx
      · rw [List.getElem?_append_right (by omega), hk, Nat.sub_self] at hl
        simp only [List.getElem?_cons_zero, Option.some.injEq] at hl
        rw [if_pos (by rw [h.lines]; exact hk), hl, hx]; rfl
      · rw [List.getElem?_eq_none (by simp; omega)] at hl
        exact absurd hl (by simp)
    · intro p hp
      funext i j
      simp only [writeRow]
      rw [if_neg (by tauto), h.others p hp]
    · exact (min_le_left _ _).trans h.le
    · intro l hl
      rw [hnew, List.mem_append] at hl
      rcases hl with hl | hl
      · exact (min_le_left _ _).trans (h.colsLe l hl)
      · simp only [List.mem_singleton] at hl
        subst hl; exact min_le_right _ _
    · right
      rcases Nat.le_total s.cols (rowVals a.w a.mask px n).length with hc | hc
      · rcases h.colsMem with ⟨h1, h2⟩ | ⟨l, hl, h1⟩
        · refine ⟨rowVals a.w a.mask px n, by rw [hnew]; simp, ?_⟩
          have := rowVals_length_le a.w a.mask px n
          simp only; omega
        · exact ⟨l, by rw [hnew]; exact List.mem_append_left _ hl, by simp only; omega⟩
      · exact ⟨rowVals a.w a.mask px n, by rw [hnew]; simp, by simp only; omega⟩

theorem Inv.loop {a : MRef} {mem : Mem} {px : ℕ → ℕ → ℤ} (h : ∀ i j, mem a.addr i j = px i j) (n : ℕ) :
    Inv a mem px n ((List.range n).foldl (compressStep a) ⟨mem, 0, a.w⟩) := by
  induction n with
  | zero => exact Inv.start a mem px h
  | succ n ih =>
    rw [List.range_succ, List.foldl_append, List.foldl_cons, List.foldl_nil]
    exact ih.step

end Routines

/-- C40: for every masked image (data at any address, any copy address different from it) the result has
one row for each row with unmasked values, in order; the number of columns is the smallest count over
these rows (the full width if there are none); and each row holds the first unmasked values of its row
in order - although the buffer is overwritten while it is read.  Every other buffer, in particular the
caller's array, is unchanged. -/
theorem C40_compress (img : MRef) (fresh : ℕ) (mem : Mem) (hf : fresh ≠ img.addr)
    (rows : List (List ℤ)) (hrows : rows = liveRows img.h img.w img.mask (mem img.addr)) :
    (rowWiseCompress img fresh mem).1.h = rows.length ∧
    (rows = [] → (rowWiseCompress img fresh mem).1.w = img.w) ∧
    (∀ l ∈ rows, (rowWiseCompress img fresh mem).1.w ≤ l.length) ∧
    (rows ≠ [] → ∃ l ∈ rows, (rowWiseCompress img fresh mem).1.w = l.length) ∧
    (∀ k l, rows[k]? = some l → ∀ j < (rowWiseCompress img fresh mem).1.w,
      l[j]? = some ((rowWiseCompress img fresh mem).1.px k j)) ∧
    (rowWiseCompress img fresh mem).2 img.addr = mem img.addr ∧
    (∀ p, p ≠ fresh → (rowWiseCompress img fresh mem).2 p = mem p) := by
  obtain ⟨a, ha⟩ : ∃ a : MRef, a = { img with addr := fresh } := ⟨_, rfl⟩
  obtain ⟨mem1, hm⟩ : ∃ m : Mem, m = fun p => if p = fresh then mem img.addr else mem p := ⟨_, rfl⟩
  have hpx : ∀ i j, mem1 a.addr i j = mem img.addr i j := by
    intro i j; rw [hm, ha]; simp
  have inv := Inv.loop (a := a) (mem := mem1) hpx a.h
  have e1 : (rowWiseCompress img fresh mem).1 =
      ⟨((List.range a.h).foldl (compressStep a) ⟨mem1, 0, a.w⟩).lines,
        ((List.range a.h).foldl (compressStep a) ⟨mem1, 0, a.w⟩).cols,
        ((List.range a.h).foldl (compressStep a) ⟨mem1, 0, a.w⟩).mem a.addr⟩ := by
    rw [ha, hm]; rfl
  have e2 : (rowWiseCompress img fresh mem).2 =
      ((List.range a.h).foldl (compressStep a) ⟨mem1, 0, a.w⟩).mem := by
    rw [ha, hm]; rfl
  rw [e1, e2]
  have hr : liveRows a.h a.w a.mask (mem img.addr) = rows := by rw [hrows, ha]
  generalize (List.range a.h).foldl (compressStep a) ⟨mem1, 0, a.w⟩ = s at inv
  obtain ⟨i1, -, i3, i4, -, i6, i7⟩ := inv
  rw [hr] at i1 i3 i6 i7
  have hoth : ∀ p, p ≠ fresh → s.mem p = mem p := by
    intro p hp
    rw [i4 p (by rw [ha]; exact hp), hm]
    simp [hp]
  refine ⟨i1, ?_, i6, ?_, ?_, hoth _ (Ne.symm hf), hoth⟩
  · intro h
    rcases i7 with ⟨h1, -⟩ | ⟨l, hl, -⟩
    · simp only [h1, ha]
    · rw [h] at hl; exact absurd hl (by simp)
  · intro h
    rcases i7 with ⟨-, h2⟩ | h2
    · exact absurd h2 h
    · exact h2
  · intro k l hl j hj
    have hlen := i6 l (List.mem_of_getElem? hl)
    simp only at hj ⊢
    have hx := List.getElem?_eq_getElem (show j < l.length by omega)
    rw [hx, i3 k l hl j _ hx]

/-! ### a case meeting the hypotheses: rows `1 - 3 4`, `- - - -`, `9 10 11 -` -/

def sampleMRef : MRef := ⟨3, 4, fun i j => decide (i = 1 ∨ (i = 0 ∧ j = 1) ∨ (i = 2 ∧ j = 3)), 7⟩
def sampleMem : Mem := fun _ i j => 4 * i + j + 1

example : (MImg.plain (rowWiseCompress sampleMRef 8 sampleMem).1).ravel
    = [(1, false), (3, false), (4, false), (9, false), (10, false), (11, false)] := by decide +kernel
example : liveRows 3 4 sampleMRef.mask (sampleMem 7) = [[1, 3, 4], [9, 10, 11]] := by decide +kernel

end Emva
