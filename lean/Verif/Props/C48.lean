import Verif.Spec.Camera
import Mathlib.Algebra.Order.Field.Basic
import Mathlib.Tactic.Linarith
import Mathlib.Tactic.FieldSimp
import Mathlib.Tactic.Ring
import Mathlib.Tactic.NormNum
import Mathlib.Algebra.Order.Group.Abs
import Mathlib.Data.Rat.Floor

/-!
C48: gain and black offset snap to the nearest available value.
-/
set_option autoImplicit false
set_option linter.unusedSectionVars false
namespace Emva
open Cam Spec

namespace Cam
variable {F : Type} [Field F] [LinearOrder F]

theorem argminFrom_spec (l : List F) : ∀ (b : F) (bi i : ℕ),
    (argminFrom (.fin b) bi i (l.map .fin) = bi ∧ ∀ y ∈ l, b ≤ y) ∨
    ∃ j y, argminFrom (.fin b) bi i (l.map .fin) = i + j ∧ l[j]? = some y ∧ y < b ∧ (∀ z ∈ l, y ≤ z) ∧
      ∀ (k : ℕ) (z : F), k < j → l[k]? = some z → y < z := by
  induction l with
  | nil => intro b bi i; exact .inl ⟨rfl, by simp⟩
  | cons x l ih =>
    intro b bi i
    rw [List.map_cons, argminFrom, if_neg (by simp [Fl.isNan])]
    by_cases hx : x < b
    · rw [if_pos (show Fl.lt (.fin x) (.fin b) = true from decide_eq_true hx)]
      rcases ih x i (i + 1) with ⟨h1, h2⟩ | ⟨j, y, h1, h2, h3, h4, h5⟩
      · refine .inr ⟨0, x, h1, rfl, hx, ?_, fun k z hk => by omega⟩
        intro z hz
        rcases List.mem_cons.1 hz with rfl | hz
        · exact le_rfl
        · exact h2 z hz
      · refine .inr ⟨j + 1, y, by rw [h1]; omega, h2, h3.trans hx, ?_, ?_⟩
        · intro z hz
          rcases List.mem_cons.1 hz with rfl | hz
          · exact h3.le
          · exact h4 z hz
        · intro k z hk hz
          cases k with
          | zero => cases hz; exact h3
          | succ k => exact h5 k z (by omega) hz
    · rw [if_neg (show ¬ Fl.lt (.fin x) (.fin b) = true from by simpa using hx)]
      rcases ih b bi (i + 1) with ⟨h1, h2⟩ | ⟨j, y, h1, h2, h3, h4, h5⟩
      · refine .inl ⟨h1, ?_⟩
        intro z hz
        rcases List.mem_cons.1 hz with rfl | hz
        · exact not_lt.1 hx
        · exact h2 z hz
      · refine .inr ⟨j + 1, y, by rw [h1]; omega, h2, h3, ?_, ?_⟩
        · intro z hz
          rcases List.mem_cons.1 hz with rfl | hz
          · exact h3.le.trans (not_lt.1 hx)
          · exact h4 z hz
        · intro k z hk hz
          cases k with
          | zero => cases hz; exact h3.trans_le (not_lt.1 hx)
          | succ k => exact h5 k z (by omega) hz

/-- `argmin` of a non-empty finite list -/
theorem argmin_spec (l : List F) (h : l ≠ []) : ∃ i y, argmin (l.map .fin) = .ok i ∧ l[i]? = some y ∧
    (∀ z ∈ l, y ≤ z) ∧ ∀ (k : ℕ) (z : F), k < i → l[k]? = some z → y < z := by
  cases l with
  | nil => exact absurd rfl h
  | cons x l =>
    rw [List.map_cons, argmin, if_neg (by simp [Fl.isNan])]
    rcases argminFrom_spec l x 0 1 with ⟨h1, h2⟩ | ⟨j, y, h1, h2, h3, h4, h5⟩
    · refine ⟨0, x, by rw [h1], rfl, ?_, fun k z hk => by omega⟩
      intro z hz
      rcases List.mem_cons.1 hz with rfl | hz
      · exact le_rfl
      · exact h2 z hz
    · refine ⟨1 + j, y, by rw [h1], ?_, ?_, ?_⟩
      · rw [Nat.add_comm]; exact h2
      · intro z hz
        rcases List.mem_cons.1 hz with rfl | hz
        · exact h3.le
        · exact h4 z hz
      · intro k z hk hz
        cases k with
        | zero => cases hz; exact h3
        | succ k => exact h5 k z (by omega) hz

theorem idx_nat {α : Type} (a : List α) (i : ℕ) (x : α) (h : a[i]? = some x) : Np.idx a (i : ℤ) = .ok x := by
  unfold Np.idx
  have h1 : ¬ ((i : ℤ) < 0) := by omega
  simp only [if_neg h1, Int.toNat_natCast, h]

theorem nearest_spec (grid : List F) (v : F) (h : grid ≠ []) :
    ∃ x, nearestValue (.fin v) grid = .ok x ∧ NearestFirst grid v x := by
  have hmap : (grid.map fun a => fabs (Fl.fin a - Fl.fin v)) = (grid.map fun a => |a - v|).map Fl.fin := by
    rw [List.map_map]
    refine List.map_congr_left fun a _ => ?_
    rw [Fl.fin_sub]; rfl
  obtain ⟨i, y, h1, h2, h3, h4⟩ := argmin_spec (grid.map fun a => |a - v|) (by simpa using h)
  rw [List.getElem?_map] at h2
  rcases hx : grid[i]? with _ | x
  · rw [hx] at h2; cases h2
  · rw [hx] at h2
    have hy : y = |x - v| := by cases h2; rfl
    refine ⟨x, ?_, i, hx, ?_, ?_⟩
    · rw [nearestValue, hmap, h1]
      exact idx_nat _ _ _ hx
    · intro z hz
      rw [← hy]
      exact h3 _ (List.mem_map_of_mem hz)
    · intro j z hj hz
      rw [← hy]
      exact h4 j _ hj (by rw [List.getElem?_map, hz]; rfl)

theorem nearest_unique {grid : List F} {v x y : F} (hx : NearestFirst grid v x) (hy : NearestFirst grid v y) : x = y := by
  obtain ⟨i, h1, h2, h3⟩ := hx
  obtain ⟨j, h4, h5, h6⟩ := hy
  rcases lt_trichotomy i j with h | h | h
  · exact absurd (h6 i x h h1) (not_lt.2 (h2 y (List.mem_of_getElem? h4)))
  · subst h; rw [h1] at h4; exact Option.some.inj h4
  · exact absurd (h3 j y h h4) (not_lt.2 (h5 x (List.mem_of_getElem? h1)))

end Cam

section
variable {F : Type} [Field F] [LinearOrder F]

/-- C48: setting the gain selects the first available value with minimal distance and changes nothing
else. -/
theorem C48_gain (c : Camera F) (v : F) (h : c.Ks ≠ []) :
    ∃ x, NearestFirst c.Ks v x ∧ c.setK (.fin v) = .ok { c with K := x } := by
  obtain ⟨x, h1, h2⟩ := nearest_spec c.Ks v h
  exact ⟨x, h2, by rw [Camera.setK, h1]; rfl⟩

/-- C48: the same for the black offset. -/
theorem C48_blackoffset (c : Camera F) (v : F) (h : c.blackoffsets ≠ []) :
    ∃ x, NearestFirst c.blackoffsets v x ∧ c.setBlackoffset (.fin v) = .ok { c with blackoffset := x } := by
  obtain ⟨x, h1, h2⟩ := nearest_spec c.blackoffsets v h
  exact ⟨x, h2, by rw [Camera.setBlackoffset, h1]; rfl⟩

/-- C48: an available value is set exactly. -/
theorem C48_exact [IsStrictOrderedRing F] (c : Camera F) :
    (∀ v ∈ c.Ks, c.setK (.fin v) = .ok { c with K := v }) ∧
    (∀ v ∈ c.blackoffsets, c.setBlackoffset (.fin v) = .ok { c with blackoffset := v }) := by
  have key : ∀ (grid : List F) (v x : F), v ∈ grid → NearestFirst grid v x → x = v := by
    rintro grid v x hv ⟨i, -, h2, -⟩
    have := h2 v hv
    rw [sub_self, abs_zero] at this
    exact sub_eq_zero.1 (abs_eq_zero.1 (le_antisymm this (abs_nonneg _)))
  constructor
  · intro v hv
    obtain ⟨x, h1, h2⟩ := C48_gain c v (List.ne_nil_of_mem hv)
    rw [h2, key _ _ _ hv h1]
  · intro v hv
    obtain ⟨x, h1, h2⟩ := C48_blackoffset c v (List.ne_nil_of_mem hv)
    rw [h2, key _ _ _ hv h1]

/-- C48: the reported value is available, and setting it again changes nothing. -/
theorem C48_idempotent [IsStrictOrderedRing F] (c c' : Camera F) (v : F) :
    (c.setK (.fin v) = .ok c' → c'.K ∈ c'.Ks ∧ c'.setK (.fin v) = .ok c' ∧ c'.setK (.fin c'.K) = .ok c') ∧
    (c.setBlackoffset (.fin v) = .ok c' → c'.blackoffset ∈ c'.blackoffsets ∧
      c'.setBlackoffset (.fin v) = .ok c' ∧ c'.setBlackoffset (.fin c'.blackoffset) = .ok c') := by
  constructor
  · intro h
    have hne : c.Ks ≠ [] := by
      intro he
      rw [Camera.setK, nearestValue, he] at h
      cases h
    obtain ⟨x, hx, h2⟩ := C48_gain c v hne
    rw [h2] at h
    cases h
    obtain ⟨i, h3, -⟩ := id hx
    have hm : x ∈ c.Ks := List.mem_of_getElem? h3
    obtain ⟨y, hy, h4⟩ := C48_gain { c with K := x } v hne
    refine ⟨hm, ?_, (C48_exact { c with K := x }).1 x hm⟩
    rw [h4, nearest_unique (grid := c.Ks) hy hx]
  · intro h
    have hne : c.blackoffsets ≠ [] := by
      intro he
      rw [Camera.setBlackoffset, nearestValue, he] at h
      cases h
    obtain ⟨x, hx, h2⟩ := C48_blackoffset c v hne
    rw [h2] at h
    cases h
    obtain ⟨i, h3, -⟩ := id hx
    have hm : x ∈ c.blackoffsets := List.mem_of_getElem? h3
    obtain ⟨y, hy, h4⟩ := C48_blackoffset { c with blackoffset := x } v hne
    refine ⟨hm, ?_, (C48_exact { c with blackoffset := x }).2 x hm⟩
    rw [h4, nearest_unique (grid := c.blackoffsets) hy hx]

/-- C48: NaN and both infinities select the first available value (the smallest gain even for `inf`). -/
theorem C48_nonfinite (c : Camera F) (k : F) (ks : List F) (h : c.Ks = k :: ks) :
    c.setK .nan = .ok { c with K := k } ∧ ∀ s, c.setK (.inf s) = .ok { c with K := k } := by
  have hinf : ∀ s (l : List F) (i : ℕ),
      argminFrom (.inf false) 0 i (l.map fun a => fabs (Fl.fin a - Fl.inf s)) = 0 := by
    intro s l
    induction l with
    | nil => intro i; rfl
    | cons a l ih =>
      intro i
      cases s <;> exact ih (i + 1)
  constructor
  · rw [Camera.setK, nearestValue, h]
    simp only [List.map_cons, Fl.sub_nan]
    rfl
  · intro s
    rw [Camera.setK, nearestValue, h, List.map_cons, argmin]
    have h1 : fabs (Fl.fin k - Fl.inf s) = .inf false := by cases s <;> rfl
    rw [h1, if_neg (by simp [Fl.isNan]), hinf]
    rfl

/-- C48: a gain or a black offset is rejected (`ValueError`) exactly if none is available. -/
theorem C48_rejected (c : Camera F) (v : Fl F) (e : PyErr) :
    (c.setK v = .error e ↔ c.Ks = [] ∧ e = .valueError) ∧
    (c.setBlackoffset v = .error e ↔ c.blackoffsets = [] ∧ e = .valueError) := by
  have hlt : ∀ (l : List (Fl F)) (b : Fl F) (bi i : ℕ), bi < i → argminFrom b bi i l < i + l.length := by
    intro l
    induction l with
    | nil => intro b bi i h; simpa [argminFrom] using h
    | cons x l ih =>
      intro b bi i h
      unfold argminFrom
      have h1 := ih x i (i + 1) (by omega)
      have h2 := ih b bi (i + 1) (by omega)
      rw [List.length_cons]
      split_ifs <;> omega
  have key : ∀ l : List F, (∃ x, l ≠ [] ∧ nearestValue v l = .ok x) ∨ l = [] ∧ nearestValue v l = .error .valueError := by
    intro l
    cases l with
    | nil => exact .inr ⟨rfl, rfl⟩
    | cons a l =>
      left
      have : ∃ i, argmin ((a :: l).map fun a => fabs (Fl.fin a - v)) = .ok i ∧ i < (a :: l).length := by
        rw [List.map_cons, argmin]
        split_ifs
        · exact ⟨0, rfl, by simp⟩
        · exact ⟨_, rfl, by simpa [Nat.add_comm] using hlt (l.map fun a => fabs (Fl.fin a - v)) (fabs (Fl.fin a - v)) 0 1 (by omega)⟩
      obtain ⟨i, h1, h2⟩ := this
      refine ⟨(a :: l)[i], by simp, ?_⟩
      rw [nearestValue, h1]
      exact idx_nat _ _ _ (List.getElem?_eq_getElem h2)
  constructor
  · rcases key c.Ks with ⟨x, h, h'⟩ | ⟨h, h'⟩
    · rw [Camera.setK, h']
      constructor
      · intro h2; cases h2
      · rintro ⟨h2, -⟩; exact absurd h2 h
    · rw [Camera.setK, h']
      constructor
      · intro h2; cases h2; exact ⟨h, rfl⟩
      · rintro ⟨-, rfl⟩; rfl
  · rcases key c.blackoffsets with ⟨x, h, h'⟩ | ⟨h, h'⟩
    · rw [Camera.setBlackoffset, h']
      constructor
      · intro h2; cases h2
      · rintro ⟨h2, -⟩; exact absurd h2 h
    · rw [Camera.setBlackoffset, h']
      constructor
      · intro h2; cases h2; exact ⟨h, rfl⟩
      · rintro ⟨-, rfl⟩; rfl

end

namespace Cam
variable {F : Type} [Field F] [LinearOrder F] [IsStrictOrderedRing F]

theorem linspace_get (a b : F) (n i : ℕ) (h : i < n) (hn : 2 ≤ n) :
    (linspace a b n)[i]? = some (a + i * ((b - a) / ((n : F) - 1))) := by
  rw [linspace, List.getElem?_map, List.getElem?_range h, Option.map_some]
  congr 1
  split_ifs with hc
  · have hi : (i : F) = (n : F) - 1 := by
      have : ((i + 1 : ℕ) : F) = (n : F) := by rw [hc.1]
      push_cast at this
      exact eq_sub_of_add_eq this
    have h1 : (n : F) - 1 ≠ 0 := by
      have : (2 : F) ≤ n := by exact_mod_cast hn
      intro h0; linarith
    rw [hi]
    field_simp
    ring
  · rfl

theorem linspace_mem (a b : F) (n : ℕ) (hn : 2 ≤ n) (x : F) :
    x ∈ linspace a b n ↔ ∃ i : ℕ, i < n ∧ x = a + i * ((b - a) / ((n : F) - 1)) := by
  rw [List.mem_iff_getElem?]
  constructor
  · rintro ⟨i, hi⟩
    have hlt : i < n := by
      have := (List.getElem?_eq_some_iff.1 hi).1
      simpa [linspace] using this
    rw [linspace_get a b n i hlt hn] at hi
    exact ⟨i, hlt, (Option.some.inj hi).symm⟩
  · rintro ⟨i, hi, rfl⟩
    exact ⟨i, linspace_get a b n i hi hn⟩

/-- a point between the ends is between two neighbours -/
theorem between (a s v : F) (m : ℕ) (h1 : a ≤ v) (h2 : v ≤ a + m * s) (hm : 0 < m) :
    ∃ i : ℕ, i < m ∧ a + i * s ≤ v ∧ v ≤ a + ((i : F) + 1) * s := by
  induction m with
  | zero => omega
  | succ m ih =>
    by_cases hv : v ≤ a + m * s
    · rcases Nat.eq_zero_or_pos m with rfl | hp
      · refine ⟨0, by omega, by simpa using h1, ?_⟩
        push_cast at h2 ⊢
        linarith
      · obtain ⟨i, h3, h4, h5⟩ := ih hv hp
        exact ⟨i, by omega, h4, h5⟩
    · exact ⟨m, by omega, (not_le.1 hv).le, by push_cast at h2; exact h2⟩

end Cam

section
variable {F : Type} [Field F] [LinearOrder F] [IsStrictOrderedRing F]

/-- C48: on the equidistant grid of the constructor, values below or above the range give the ends, and
inside the range the error is at most half a step. -/
theorem C48_grid (c c' : Camera F) (a b : F) (n : ℕ) (hn : 2 ≤ n) (hab : a < b) (hg : c.Ks = linspace a b n) (v : F)
    (h : c.setK (.fin v) = .ok c') :
    a ∈ c.Ks ∧ b ∈ c.Ks ∧ (∀ k ∈ c.Ks, a ≤ k ∧ k ≤ b) ∧
    (v ≤ a → c'.K = a) ∧ (b ≤ v → c'.K = b) ∧
    (a ≤ v → v ≤ b → |c'.K - v| ≤ (b - a) / (2 * ((n : F) - 1))) := by
  have hn' : (2 : F) ≤ n := by exact_mod_cast hn
  have hn1 : (0 : F) < (n : F) - 1 := by linarith
  have hs : 0 < (b - a) / ((n : F) - 1) := div_pos (by linarith) hn1
  set s := (b - a) / ((n : F) - 1) with hsdef
  have hlast : a + ((n - 1 : ℕ) : F) * s = b := by
    rw [Nat.cast_sub (by omega), Nat.cast_one, hsdef]
    field_simp; ring
  have hmem := linspace_mem a b n hn
  have ha : a ∈ c.Ks := by rw [hg, hmem]; exact ⟨0, by omega, by simp⟩
  have hb : b ∈ c.Ks := by rw [hg, hmem]; exact ⟨n - 1, by omega, hlast.symm⟩
  have hrange : ∀ k ∈ c.Ks, a ≤ k ∧ k ≤ b := by
    intro k hk
    rw [hg, hmem] at hk
    obtain ⟨i, hi, rfl⟩ := hk
    have h0 : (0 : F) ≤ i := Nat.cast_nonneg i
    have h1 : (i : F) ≤ ((n - 1 : ℕ) : F) := by exact_mod_cast (by omega : i ≤ n - 1)
    constructor
    · have := mul_nonneg h0 hs.le; linarith
    · have := mul_le_mul_of_nonneg_right h1 hs.le; linarith
  obtain ⟨x, ⟨i, h1, h2, h3⟩, h4⟩ := C48_gain c v (List.ne_nil_of_mem ha)
  rw [h4] at h
  cases h
  have hx := hrange x (List.mem_of_getElem? h1)
  refine ⟨ha, hb, hrange, ?_, ?_, ?_⟩
  · intro hv
    have := h2 a ha
    rw [abs_of_nonneg (by linarith), abs_of_nonneg (by linarith)] at this
    show x = a
    linarith
  · intro hv
    have := h2 b hb
    rw [abs_of_nonpos (by linarith), abs_of_nonpos (by linarith)] at this
    show x = b
    linarith
  · intro hav hvb
    show |x - v| ≤ _
    obtain ⟨j, hj, h5, h6⟩ := between a s v (n - 1) hav (by rw [hlast]; exact hvb) (by omega)
    have e : (b - a) / (2 * ((n : F) - 1)) = s / 2 := by
      rw [hsdef]; field_simp
    rw [e]
    have m1 : a + j * s ∈ c.Ks := by rw [hg, hmem]; exact ⟨j, by omega, rfl⟩
    have m2 : a + ((j : F) + 1) * s ∈ c.Ks := by
      rw [hg, hmem]; exact ⟨j + 1, by omega, by push_cast; rfl⟩
    have d1 := h2 _ m1
    have d2 := h2 _ m2
    rw [abs_of_nonpos (sub_nonpos.2 h5)] at d1
    rw [abs_of_nonneg (sub_nonneg.2 h6)] at d2
    linarith

/-- C48: a new camera has an available gain and black offset, the ones nearest to the arguments. -/
theorem C48_new (a : Args F) (h1 : a.KSteps ≠ 0) (h2 : a.blackoffsetSteps ≠ 0) :
    ∃ c, mkCamera a = .ok c ∧ NearestFirst c.Ks a.K c.K ∧ NearestFirst c.blackoffsets a.blackoffset c.blackoffset ∧
      c.Ks = linspace a.KMin a.KMax a.KSteps ∧
      ∃ m : F, (a.blackoffsetMax = none ∨ a.blackoffsetMax = some 0 → m = ((2 ^ a.bitDepth - 1) / 16 : ℤ)) ∧
        (∀ x, x ≠ 0 → a.blackoffsetMax = some x → m = x) ∧
        c.blackoffsets = linspace a.blackoffsetMin m a.blackoffsetSteps := by
  have ne : ∀ (x y : F) (n : ℕ), n ≠ 0 → linspace x y n ≠ [] := by
    intro x y n hn
    simpa [linspace] using hn
  obtain ⟨k, hk, hk'⟩ := nearest_spec (linspace a.KMin a.KMax a.KSteps) a.K (ne _ _ _ h1)
  obtain ⟨b, hb, hb'⟩ := nearest_spec
    (linspace a.blackoffsetMin (defaultMax a.bitDepth a.blackoffsetMax) a.blackoffsetSteps) a.blackoffset (ne _ _ _ h2)
  have h : mkCamera a = .ok
      { bitDepth := a.bitDepth, width := a.width, height := a.height
        Ks := linspace a.KMin a.KMax a.KSteps, K := k
        blackoffsets := linspace a.blackoffsetMin (defaultMax a.bitDepth a.blackoffsetMax) a.blackoffsetSteps
        blackoffset := b, uEsat := a.uEsat, exposure := a.exposure, dsnu := a.dsnu.getD fun _ _ => 0 } := by
    unfold mkCamera
    simp only [hk, hb]
    rfl
  refine ⟨_, h, hk', hb', rfl, defaultMax a.bitDepth a.blackoffsetMax, ?_, ?_, rfl⟩
  · rintro (h0 | h0) <;> rw [h0] <;> simp [defaultMax, imgMax]
  · intro x hx h0
    rw [h0]
    simp [defaultMax, hx]

end

/-! ### a case -/

/-- gains 1, 2, 3, 4 -/
def sampleCamera : Camera ℚ where
  bitDepth := 8
  width := 2
  height := 2
  Ks := linspace 1 4 4
  K := 1
  blackoffsets := linspace 0 15 16
  blackoffset := 0
  uEsat := 1000
  exposure := 1
  dsnu := fun _ _ => 0

example : nearestValue (.fin (5 / 2)) sampleCamera.Ks = .ok 2 ∧ nearestValue (.fin (13 / 5)) sampleCamera.Ks = .ok 3 := by
  decide +kernel

example : ∃ c', sampleCamera.setK (.fin (5 / 2)) = .ok c' ∧ c'.K = 2 := by
  obtain ⟨x, ⟨i, h1, h2, h3⟩, h⟩ := C48_gain sampleCamera (5 / 2) (by decide +kernel)
  have : nearestValue (.fin (5 / 2)) sampleCamera.Ks = .ok 2 := by decide +kernel
  refine ⟨{ sampleCamera with K := 2 }, ?_, rfl⟩
  rw [Camera.setK, this]; rfl

end Emva
