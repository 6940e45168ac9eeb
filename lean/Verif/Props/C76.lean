import Verif.Props.C75
import Verif.Props.C53
import Mathlib.Data.Nat.Factorial.Basic

/-!
C76: the Bayer filter of the camera simulator.
-/
set_option autoImplicit false
namespace Emva
open Qe

namespace Spec

/-- the curve of a colour filter: 1000^v / (v - 1)!, a Poisson distribution with mean 1000 -/
noncomputable def filterWeight (v : ℕ) : ℝ := 1000 ^ v / (v - 1).factorial

/-- The transmissions `T` of a colour filter for the wavelength `loc` at the wavelengths `w` (in whole nm): positive, one at some
wavelength and never more, growing up to `loc + 1` and falling from `loc` on, in the ratios of the curve. -/
def IsTransmission (loc : ℤ) (w : List ℝ) (T : ℕ → ℝ) : Prop :=
  (∃ k < w.length, T k = 1) ∧ (∀ k < w.length, 0 < T k ∧ T k ≤ 1) ∧
  (∀ k l : ℕ, ∀ x y : ℝ, w[k]? = some x → w[l]? = some y → ⌊x⌋ ≤ ⌊y⌋ → ⌊y⌋ ≤ loc + 1 → T k ≤ T l) ∧
  (∀ k l : ℕ, ∀ x y : ℝ, w[k]? = some x → w[l]? = some y → ⌊x⌋ ≤ ⌊y⌋ → loc ≤ ⌊x⌋ → T l ≤ T k) ∧
  (∀ k : ℕ, ∀ x : ℝ, w[k]? = some x → ⌊x⌋ = loc → T k = 1) ∧
  ∀ k l : ℕ, ∀ x y : ℝ, ∀ u v : ℕ, w[k]? = some x → w[l]? = some y → 0 < u → 0 < v → (u : ℤ) = ⌊x⌋ - loc + 1000 →
    (v : ℤ) = ⌊y⌋ - loc + 1000 → T k * filterWeight v = T l * filterWeight u

end Spec

namespace Qe

theorem ln_step (mu v : ℤ) : lnPoisson mu (v + 1) = lnPoisson mu v + Real.log mu - (if 1 ≤ v then Real.log v else 0) := by
  unfold lnPoisson
  split
  · rename_i h
    obtain ⟨n, rfl⟩ : ∃ n : ℕ, v = n + 1 := ⟨(v - 1).toNat, by omega⟩
    have e1 : ((n : ℤ) + 1 + 1).toNat - 1 = n + 1 := by omega
    have e2 : ((n : ℤ) + 1).toNat - 1 = n := by omega
    rw [e1, e2, List.range_succ, List.map_append, List.sum_append]
    push_cast
    simp
    ring
  · have e1 : (v + 1).toNat - 1 = 0 := by omega
    have e2 : v.toNat - 1 = 0 := by omega
    rw [e1, e2]
    push_cast
    simp
    ring

theorem ln_mono (mu : ℤ) (hmu : 1 ≤ mu) (a b : ℤ) (hab : a ≤ b) : b ≤ mu + 1 → lnPoisson mu a ≤ lnPoisson mu b := by
  induction b, hab using Int.le_induction with
  | base => intro _; exact le_rfl
  | succ b hb ih =>
    intro h
    refine (ih (by omega)).trans ?_
    rw [ln_step]
    have h0 : 0 ≤ Real.log mu := Real.log_nonneg (by exact_mod_cast hmu)
    split
    · rename_i h1
      have : Real.log b ≤ Real.log mu := Real.log_le_log (by exact_mod_cast h1) (by exact_mod_cast (by omega : b ≤ mu))
      linarith
    · linarith

theorem ln_anti (mu : ℤ) (hmu : 1 ≤ mu) (a b : ℤ) (hab : a ≤ b) (ha : mu ≤ a) : lnPoisson mu b ≤ lnPoisson mu a := by
  induction b, hab using Int.le_induction with
  | base => exact le_rfl
  | succ b hb ih =>
    refine le_trans ?_ ih
    rw [ln_step, if_pos (by omega)]
    have : Real.log mu ≤ Real.log b := Real.log_le_log (by exact_mod_cast hmu) (by exact_mod_cast (by omega : mu ≤ b))
    linarith

theorem exp_ln (v : ℕ) (hv : 0 < v) : Real.exp (lnPoisson 1000 v) = Spec.filterWeight v * Real.exp (-1000) := by
  unfold Spec.filterWeight
  induction v, hv using Nat.le_induction with
  | base =>
    simp [lnPoisson, Real.exp_sub, Real.exp_neg, Real.exp_log]
    ring
  | succ v hv ih =>
    have e : lnPoisson 1000 ((v + 1 : ℕ) : ℤ) = lnPoisson 1000 (v : ℤ) + Real.log 1000 - Real.log v := by
      have := ln_step 1000 v
      rw [if_pos (by exact_mod_cast hv)] at this
      push_cast at this ⊢
      exact this
    have hv' : (0 : ℝ) < v := by exact_mod_cast hv
    rw [e, Real.exp_sub, Real.exp_add, ih, Real.exp_log (by norm_num), Real.exp_log hv']
    obtain ⟨m, rfl⟩ : ∃ m, v = m + 1 := ⟨v - 1, by omega⟩
    have : (m + 1 + 1 - 1).factorial = (m + 1) * (m + 1 - 1).factorial := by
      simp [Nat.factorial_succ]
    rw [this]
    have : ((m + 1 - 1).factorial : ℝ) ≠ 0 := by exact_mod_cast (Nat.factorial_ne_zero _)
    push_cast at *
    field_simp
    ring

/-- normalising positive values -/
theorem normalise_spec (t : List ℝ) (ht : t ≠ []) (hp : ∀ x ∈ t, 0 < x) :
    ∃ M, 0 < M ∧ M ∈ t ∧ (∀ x ∈ t, x ≤ M) ∧ normalise t = .ok (t.map fun v => v / M) := by
  cases t with
  | nil => exact absurd rfl ht
  | cons x l =>
    have m : ∀ (l : List ℝ) (x : ℝ), l.foldl max x ∈ x :: l ∧ ∀ c ∈ x :: l, c ≤ l.foldl max x := by
      intro l
      induction l with
      | nil => intro x; simp
      | cons y l ih =>
        intro x
        obtain ⟨h1, h2⟩ := ih (max x y)
        rw [List.foldl_cons]
        refine ⟨?_, ?_⟩
        · rcases List.mem_cons.1 h1 with h | h
          · rw [h]
            rcases max_choice x y with h | h <;> rw [h] <;> simp
          · simp [h]
        · intro c hc
          have h0 := h2 (max x y) (by simp)
          rcases List.mem_cons.1 hc with rfl | hc
          · exact (le_max_left _ _).trans h0
          · rcases List.mem_cons.1 hc with rfl | hc
            · exact (le_max_right _ _).trans h0
            · exact h2 c (by simp [hc])
    exact ⟨_, hp _ (m l x).1, (m l x).1, (m l x).2, rfl⟩

theorem transmission (w : List ℝ) (hw : w ≠ []) (h0 : ∀ x ∈ w, 0 ≤ x) (loc : ℤ) :
    ∃ T, normalise (poisson w loc) = .ok T ∧ T.length = w.length ∧ Spec.IsTransmission loc w fun k => T.getD k 0 := by
  obtain ⟨M, hM, hMm, hMle, e⟩ := normalise_spec (poisson w loc) (by simpa [poisson] using hw) (by
    intro x hx
    obtain ⟨a, -, rfl⟩ := List.mem_map.1 hx
    exact Real.exp_pos _)
  refine ⟨_, e, by simp [poisson], ?_⟩
  have hT : ∀ (k : ℕ) (x : ℝ), w[k]? = some x →
      ((poisson w loc).map fun v => v / M).getD k 0 = Real.exp (lnPoisson 1000 (trunc x + (1000 - loc))) / M := by
    intro k x hx
    simp [poisson, List.getD, hx]
  have ht : ∀ (k : ℕ) (x : ℝ), w[k]? = some x → trunc x = ⌊x⌋ := by
    intro k x hx
    unfold trunc
    rw [if_pos (h0 x (List.mem_of_getElem? hx))]
  have hT' : ∀ k < w.length, ∃ x, w[k]? = some x := fun k hk => ⟨w[k], by simp [hk]⟩
  have hle : ∀ (k : ℕ) (x : ℝ), w[k]? = some x → Real.exp (lnPoisson 1000 (trunc x + (1000 - loc))) ≤ M := by
    intro k x hx
    exact hMle _ (List.mem_map.2 ⟨x, List.mem_of_getElem? hx, rfl⟩)
  have hup : ∀ k l : ℕ, ∀ x y : ℝ, w[k]? = some x → w[l]? = some y → ⌊x⌋ ≤ ⌊y⌋ → ⌊y⌋ ≤ loc + 1 →
      ((poisson w loc).map fun v => v / M).getD k 0 ≤ ((poisson w loc).map fun v => v / M).getD l 0 := by
    intro k l x y hx hy h1 h2
    rw [hT k x hx, hT l y hy, ht k x hx, ht l y hy]
    exact div_le_div_of_nonneg_right (Real.exp_le_exp.2 (ln_mono 1000 (by norm_num) _ _ (by omega) (by omega))) hM.le
  have hdown : ∀ k l : ℕ, ∀ x y : ℝ, w[k]? = some x → w[l]? = some y → ⌊x⌋ ≤ ⌊y⌋ → loc ≤ ⌊x⌋ →
      ((poisson w loc).map fun v => v / M).getD l 0 ≤ ((poisson w loc).map fun v => v / M).getD k 0 := by
    intro k l x y hx hy h1 h2
    rw [hT k x hx, hT l y hy, ht k x hx, ht l y hy]
    exact div_le_div_of_nonneg_right (Real.exp_le_exp.2 (ln_anti 1000 (by norm_num) _ _ (by omega) (by omega))) hM.le
  obtain ⟨k0, hk0, h1⟩ : ∃ k < w.length, ((poisson w loc).map fun v => v / M).getD k 0 = 1 := by
    obtain ⟨x, hx, hxM⟩ := List.mem_map.1 hMm
    obtain ⟨k, hk, hkx⟩ := List.getElem_of_mem hx
    refine ⟨k, hk, ?_⟩
    rw [hT k x (by rw [← hkx]; simp [hk])]
    rw [hxM, div_self hM.ne']
  have hone : ∀ k < w.length, 0 < ((poisson w loc).map fun v => v / M).getD k 0 ∧
      ((poisson w loc).map fun v => v / M).getD k 0 ≤ 1 := by
    intro k hk
    obtain ⟨x, hx⟩ := hT' k hk
    rw [hT k x hx]
    exact ⟨div_pos (Real.exp_pos _) hM, (div_le_one hM).2 (hle k x hx)⟩
  refine ⟨⟨k0, hk0, h1⟩, hone, hup, hdown, ?_, ?_⟩
  · intro k x hx hl
    have hk : k < w.length := by
      by_contra h
      rw [List.getElem?_eq_none (by omega)] at hx
      cases hx
    obtain ⟨y, hy⟩ := hT' k0 hk0
    refine le_antisymm (hone k hk).2 ?_
    simp only
    rw [← h1]
    rcases le_total (⌊y⌋) (⌊x⌋) with h | h
    · exact hup k0 k y x hy hx h (by omega)
    · exact hdown k k0 x y hx hy h (by omega)
  · intro k l x y u v hx hy hu hv hux hvy
    simp only
    rw [hT k x hx, hT l y hy, ht k x hx, ht l y hy, show ⌊x⌋ + (1000 - loc) = (u : ℤ) by omega, show ⌊y⌋ + (1000 - loc) = (v : ℤ) by omega,
      exp_ln u hu, exp_ln v hv]
    ring

end Qe

/-- C76: for an even number of rows and columns the Bayer filter has the size of the image; the pixel in row `i`, column `j` has
the colour of its place in the 2 x 2 pattern.  It can be used as the filter of a generated efficiency, which it makes smaller
and leaves between 0 and 1. -/
theorem C76_bayer_partial (t00 t01 t10 t11 : ℝ) (width height : ℕ) (w : List ℝ) (hw : w ≠ []) (h0 : ∀ x ∈ w, 0 ≤ x)
    (hh : 2 ∣ height) (hwi : 2 ∣ width) (ht : 0 ≤ t00 ∧ 0 ≤ t01 ∧ 0 ≤ t10 ∧ 0 ≤ t11) :
    ∃ f, bayer t00 t01 t10 t11 width height w = .ok f ∧ f.shape = [height, width, w.length] ∧
      (∀ i < height, ∀ j < width, Spec.IsTransmission
        ⌊if i % 2 = 0 then (if j % 2 = 0 then t00 else t01) else (if j % 2 = 0 then t10 else t11)⌋ w
        fun k => f.at' [i, j, k]) ∧
      ∃ a b, mkQe none w width height none = .ok (a, none) ∧ mkQe none w width height (some f) = .ok (b, none) ∧
        Spec.IsEfficiency b height width w.length ∧
        ∀ i < height, ∀ j < width, ∀ k < w.length, b.at' [i, j, k] ≤ a.at' [i, j, k] := by
  have e : ∀ t : ℝ, 0 ≤ t → trunc t = ⌊t⌋ := fun t ht => by unfold trunc; rw [if_pos ht]
  obtain ⟨a, ea, la, ha⟩ := transmission w hw h0 (trunc t00)
  obtain ⟨b, eb, lb, hb⟩ := transmission w hw h0 (trunc t01)
  obtain ⟨c, ec, lc, hc⟩ := transmission w hw h0 (trunc t10)
  obtain ⟨d, ed, ld, hd⟩ := transmission w hw h0 (trunc t11)
  rw [e _ ht.1] at ha
  rw [e _ ht.2.1] at hb
  rw [e _ ht.2.2.1] at hc
  rw [e _ ht.2.2.2] at hd
  obtain ⟨t, et, hper, -, -, hsize⟩ := C53_array_tile 2 [[a, b], [c, d]] height width (by simp) (by simp) (by simp)
  obtain ⟨s1, s2⟩ := hsize.2 ⟨by simpa using hh, hwi⟩
  obtain ⟨p1, p2, p3⟩ := hper
  have hE : bayer t00 t01 t10 t11 width height w = .ok ⟨[t.rows.length, t.w, w.length],
      fun ix => ((t.rows.getD (ix.getD 0 0) []).getD (ix.getD 1 0) []).getD (ix.getD 2 0) 0⟩ := by
    unfold bayer
    rw [ea, eb, ec, ed]
    simp only [bind, Except.bind]
    rw [et]
  have hT : ∀ i < height, ∀ j < width, Spec.IsTransmission
        ⌊if i % 2 = 0 then (if j % 2 = 0 then t00 else t01) else (if j % 2 = 0 then t10 else t11)⌋ w
        fun k => ((t.rows.getD i []).getD j []).getD k 0 := by
    intro i hi j hj
    have hp := p3 i j (by rw [← p1, s1]; exact hi) (by rw [s2]; exact hj)
    have : (t.rows.getD i []).getD j [] = if i % 2 = 0 then (if j % 2 = 0 then a else b) else (if j % 2 = 0 then c else d) := by
      have hil : i < t.rows.length := by rw [s1]; exact hi
      have hjl : j < t.rows[i].length := by rw [p2 _ (List.getElem_mem hil), s2]; exact hj
      have hx : t.rows[i]?.bind (·[j]?) = some ((t.rows.getD i []).getD j []) := by
        simp [List.getD, hil, hjl]
      rw [hx] at hp
      rcases Nat.mod_two_eq_zero_or_one i with hi2 | hi2 <;> rcases Nat.mod_two_eq_zero_or_one j with hj2 | hj2 <;>
        simp [hi2, hj2] at hp ⊢ <;> exact hp
    rw [this]
    split
    · split <;> assumption
    · split <;> assumption
  refine ⟨_, hE, by rw [s1, s2], hT, ?_⟩
  obtain ⟨g, b', q1, q2, q3, q4⟩ := C75_filter_partial none ⟨[t.rows.length, t.w, w.length],
      fun ix => ((t.rows.getD (ix.getD 0 0) []).getD (ix.getD 1 0) []).getD (ix.getD 2 0) 0⟩ w width height (by simp)
      (.inl (by rw [s1, s2]))
  obtain ⟨g', g1, g2, -⟩ := C75_generated w width height
  have hg : g' = g := by
    rw [g1] at q1
    exact (Prod.mk.inj (Except.ok.inj q1)).1
  subst hg
  have hn : ([t.rows.length, t.w, w.length] : List ℕ) ≠ [w.length] := by simp
  have hF : ∀ i < height, ∀ j < width, ∀ k < w.length, 0 ≤ ((t.rows.getD i []).getD j []).getD k 0 ∧
      ((t.rows.getD i []).getD j []).getD k 0 ≤ 1 := fun i hi j hj k hk =>
    ⟨((hT i hi j hj).2.1 k hk).1.le, ((hT i hi j hj).2.1 k hk).2⟩
  refine ⟨g', b', g1, q2, q4 g2 ?_, ?_⟩
  · intro i hi j hj k hk
    simp only [if_neg hn]
    exact hF i hi j hj k hk
  · intro i hi j hj k hk
    rw [q3 i hi j hj k hk]
    simp only [if_neg hn]
    have := hF i hi j hj k hk
    have := g2.2 i hi j hj k hk
    exact mul_le_of_le_one_right this.1 (hF i hi j hj k hk).2

/-- C76 fails for an odd number of rows or columns: the filter is one row or column too small and cannot be used. -/
theorem C76_odd (t00 t01 t10 t11 : ℝ) (width height : ℕ) (w : List ℝ) (hw : w ≠ []) (h0 : ∀ x ∈ w, 0 ≤ x)
    (hodd : height % 2 = 1 ∨ width % 2 = 1) :
    ∃ f, bayer t00 t01 t10 t11 width height w = .ok f ∧ f.shape = [height / 2 * 2, width / 2 * 2, w.length] ∧
      mkQe none w width height (some f) = .error .valueError := by
  obtain ⟨a, ea, la, ha⟩ := transmission w hw h0 (trunc t00)
  obtain ⟨b, eb, lb, hb⟩ := transmission w hw h0 (trunc t01)
  obtain ⟨c, ec, lc, hc⟩ := transmission w hw h0 (trunc t10)
  obtain ⟨d, ed, ld, hd⟩ := transmission w hw h0 (trunc t11)
  obtain ⟨t, et, ⟨p1, -, -⟩, -⟩ := C53_array_tile 2 [[a, b], [c, d]] height width (by simp) (by simp) (by simp)
  have hE : bayer t00 t01 t10 t11 width height w = .ok ⟨[t.rows.length, t.w, w.length],
      fun ix => ((t.rows.getD (ix.getD 0 0) []).getD (ix.getD 1 0) []).getD (ix.getD 2 0) 0⟩ := by
    unfold bayer
    rw [ea, eb, ec, ed]
    simp only [bind, Except.bind]
    rw [et]
  have htw : t.w = width / 2 * 2 := by
    have : Tile.arrayTile (.three 2 [[a, b], [c, d]]) height width = .ok ⟨width / 2 * 2, _⟩ := rfl
    rw [et] at this
    cases this
    rfl
  simp only [List.length_cons, List.length_nil, Nat.zero_add] at p1
  refine ⟨_, hE, by rw [p1, htw], ?_⟩
  refine C75_filter_rejected none _ w width height (height / 2 * 2) (width / 2 * 2) w.length (by simp) (by simp only [p1, htw]) ?_
  omega

/-- C76: without wavelengths the filter is rejected, and only then. -/
theorem C76_rejected (t00 t01 t10 t11 : ℝ) (width height : ℕ) (w : List ℝ) (e : PyErr) :
    bayer t00 t01 t10 t11 width height w = .error e ↔ w = [] ∧ e = .valueError := by
  cases w with
  | nil =>
    have : bayer t00 t01 t10 t11 width height [] = .error .valueError := rfl
    simp [this, eq_comm]
  | cons x l =>
    have : ∃ f, bayer t00 t01 t10 t11 width height (x :: l) = .ok f := ⟨_, rfl⟩
    obtain ⟨f, hf⟩ := this
    simp [hf]

/-- C76: the curve is a step function: the fractional part of a value is ignored, for positive and negative values. -/
theorem C76_truncated (x : ℝ) (n : ℕ) (loc mu : ℤ) :
    ((n : ℝ) ≤ x → x < n + 1 → poisson [x] loc mu = poisson [(n : ℝ)] loc mu) ∧
    (x ≤ -n → -((n : ℝ) + 1) < x → poisson [x] loc mu = poisson [-(n : ℝ)] loc mu) := by
  have hn : (0 : ℝ) ≤ n := Nat.cast_nonneg n
  have e1 : trunc (n : ℝ) = n := by
    unfold trunc
    rw [if_pos hn]
    exact Int.floor_natCast n
  have e2 : trunc (-(n : ℝ)) = -n := by
    unfold trunc
    split
    · next h =>
      have : n = 0 := by
        have : (n : ℝ) = 0 := by linarith
        exact_mod_cast this
      simp [this]
    · rw [Int.ceil_neg, Int.floor_natCast]
  refine ⟨fun h1 h2 => ?_, fun h1 h2 => ?_⟩
  · have : trunc x = n := by
      unfold trunc
      rw [if_pos (hn.trans h1), Int.floor_eq_iff]
      exact ⟨by exact_mod_cast h1, by exact_mod_cast h2⟩
    simp only [poisson, List.map_cons, List.map_nil, this, e1]
  · have : trunc x = -n := by
      unfold trunc
      split
      · next h =>
        have h0 : (n : ℝ) = 0 := by linarith
        have hx : x = 0 := by linarith
        have h0' : n = 0 := by exact_mod_cast h0
        simp [hx, h0']
      · rw [Int.ceil_eq_iff]
        push_cast
        exact ⟨by linarith, h1⟩
    simp only [poisson, List.map_cons, List.map_nil, this, e2]

/-! ### cases meeting the hypotheses: green, red, blue for 2 x 4 and 3 x 4 pixels -/

example : ∃ f, bayer 530 620 450 530 4 2 [450, 530, 620] = .ok f ∧ f.shape = [2, 4, 3] ∧ f.at' [0, 3, 2] = 1 ∧ f.at' [1, 1, 1] = 1 ∧
    f.at' [0, 0, 0] ≤ f.at' [0, 0, 1] := by
  obtain ⟨f, e, s, h, -⟩ := C76_bayer_partial 530 620 450 530 4 2 [450, 530, 620] (by simp) (by simp) (by norm_num) (by norm_num) (by norm_num)
  refine ⟨f, e, s, ?_, ?_, ?_⟩
  · have := (h 0 (by norm_num) 3 (by norm_num)).2.2.2.2.1 2 620 rfl
    exact this (by norm_num)
  · have := (h 1 (by norm_num) 1 (by norm_num)).2.2.2.2.1 1 530 rfl
    exact this (by norm_num)
  · exact (h 0 (by norm_num) 0 (by norm_num)).2.2.1 0 1 450 530 rfl rfl (by norm_num) (by norm_num)

example : ∃ f, bayer 530 620 450 530 4 3 [450, 530, 620] = .ok f ∧ f.shape = [2, 4, 3] ∧
    mkQe none [450, 530, 620] 4 3 (some f) = .error .valueError :=
  C76_odd 530 620 450 530 4 3 [450, 530, 620] (by simp) (by simp) (by norm_num)

end Emva
