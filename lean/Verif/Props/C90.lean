import Verif.Props.C66
import Mathlib.Analysis.SpecialFunctions.Pow.Real

/-!
C90: how far errors of the measured points can move the responsivity, the gain and the quantum efficiency.
-/
set_option autoImplicit false
set_option linter.unusedSectionVars false
namespace Emva
open Spec Data Results Fit
variable {F : Type} [Field F] [LinearOrder F] [IsStrictOrderedRing F]

theorem bestSlope_eq {l : List (F × F)} {m : F} (h : BestSlope l m) (hx : ∃ p ∈ l, p.1 ≠ 0) : m = Sxy l / Sxx l :=
  bestSlope_unique (bestSlope_of hx) fun k => by
    by_cases hk : k = m
    · rw [hk]
    · exact (h k hk).le

/-- Points within `ε` of a line through the origin: the slope found cannot be far from that of the line. -/
theorem bestSlope_close {l : List (F × F)} {m κ ε : F} (h : BestSlope l m) (hx : ∃ p ∈ l, p.1 ≠ 0)
    (hε : ∀ p ∈ l, |p.2 - κ * p.1| ≤ ε) : (m - κ) ^ 2 * Sxx l ≤ l.length * ε ^ 2 := by
  have hp := Sxx_pos hx
  have e := sqErr_normal0 (l := l) (m := m) (by rw [bestSlope_eq h hx]; field_simp) κ
  have h0 : 0 ≤ sqErr l m 0 := sqErr_nonneg _ _ _
  have h1 : sqErr l κ 0 ≤ l.length * ε ^ 2 := by
    clear * - hε
    induction l with
    | nil => simp [sqErr]
    | cons p l ih =>
      have a := ih fun p' hp' => hε p' (List.mem_cons_of_mem _ hp')
      have b : (p.2 - κ * p.1) ^ 2 ≤ ε ^ 2 := sq_le_sq.2 ((hε p (by simp)).trans (le_abs_self ε))
      simp only [sqErr, List.map_cons, List.sum_cons, List.length_cons, Nat.cast_add, Nat.cast_one, add_zero] at a ⊢
      rw [add_mul, one_mul, add_comm]
      exact add_le_add a b
  have : (m - κ) ^ 2 = (κ - m) ^ 2 := by ring
  rw [this]
  linarith

theorem sq_le_Sxx {l : List (F × F)} {p : F × F} (hp : p ∈ l) : p.1 ^ 2 ≤ Sxx l := by
  induction l with
  | nil => simp at hp
  | cons a l ih =>
    rw [Sxx, S_cons]
    have h0 : 0 ≤ S (fun p : F × F => p.1 * p.1) l := S_nonneg (fun _ => mul_self_nonneg _) l
    rcases List.mem_cons.1 hp with rfl | hp
    · nlinarith
    · have := ih hp
      rw [Sxx] at this
      nlinarith [mul_self_nonneg a.1]

/-- Points between two lines through the origin: so is the slope found. -/
theorem bestSlope_between {l : List (F × F)} {m κ ε : F} (h : BestSlope l m) (hx : ∃ p ∈ l, p.1 ≠ 0)
    (hε : ∀ p ∈ l, |p.2 - κ * p.1| ≤ ε * |p.1|) : |m - κ| ≤ ε := by
  have hp := Sxx_pos hx
  have e : (m - κ) * Sxx l = Sxy l - κ * Sxx l := by rw [bestSlope_eq h hx]; field_simp
  have hb : |Sxy l - κ * Sxx l| ≤ ε * Sxx l := by
    clear * - hε
    induction l with
    | nil => simp [Sxy, Sxx]
    | cons p l ih =>
      have a := ih fun p' hp' => hε p' (List.mem_cons_of_mem _ hp')
      have b : |p.1 * (p.2 - κ * p.1)| ≤ ε * (p.1 * p.1) := by
        rw [abs_mul, ← abs_mul_abs_self p.1]
        calc |p.1| * |p.2 - κ * p.1| ≤ |p.1| * (ε * |p.1|) := mul_le_mul_of_nonneg_left (hε p (by simp)) (abs_nonneg _)
          _ = _ := by ring
      simp only [Sxy, Sxx, S_cons] at a ⊢
      calc _ = |p.1 * (p.2 - κ * p.1) + (S (fun p => p.1 * p.2) l - κ * S (fun p => p.1 * p.1) l)| := by congr 1; ring
        _ ≤ _ := (abs_add_le _ _).trans (by rw [mul_add]; exact add_le_add b a)
  rw [← e, abs_mul, abs_of_pos hp] at hb
  exact le_of_mul_le_mul_right hb hp

theorem mem_take_zip {X Y : List F} {n : ℕ} {p : F × F} (h : p ∈ (X.zip Y).take n) :
    ∃ i < n, X[i]? = some p.1 ∧ Y[i]? = some p.2 := by
  obtain ⟨i, hi⟩ := List.mem_iff_getElem?.1 h
  by_cases hn : i < n
  · rw [List.getElem?_take_of_lt hn] at hi
    obtain ⟨a, b⟩ := List.getElem?_zip_eq_some.1 hi
    exact ⟨i, hn, a, b⟩
  · rw [List.getElem?_eq_none (by simp; omega)] at hi
    cases hi

theorem take_zip_mem {X Y : List F} {n i : ℕ} {x y : F} (hi : i < n) (hx : X[i]? = some x) (hy : Y[i]? = some y) :
    (x, y) ∈ (X.zip Y).take n := by
  refine List.mem_of_getElem? (i := i) ?_
  rw [List.getElem?_take_of_lt hi]
  exact List.getElem?_zip_eq_some.2 ⟨hx, hy⟩

theorem getElem?_of_len {X Y : List F} (h : X.length = Y.length) {i : ℕ} {x : F} (hx : X[i]? = some x) : ∃ y, Y[i]? = some y := by
  have := (List.getElem?_eq_some_iff.1 hx).1
  exact ⟨_, List.getElem?_eq_getElem (h ▸ this)⟩

/-- What C90 says of a slope `m` found on the points `0 .. j` of the curve `y` over `x`, which lie within `ε` of the line of
slope `κ` or, relative to `x`, within `δ`: it is as close to `κ` as any of the points tells, up to `√(j + 1)`. -/
def Spec.SlopeClose (x y : List F) (j : ℕ) (m : F) : Prop :=
  (∀ κ ε, (∀ i ≤ j, ∀ a b, x[i]? = some a → y[i]? = some b → |b - κ * a| ≤ ε) →
    ∀ i ≤ j, ∀ a, x[i]? = some a → ((m - κ) * a) ^ 2 ≤ (j + 1) * ε ^ 2) ∧
  ∀ κ δ, (∀ i ≤ j, ∀ a b, x[i]? = some a → y[i]? = some b → |b - κ * a| ≤ δ * |a|) → |m - κ| ≤ δ

theorem slopeClose_of {x y : List F} (hl : x.length = y.length) {j : ℕ} {m : F} (h : BestSlope ((x.zip y).take (j + 1)) m)
    (hx : ∃ i ≤ j, ∃ a, x[i]? = some a ∧ a ≠ 0) : SlopeClose x y j m := by
  have hx' : ∃ p ∈ (x.zip y).take (j + 1), p.1 ≠ 0 := by
    obtain ⟨i, hi, a, ha, h0⟩ := hx
    obtain ⟨b, hb⟩ := getElem?_of_len hl ha
    exact ⟨(a, b), take_zip_mem (by omega) ha hb, h0⟩
  constructor
  · intro κ ε hε i hi a ha
    obtain ⟨b, hb⟩ := getElem?_of_len hl ha
    have h1 := bestSlope_close (κ := κ) (ε := ε) h hx' fun p hp => by
      obtain ⟨i, hi, h1, h2⟩ := mem_take_zip hp
      exact hε i (by omega) _ _ h1 h2
    have h2 := sq_le_Sxx (take_zip_mem (n := j + 1) (by omega) ha hb)
    have h3 : (((x.zip y).take (j + 1)).length : F) ≤ j + 1 := by
      have : ((x.zip y).take (j + 1)).length ≤ j + 1 := by simp
      exact_mod_cast this
    calc ((m - κ) * a) ^ 2 = (m - κ) ^ 2 * a ^ 2 := by ring
      _ ≤ (m - κ) ^ 2 * Sxx ((x.zip y).take (j + 1)) := mul_le_mul_of_nonneg_left h2 (sq_nonneg _)
      _ ≤ _ := h1.trans (mul_le_mul_of_nonneg_right h3 (sq_nonneg _))
  · intro κ δ hδ
    refine bestSlope_between h hx' fun p hp => ?_
    obtain ⟨i, hi, h1, h2⟩ := mem_take_zip hp
    exact hδ i (by omega) _ _ h1 h2

/-- C90, gain: `K` is close to the slope of any line through the origin that the points of the photon transfer curve lie
close to. -/
theorem C90_gain (q : LSQ F) (hq : q.Good) (r : Res F) (uy ud sy sd : List F)
    (hu : r.temporal.u_y = uy.map .fin) (hd : r.temporal.u_ydark = ud.map .fin)
    (hsy : r.temporal.s2_y = sy.map .fin) (hsd : r.temporal.s2_ydark = sd.map .fin)
    (h1 : uy.length = ud.length) (h2 : sy.length = uy.length) (h3 : sd.length = uy.length)
    (j : ℕ) (hj : val indexSensitivityMax r = .ok j)
    (hx : ∃ i ≤ j, ∃ y, (diff uy ud)[i]? = some y ∧ y ≠ 0) :
    ∃ k, val (K q) r = .ok (.fin k) ∧ SlopeClose (diff uy ud) (diff sy sd) j k := by
  obtain ⟨k, e, b⟩ := C66_gain q hq r uy ud sy sd hu hd hsy hsd h1 h2 h3 j hj hx
  refine ⟨k, e, slopeClose_of ?_ b hx⟩
  simp [diff, h1, h2, h3]

/-- C90, responsivity: `R` is close to the slope of any line through the origin that the points of the sensitivity curve lie
close to. -/
theorem C90_responsivity (q : LSQ F) (hq : q.Good) (r : Res F) (uy ud : List F)
    (hu : r.temporal.u_y = uy.map .fin) (hd : r.temporal.u_ydark = ud.map .fin)
    (h1 : uy.length = ud.length) (h4 : r.temporal.u_p.length = uy.length)
    (j : ℕ) (hj : val indexSensitivityMax r = .ok j)
    (hx : ∃ i ≤ j, ∃ p, r.temporal.u_p[i]? = some p ∧ p ≠ 0) :
    ∃ m, val (R q) r = .ok (.fin m) ∧ SlopeClose r.temporal.u_p (diff uy ud) j m := by
  obtain ⟨m, e, b⟩ := C66_responsivity q hq r uy ud hu hd h1 h4 j hj hx
  refine ⟨m, e, slopeClose_of ?_ b hx⟩
  simp [diff, h1, h4]

/-- C90, quantum efficiency: if `R` is known up to `α` and `K` up to `β < κ`, `QE` is `100 ρ / κ` up to a bound that goes to
zero with `α` and `β`. -/
theorem C90_efficiency (q : LSQ F) (r : Res F) (k m ρ κ α β : F) (hk : val (K q) r = .ok (.fin k)) (hm : val (R q) r = .ok (.fin m))
    (hα : |m - ρ| ≤ α) (hβ : |k - κ| ≤ β) (hκ : β < κ) :
    ∃ e, val (QE q) r = .ok (.fin e) ∧ |e - 100 * ρ / κ| ≤ 100 * (α + |ρ| / κ * β) / (κ - β) := by
  have hβ0 : 0 ≤ β := (abs_nonneg _).trans hβ
  have hκ0 : 0 < κ := lt_of_le_of_lt hβ0 hκ
  have hkb : κ - β ≤ k := by have := (abs_le.1 hβ).1; linarith
  have hk0 : 0 < k := lt_of_lt_of_le (by linarith) hkb
  refine ⟨100 * m / k, ?_, ?_⟩
  · have e : val (QE q) r = (do
        let m ← val (R q) r
        let k ← val (K q) r
        .ok (.fin 100 * m / k)) := by
      unfold QE
      rw [val_bind (stable_R q) (by intro a; have := stable_K q; stab)]
      congr 1; funext a
      rw [val_bind (stable_K q) (by stab)]
      rfl
    rw [e, hk, hm]
    show Except.ok (Fl.fin 100 * Fl.fin m / Fl.fin k) = _
    rw [show (Fl.fin 100 * Fl.fin m : Fl F) = .fin (100 * m) from rfl, Fl.fin_div hk0.ne']
  · have e : 100 * m / k - 100 * ρ / κ = 100 * ((m - ρ) - ρ / κ * (k - κ)) / k := by
      field_simp; ring
    rw [e, abs_div, abs_of_pos hk0, abs_mul, abs_of_pos (by norm_num : (0 : F) < 100)]
    have a1 : |(m - ρ) - ρ / κ * (k - κ)| ≤ α + |ρ| / κ * β := by
      refine (abs_sub _ _).trans (add_le_add hα ?_)
      rw [abs_mul, abs_div, abs_of_pos hκ0]
      exact mul_le_mul_of_nonneg_left hβ (by positivity)
    have a2 : 0 ≤ α + |ρ| / κ * β := (abs_nonneg _).trans a1
    have hd : 0 < κ - β := by linarith
    calc 100 * |(m - ρ) - ρ / κ * (k - κ)| / k ≤ 100 * (α + |ρ| / κ * β) / k := by gcongr
      _ ≤ _ := by gcongr

/-- Points that lie within a sixtieth of their abscissa from the line of slope 1/10. -/
example : ∃ k, val (K (exactLSQ ℚ)) sampleNoisy = .ok (.fin k) ∧ |k - 1 / 10| ≤ 1 / 60 := by
  obtain ⟨k, e, -, h⟩ := C90_gain (exactLSQ ℚ) exactLSQ_good sampleNoisy [10, 16, 20, 26, 28] [10, 10, 10, 10, 10]
    [1, 1 + 1 / 2, 2, 2 + 1 / 2, 1] [1, 1, 1, 1, 1] rfl rfl rfl rfl rfl rfl rfl 2 (by decide +kernel)
    ⟨1, by norm_num, 6, by norm_num [diff], by norm_num⟩
  refine ⟨k, e, h _ _ fun i hi a b ha hb => ?_⟩
  have hi' : i = 0 ∨ i = 1 ∨ i = 2 := by omega
  rcases hi' with rfl | rfl | rfl <;> norm_num [diff] at ha hb <;> subst ha hb <;> norm_num [abs_le, abs_of_pos]

end Emva
