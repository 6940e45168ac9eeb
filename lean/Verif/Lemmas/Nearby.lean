import Verif.Spec.Nearby
import Verif.Lemmas.AffineResults
import Verif.Props.C77
import Verif.Props.C90
import Mathlib.Analysis.Asymptotics.Lemmas
import Mathlib.Analysis.Calculus.Deriv.Inv
import Mathlib.Analysis.SpecialFunctions.Sqrt
import Mathlib.Analysis.SpecialFunctions.Log.Deriv

/-!
Lemmas for C99: a filter of nearby evaluations and numbers that change at most in proportion.
-/
set_option autoImplicit false
namespace Emva
namespace Nearby
open Results Data Spec Filter Topology Asymptotics

/-- evaluations close to `r`, with the size of the change -/
def vic (r : Res ℝ) : Filter (ℝ × Res ℝ) :=
  comap Prod.fst (𝓝 0) ⊓ 𝓟 {p | 0 ≤ p.1 ∧ Spec.Nearby p.1 r p.2}

variable {r : Res ℝ}

theorem vic_near : ∀ᶠ p in vic r, 0 ≤ p.1 ∧ Spec.Nearby p.1 r p.2 :=
  mem_inf_of_right (mem_principal_self _)

theorem vic_fst : Tendsto Prod.fst (vic r) (𝓝 0) := tendsto_comap.mono_left inf_le_left

theorem vic_elim {P : ℝ × Res ℝ → Prop} (h : ∀ᶠ p in vic r, P p) :
    ∃ δ₀ : ℝ, 0 < δ₀ ∧ ∀ δ r', 0 ≤ δ → δ ≤ δ₀ → Spec.Nearby δ r r' → P (δ, r') := by
  have h1 := mem_inf_principal.1 h
  obtain ⟨t, ht, hs⟩ := mem_comap.1 h1
  obtain ⟨ε, hε, hb⟩ := Metric.mem_nhds_iff.1 ht
  refine ⟨ε / 2, by positivity, fun δ r' h0 hd hn => ?_⟩
  have : (δ, r') ∈ Prod.fst ⁻¹' t := hb (by
    rw [Metric.mem_ball, Real.dist_eq, sub_zero, abs_of_nonneg h0]; linarith)
  exact hs this ⟨h0, hn⟩

/-- `y` stays within a constant times the change of `x` -/
def Ty (r : Res ℝ) (y : ℝ × Res ℝ → ℝ) (x : ℝ) : Prop := (fun p => y p - x) =O[vic r] (Prod.fst : ℝ × Res ℝ → ℝ)

namespace Ty
variable {y z : ℝ × Res ℝ → ℝ} {x w : ℝ}

theorem tendsto (h : Ty r y x) : Tendsto y (vic r) (𝓝 x) := by
  have := (IsBigO.trans_tendsto h vic_fst).add_const x
  simpa using this

theorem of_le (h : ∀ᶠ p in vic r, |y p - x| ≤ p.1) : Ty r y x :=
  IsBigO.of_bound 1 <| h.mono fun p hp => by
    rw [one_mul, Real.norm_eq_abs, Real.norm_eq_abs]; exact hp.trans (le_abs_self _)

theorem const (c : ℝ) : Ty r (fun _ => c) c := by
  unfold Ty; simpa using isBigO_zero _ _

theorem add (h : Ty r y x) (k : Ty r z w) : Ty r (fun p => y p + z p) (x + w) :=
  (IsBigO.add h k).congr_left fun p => by ring

theorem sub (h : Ty r y x) (k : Ty r z w) : Ty r (fun p => y p - z p) (x - w) :=
  (IsBigO.sub h k).congr_left fun p => by ring

theorem mul (h : Ty r y x) (k : Ty r z w) : Ty r (fun p => y p * z p) (x * w) := by
  have h1 : (fun p => (y p - x) * z p) =O[vic r] fun p => p.1 * (1 : ℝ) :=
    IsBigO.mul h (k.tendsto.isBigO_one ℝ)
  have h2 : (fun p => x * (z p - w)) =O[vic r] (Prod.fst : ℝ × Res ℝ → ℝ) := IsBigO.const_mul_left k x
  have h1' : (fun p => (y p - x) * z p) =O[vic r] (Prod.fst : ℝ × Res ℝ → ℝ) := h1.congr_right fun p => mul_one _
  exact (h1'.add h2).congr_left fun p => by ring

theorem comp {φ : ℝ → ℝ} {φ' : ℝ} (hφ : HasDerivAt φ φ' x) (h : Ty r y x) : Ty r (fun p => φ (y p)) (φ x) :=
  (hφ.isBigO_sub.comp_tendsto h.tendsto).trans h

theorem inv (h : Ty r y x) (hx : x ≠ 0) : Ty r (fun p => (y p)⁻¹) x⁻¹ := comp (hasDerivAt_inv hx) h

theorem div (h : Ty r y x) (k : Ty r z w) (hw : w ≠ 0) : Ty r (fun p => y p / z p) (x / w) := by
  simpa only [div_eq_mul_inv] using h.mul (k.inv hw)

theorem sqrt (h : Ty r y x) (hx : x ≠ 0) : Ty r (fun p => Real.sqrt (y p)) (Real.sqrt x) :=
  comp (Real.hasDerivAt_sqrt hx) h

theorem logb (b : ℝ) (h : Ty r y x) (hx : x ≠ 0) : Ty r (fun p => Real.logb b (y p)) (Real.logb b x) := by
  unfold Real.logb
  simpa only [div_eq_mul_inv] using (comp (Real.hasDerivAt_log hx) h).mul (const _)

theorem max_const (c : ℝ) (h : Ty r y x) : Ty r (fun p => max (y p) c) (max x c) :=
  (IsBigO.of_bound 1 <| Eventually.of_forall fun p => by
    rw [one_mul, Real.norm_eq_abs, Real.norm_eq_abs]; exact abs_max_sub_max_le_abs _ _ _).trans h

theorem listSum {ι : Type} (l : List ι) {f : ι → ℝ × Res ℝ → ℝ} {g : ι → ℝ} (h : ∀ i ∈ l, Ty r (f i) (g i)) :
    Ty r (fun p => (l.map fun i => f i p).sum) (l.map g).sum := by
  induction l with
  | nil => simpa using const 0
  | cons a l ih =>
    simp only [List.map_cons, List.sum_cons]
    exact (h a (by simp)).add (ih fun i hi => h i (by simp [hi]))

theorem le_agree (h : Ty r y x) (k : Ty r z w) (hne : x ≠ w) : ∀ᶠ p in vic r, (y p ≤ z p ↔ x ≤ w) := by
  rcases lt_or_gt_of_ne hne with hlt | hlt
  · filter_upwards [h.tendsto.eventually_lt k.tendsto hlt] with p hp
    exact ⟨fun _ => hlt.le, fun _ => hp.le⟩
  · filter_upwards [k.tendsto.eventually_lt h.tendsto hlt] with p hp
    exact ⟨fun a => absurd a (not_le.2 hp), fun a => absurd a (not_le.2 hlt)⟩

end Ty

/-- a result near `x` for the evaluations near `r` -/
def LipM (r : Res ℝ) (f : Res ℝ → Except PyErr (Fl ℝ)) (x : ℝ) : Prop :=
  ∃ y, (∀ᶠ p in vic r, f p.2 = .ok (.fin (y p))) ∧ Ty r y x

theorem within_self {δ : ℝ} {l l' : List (Fl ℝ)} (h : List.Forall₂ (Within δ) l l') (δ' : ℝ) (h0 : 0 ≤ δ') :
    List.Forall₂ (Within δ') l l := by
  induction h with
  | nil => exact .nil
  | cons hab _ ih =>
    obtain ⟨x, y, rfl, -, -⟩ := hab
    exact .cons ⟨x, x, rfl, rfl, by simpa using h0⟩ ih

theorem Within.refl_of {δ : ℝ} {a b : Fl ℝ} (h : Within δ a b) (δ' : ℝ) (h0 : 0 ≤ δ') : Within δ' a a := by
  obtain ⟨x, y, rfl, -, -⟩ := h
  exact ⟨x, x, rfl, rfl, by simpa using h0⟩

/-- the data are finite -/
def FiniteData (r : Res ℝ) : Prop := Spec.Nearby 0 r r

theorem LipM.steady {f : Res ℝ → Except PyErr (Fl ℝ)} {x : ℝ} (hr : FiniteData r) (h : LipM r f x) :
    Steady f r := by
  obtain ⟨y, h1, h2⟩ := h
  obtain ⟨C, hC⟩ := IsBigO.bound h2
  obtain ⟨δ₀, h0, H⟩ := vic_elim (h1.and hC)
  have hx : f r = .ok (.fin x) := by
    obtain ⟨a, b⟩ := H 0 r le_rfl h0.le hr
    have : y (0, r) - x = 0 := by simpa using b
    rw [a, sub_eq_zero.1 this]
  refine ⟨x, C, δ₀, h0, hx, fun δ r' hd hd' hn => ?_⟩
  obtain ⟨a, b⟩ := H δ r' hd hd' hn
  refine ⟨_, a, ?_⟩
  simpa [Real.norm_eq_abs, abs_of_nonneg hd] using b

theorem LipM.value {f : Res ℝ → Except PyErr (Fl ℝ)} {x : ℝ} (hr : FiniteData r) (h : LipM r f x) :
    f r = .ok (.fin x) := by
  obtain ⟨y, h1, h2⟩ := h
  obtain ⟨C, hC⟩ := IsBigO.bound h2
  obtain ⟨δ₀, h0, H⟩ := vic_elim (h1.and hC)
  obtain ⟨a, b⟩ := H 0 r le_rfl h0.le hr
  have : y (0, r) - x = 0 := by simpa using b
  rw [a, sub_eq_zero.1 this]

theorem fixed_of {α : Type} {f : Res ℝ → Except PyErr α} {a : α} (hr : FiniteData r)
    (h : ∀ᶠ p in vic r, f p.2 = .ok a) : Fixed f r := by
  obtain ⟨δ₀, h0, H⟩ := vic_elim h
  exact ⟨a, δ₀, h0, H 0 r le_rfl h0.le hr, H⟩

/-! ### the entries of the data -/

/-- the number at a position -/
def entry (l : List (Fl ℝ)) (i : ℕ) : ℝ :=
  match l[i]? with
  | some (.fin x) => x
  | _ => 0

theorem entry_near {δ : ℝ} (h0 : 0 ≤ δ) {l l' : List (Fl ℝ)} (h : List.Forall₂ (Within δ) l l') (i : ℕ) :
    |entry l' i - entry l i| ≤ δ := by
  induction h generalizing i with
  | nil => simpa [entry] using h0
  | cons hab _ ih =>
    cases i with
    | zero =>
      obtain ⟨x, y, rfl, rfl, hd⟩ := hab
      simpa [entry] using hd
    | succ i => simpa [entry] using ih i

theorem entry_list {δ : ℝ} {l l' : List (Fl ℝ)} (h : List.Forall₂ (Within δ) l l') :
    l' = ((List.range l.length).map (entry l')).map .fin := by
  induction h with
  | nil => rfl
  | cons hab _ ih =>
    obtain ⟨x, y, rfl, rfl, -⟩ := hab
    rw [List.length_cons, List.range_succ_eq_map, List.map_cons, List.map_cons, List.map_map]
    refine congrArg₂ _ rfl ?_
    conv_lhs => rw [ih]
    rw [List.map_map, List.map_map]
    rfl

theorem getD_near {δ : ℝ} (h0 : 0 ≤ δ) {l l' : List ℝ} (h : List.Forall₂ (fun a b => |b - a| ≤ δ) l l') (i : ℕ) :
    |l'.getD i 0 - l.getD i 0| ≤ δ := by
  induction h generalizing i with
  | nil => simpa using h0
  | cons hab _ ih =>
    cases i with
    | zero => simpa using hab
    | succ i => simpa using ih i

theorem getD_list (l : List ℝ) {n : ℕ} (h : l.length = n) : l = (List.range n).map fun i => l.getD i 0 := by
  subst h
  refine List.ext_getElem (by simp) fun i h1 h2 => ?_
  simp [h1]

theorem diff_range (n : ℕ) (f g : ℕ → ℝ) : diff ((List.range n).map f) ((List.range n).map g) =
    (List.range n).map fun i => f i - g i := by
  refine List.ext_getElem (by simp [diff]) fun i h1 h2 => ?_
  simp [diff]

theorem zip_range {n j : ℕ} (hj : j < n) (f g : ℕ → ℝ) :
    (((List.range n).map f).zip ((List.range n).map g)).take (j + 1) = (List.range (j + 1)).map fun i => (f i, g i) := by
  refine List.ext_getElem (by simp; omega) fun i h1 h2 => ?_
  simp

end Nearby
end Emva
