import Verif.Model.Results
import Verif.Spec.Results

/-!
Specification for C99: recorded data that differ by little, and results that then differ by little.
-/
set_option autoImplicit false
namespace Emva
namespace Spec
open Results Data

/-- two finite numbers at most `δ` apart -/
def Within (δ : ℝ) (a b : Fl ℝ) : Prop := ∃ x y : ℝ, a = .fin x ∧ b = .fin y ∧ |y - x| ≤ δ

/-- the numbers of one spatial measurement, at most `δ` apart, of images of the same size and count -/
structure NearbySide (δ : ℝ) (s s' : SpatialData ℝ) : Prop where
  size : s'.L = s.L ∧ s'.M = s.M ∧ s'.N = s.N
  var_mean : Within δ s.var_mean s'.var_mean
  avg_var : Within δ s.avg_var s'.avg_var
  avg_mean : Within δ s.avg_mean s'.avg_mean
  avg_var_cav : Within δ s.avg_var_cav s'.avg_var_cav
  avg_var_rav : Within δ s.avg_var_rav s'.avg_var_rav

/-- Two evaluations with the same settings (exposure times, pixel area, saturation index) whose measured numbers are finite
and at most `δ` apart. -/
structure Nearby (δ : ℝ) (r r' : Res ℝ) : Prop where
  texp : r'.temporal.texp = r.temporal.texp
  area : r'.pixel_area = r.pixel_area
  index : r'.index_u_ysat = r.index_u_ysat
  u_p : List.Forall₂ (fun a b => |b - a| ≤ δ) r.temporal.u_p r'.temporal.u_p
  u_y : List.Forall₂ (Within δ) r.temporal.u_y r'.temporal.u_y
  u_ydark : List.Forall₂ (Within δ) r.temporal.u_ydark r'.temporal.u_ydark
  s2_y : List.Forall₂ (Within δ) r.temporal.s2_y r'.temporal.s2_y
  s2_ydark : List.Forall₂ (Within δ) r.temporal.s2_ydark r'.temporal.s2_ydark
  dark : NearbySide δ r.spatial.dark r'.spatial.dark
  bright : NearbySide δ r.spatial.bright r'.spatial.bright

/-- The result is a finite number, and a small enough change `δ` of the data leaves it a finite number and moves it by at
most a constant times `δ`. -/
def Steady (f : Res ℝ → Except PyErr (Fl ℝ)) (r : Res ℝ) : Prop :=
  ∃ x C δ₀ : ℝ, 0 < δ₀ ∧ f r = .ok (.fin x) ∧ ∀ δ r', 0 ≤ δ → δ ≤ δ₀ → Nearby δ r r' →
    ∃ x', f r' = .ok (.fin x') ∧ |x' - x| ≤ C * δ

/-- A small enough change of the data does not change the result at all. -/
def Fixed {α : Type} (f : Res ℝ → Except PyErr α) (r : Res ℝ) : Prop :=
  ∃ a, ∃ δ₀ : ℝ, 0 < δ₀ ∧ f r = .ok a ∧ ∀ δ r', 0 ≤ δ → δ ≤ δ₀ → Nearby δ r r' → f r' = .ok a

/-- The saturation index is given, or no two of the variances are equal and none is zero. -/
def Distinct (r : Res ℝ) (sy : List ℝ) : Prop := (∃ i, r.index_u_ysat = some i ∧ i ≠ 0) ∨ sy.Nodup ∧ (0 : ℝ) ∉ sy

/-- No signal lies exactly on the limit `c` times the saturation signal. -/
def Off (uy ud : List ℝ) (c ys : ℝ) : Prop := ∀ y ∈ diff uy ud, y ≠ c * ys

/-- A number that is close to a finite one, for attributes that may also return `None` or `np.nan`. -/
def SteadyNum (f : Res ℝ → Except PyErr (PyNum ℝ)) (r : Res ℝ) : Prop :=
  ∃ x C δ₀ : ℝ, 0 < δ₀ ∧ f r = .ok (.num (.fin x)) ∧ ∀ δ r', 0 ≤ δ → δ ≤ δ₀ → Nearby δ r r' →
    ∃ x', f r' = .ok (.num (.fin x')) ∧ |x' - x| ≤ C * δ

end Spec
end Emva
