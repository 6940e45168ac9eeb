import Mathlib.Algebra.Order.Field.Basic
import Mathlib.Algebra.BigOperators.Group.List.Basic

/-!
Specification of the profiles of an image with masked pixels: the image is given by its numbers of lines
across the profile and of positions along it, the values, and which of them are present.
-/
set_option autoImplicit false
namespace Emva
namespace Spec

/-- `n` positions along the profile, `m` values at each of them: `value i j` is value `i` of position `j`,
there if `present i j`. -/
structure Section (F : Type) where
  m : ℕ
  n : ℕ
  value : ℕ → ℕ → F
  present : ℕ → ℕ → Prop

namespace Section
variable {F : Type} [Field F] [LinearOrder F]

/-- some value of position `j` is present -/
def Some (s : Section F) (j : ℕ) : Prop := ∃ i < s.m, s.present i j

/-- `v` is the smallest present value of position `j`. -/
def IsLeast (s : Section F) (j : ℕ) (v : F) : Prop :=
  (∃ i < s.m, s.present i j ∧ s.value i j = v) ∧ ∀ i < s.m, s.present i j → v ≤ s.value i j

/-- `v` is the greatest present value of position `j`. -/
def IsGreatest (s : Section F) (j : ℕ) (v : F) : Prop :=
  (∃ i < s.m, s.present i j ∧ s.value i j = v) ∧ ∀ i < s.m, s.present i j → s.value i j ≤ v

open Classical in
/-- `v` is the mean of the present values of position `j`. -/
def IsMean (s : Section F) (j : ℕ) (v : F) : Prop :=
  ∃ is : List ℕ, is.Nodup ∧ (∀ i, i ∈ is ↔ i < s.m ∧ s.present i j) ∧ is ≠ [] ∧
    v * is.length = (is.map fun i => s.value i j).sum

/-- The profile `(x, y)`: `x` are the positions with `P`, ascending, and `y` has at each of them a value
with `Q`. -/
def Profile (s : Section F) (P : ℕ → Prop) (Q : ℕ → F → Prop) (p : List ℕ × List F) : Prop :=
  p.1.Pairwise (· < ·) ∧ (∀ j, j ∈ p.1 ↔ j < s.n ∧ P j) ∧ p.1.length = p.2.length ∧
  ∀ (k j : ℕ) (v : F), p.1[k]? = some j → p.2[k]? = some v → Q j v

end Section
end Spec
end Emva
