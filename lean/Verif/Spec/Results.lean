import Mathlib.Algebra.Order.Field.Basic

/-!
Specification notions for the results: points of a curve.
-/
set_option autoImplicit false
namespace Emva
namespace Spec
variable {F : Type} [LinearOrder F]

/-- `k` is a position of the curve strictly above both of its two predecessors. -/
def AboveTwo (s : List F) (k : ℕ) : Prop :=
  2 ≤ k ∧ ∃ a b c, s[k]? = some a ∧ s[k - 1]? = some b ∧ s[k - 2]? = some c ∧ b < a ∧ c < a

/-- The curve rises strictly up to position `p` and does not rise afterwards. -/
def SinglePeak (s : List F) (p : ℕ) : Prop :=
  p < s.length ∧
  (∀ i a b, i < p → s[i]? = some a → s[i + 1]? = some b → a < b) ∧
  (∀ i a b, p ≤ i → s[i]? = some a → s[i + 1]? = some b → b ≤ a)

/-- `k` is the last position where `P` holds. -/
def LastWhere {α : Type} (P : α → Prop) (l : List α) (k : ℕ) : Prop :=
  (∃ x, l[k]? = some x ∧ P x) ∧ ∀ j x, k < j → l[j]? = some x → ¬ P x

/-- `k` is the first position where `P` holds. -/
def FirstWhere {α : Type} (P : α → Prop) (l : List α) (k : ℕ) : Prop :=
  (∃ x, l[k]? = some x ∧ P x) ∧ ∀ j x, j < k → l[j]? = some x → ¬ P x

/-- `l[k]` in python is `x`: negative positions count from the end. -/
def AtIndex {α : Type} (l : List α) (k : ℤ) (x : α) : Prop :=
  (0 ≤ k ∧ l[k.toNat]? = some x) ∨ (k < 0 ∧ 0 ≤ k + l.length ∧ l[(k + l.length).toNat]? = some x)

/-- The position `k` exists in `l`. -/
def HasIndex {α : Type} (l : List α) (k : ℤ) : Prop := -(l.length : ℤ) ≤ k ∧ k < l.length

/-- element-wise difference of two curves -/
def diff [Sub F] (a b : List F) : List F := List.zipWith (· - ·) a b

end Spec
end Emva
