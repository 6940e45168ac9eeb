import Mathlib.Algebra.BigOperators.Intervals
import Mathlib.Algebra.BigOperators.Group.List.Basic
import Mathlib.Algebra.Field.Basic

/-!
Textbook definitions of means and variances, used in the statements of the properties.  They do not
refer to the model.
-/
set_option autoImplicit false
namespace Emva.Spec
open Finset
variable {F : Type*} [Field F]

/-- Arithmetic mean of a list. -/
def mean (l : List F) : F := l.sum / l.length

/-- Unbiased sample variance of a list: `Σ (x - mean)² / (n - 1)`. -/
def sampleVar (l : List F) : F := (l.map fun x => (x - mean l) ^ 2).sum / ((l.length : F) - 1)

/-- Mean over all pixels of an `h × w` array. -/
def imgMean (h w : ℕ) (f : ℕ → ℕ → F) : F := (∑ i ∈ range h, ∑ j ∈ range w, f i j) / (h * w)

/-- Population variance over all pixels of an `h × w` array. -/
def imgPopVar (h w : ℕ) (f : ℕ → ℕ → F) : F :=
  (∑ i ∈ range h, ∑ j ∈ range w, (f i j - imgMean h w f) ^ 2) / (h * w)

/-- Sample variance (`ddof = 1`) over all pixels of an `h × w` array. -/
def imgSampleVar (h w : ℕ) (f : ℕ → ℕ → F) : F :=
  (∑ i ∈ range h, ∑ j ∈ range w, (f i j - imgMean h w f) ^ 2) / (h * w - 1)

end Emva.Spec
