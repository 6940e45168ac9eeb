import Verif.Py.Fl
import Mathlib.Algebra.BigOperators.Group.Finset.Basic
import Mathlib.Algebra.BigOperators.Ring.Finset
import Mathlib.Algebra.BigOperators.Intervals
import Mathlib.Algebra.Order.BigOperators.Group.Finset

/-!
2-D numpy arrays of integers: a shape and a pixel function, of which only indices `i < h`, `j < w`
are meaningful.
-/
set_option autoImplicit false
namespace Emva
open Finset

/-- A 2-D integer image, `h` rows and `w` columns. Used for process/routines.py lines 51-69. -/
structure Img where
  h : ℕ
  w : ℕ
  px : ℕ → ℕ → ℤ

namespace Img

/-- `np.sum(img)` in exact integers. Used for process/loader.py lines 121-122. -/
def total (a : Img) : ℤ := ∑ i ∈ range a.h, ∑ j ∈ range a.w, a.px i j

/-- `img.size`. Used for process/data.py line 50. -/
def size (a : Img) : ℕ := a.h * a.w

/-- `np.mean(img)` of an integer image (numpy accumulates in float64, i.e. here exactly).
Used for process/routines.py line 62. -/
def mean (F : Type*) [Field F] [LinearOrder F] (a : Img) : Fl F :=
  Fl.fin (a.total : F) / Fl.fin (a.size : F)

/-- `img.shape`. Used for process/loader.py line 147. -/
def shape (a : Img) : ℕ × ℕ := (a.h, a.w)

end Img
end Emva
