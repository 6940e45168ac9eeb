import Verif.Py.Img
import Verif.Py.Err

/-!
2-D numpy integer arrays that may be masked (`np.ma.MaskedArray`).
-/
set_option autoImplicit false
namespace Emva

/-- A 2-D integer array; `mask = none` for a plain `np.ndarray`, `mask i j = true` for a masked
element. Used for process/routines.py lines 683-715. -/
structure MImg where
  h : ℕ
  w : ℕ
  px : ℕ → ℕ → ℤ
  mask : Option (ℕ → ℕ → Bool)

namespace MImg

/-- is the element masked. Used for process/routines.py line 685. -/
def masked (a : MImg) (i j : ℕ) : Bool :=
  match a.mask with
  | none => false
  | some m => m i j

/-- a plain array. Used for process/routines.py lines 711-715. -/
def plain (a : Img) : MImg := ⟨a.h, a.w, a.px, none⟩

/-- `np.ravel(img)`: row by row, each element with its mask bit.
Used for process/routines.py line 253. -/
def ravel (a : MImg) : List (ℤ × Bool) :=
  (List.range a.h).flatMap fun i => (List.range a.w).map fun j => (a.px i j, a.masked i j)

/-- `img.filled(0)`. Used for process/routines.py line 708. -/
def filled0 (a : MImg) : ℕ → ℕ → ℤ := fun i j => if a.masked i j then 0 else a.px i j

end MImg
end Emva
