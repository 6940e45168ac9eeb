import Verif.Py.Img
import Verif.Py.Err
import Verif.Py.Str

/-!
Specification of the change of units of a dataset: every pixel value `x` becomes `g * x + c`.
-/
set_option autoImplicit false
namespace Emva
namespace Spec
variable {F : Type} [Field F] [LinearOrder F]

/-- `a * x + b` for a finite `x`; NaN and the infinities stay (`a` is positive). -/
def aff (a b : F) : Fl F → Fl F
  | .fin x => .fin (a * x + b)
  | y => y

/-- `a * x` -/
def scale (a : F) (x : Fl F) : Fl F := aff a 0 x

/-- the image with the pixel values `g * x + c` -/
def affImg (g c : ℤ) (a : Img) : Img := ⟨a.h, a.w, fun i j => g * a.px i j + c⟩

/-- the file system in which every readable image has the pixel values `g * x + c` -/
def affFiles (g c : ℤ) (fload : Str → Option (Except PyErr Img)) : Str → Option (Except PyErr Img) :=
  fun f => (fload f).map fun r => r.map (affImg g c)

end Spec
end Emva
