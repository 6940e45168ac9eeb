import Verif.Model.Data
import Verif.Model.Attrs

/-!
Model of `Emva1288` (src/emva1288/process/__init__.py lines 16-21): the chain of the parser, the loader,
`Data1288` and `Results1288`.
-/
set_option autoImplicit false
set_option linter.unusedSectionVars false
namespace Emva
namespace Pipeline
open Parser Loader
variable {F : Type} [Field F] [LinearOrder F]

/-- `LoadImageData(images, path)`, `Data1288(imgs.data, pixels)`,
`Results1288(dat.data, pixel_area, index_u_ysat)`, process/__init__.py lines 19-21 with the optional
arguments of the three classes. -/
def evaluate (wr : ℤ → ℤ) (fload : Str → Option (Except PyErr Img)) (path : Str) (ord : List F → List F)
    (images : Kind → Images F) (pixels : Option ℕ) (pixel_area : Option F) (index_u_ysat : Option ℤ) :
    Except PyErr (Results.Res F) := do
  let imgs ← load wr fload path 0 ord images
  let dat ← Data.make imgs pixels
  pure (Results.make dat pixel_area index_u_ysat)

/-- `Emva1288(fname)`, process/__init__.py lines 17-21, for a readable file of content `text`; `pf` and `pi`
are `float` and `int`. -/
def emva1288 (wr : ℤ → ℤ) (pf : Str → Option F) (pi : Str → Option ℤ)
    (fload : Str → Option (Except PyErr Img)) (ord : List F → List F) (fname text : Str) :
    Except PyErr (Results.Res F) := do
  let parser ← parse pf pi 0 fname none text
  evaluate wr fload [] ord parser.images none none none

end Pipeline
end Emva
