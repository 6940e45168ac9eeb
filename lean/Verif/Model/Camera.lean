import Verif.Py.Array1
import Verif.Py.Img
import Mathlib.Algebra.Order.Floor.Ring
import Mathlib.Algebra.Order.Floor.Defs

/-!
Model of the settings and of the image simulation of `Camera` (src/emva1288/camera/camera.py) and of
`nearest_value` (src/emva1288/camera/routines.py lines 4-20).

The random generator is not modelled: `grab` takes the outcome of its four draws (`Noise`) as an
argument.  Arithmetic is exact.
-/
set_option autoImplicit false
set_option linter.unusedSectionVars false
namespace Emva
namespace Cam
variable {F : Type} [Field F] [LinearOrder F]

/-- `np.abs` of a float. camera/routines.py line 19. -/
def fabs : Fl F → Fl F
  | .fin x => .fin |x|
  | .inf _ => .inf false
  | .nan => .nan

/-- the scan of `argmin`: `best` is the smallest value so far, at index `bi`; `i` is the next index.
camera/routines.py line 19. -/
def argminFrom (best : Fl F) (bi i : ℕ) : List (Fl F) → ℕ
  | [] => bi
  | x :: l =>
    if x.isNan then i
    else if Fl.lt x best then argminFrom x i (i + 1) l
    else argminFrom best bi (i + 1) l

/-- `a.argmin()`: the first smallest element, or the first NaN; `ValueError` when empty.
camera/routines.py line 19. -/
def argmin : List (Fl F) → Except PyErr ℕ
  | [] => .error .valueError
  | x :: l => if x.isNan then .ok 0 else .ok (argminFrom x 0 1 l)

/-- `nearest_value(value, array)`, camera/routines.py lines 4-20. -/
def nearestValue (value : Fl F) (array : List F) : Except PyErr F := do
  let i ← argmin (array.map fun a => fabs (Fl.fin a - value))
  Np.idx array i

/-- `np.linspace(a, b, num=n)` for `n ≥ 0`. camera/camera.py lines 146, 153. -/
def linspace (a b : F) (n : ℕ) : List F :=
  (List.range n).map fun i : ℕ => if i + 1 = n ∧ n ≠ 1 then b else a + i * ((b - a) / ((n : F) - 1))

/-- The state of a camera that can change or that `grab` uses, camera.py lines 118-166.  `dsnu` is an
image in electrons. -/
structure Camera (F : Type) where
  bitDepth : ℕ
  width : ℕ
  height : ℕ
  Ks : List F
  K : F
  blackoffsets : List F
  blackoffset : F
  uEsat : F
  exposure : F
  dsnu : ℕ → ℕ → F

/-- `self._img_max`, camera.py line 116 -/
def imgMax (bitDepth : ℕ) : ℤ := 2 ^ bitDepth - 1

/-- the number of bits of `self._img_type`, camera.py lines 118-123 -/
def typeBits (bitDepth : ℕ) : ℕ := if bitDepth ≤ 8 then 8 else if bitDepth ≤ 16 then 16 else 64

/-- `cam.K = value`, camera.py lines 227-229 -/
def Camera.setK (c : Camera F) (value : Fl F) : Except PyErr (Camera F) := do
  let k ← nearestValue value c.Ks
  .ok { c with K := k }

/-- `cam.blackoffset = value`, camera.py lines 249-252 -/
def Camera.setBlackoffset (c : Camera F) (value : Fl F) : Except PyErr (Camera F) := do
  let k ← nearestValue value c.blackoffsets
  .ok { c with blackoffset := k }

/-- `cam.exposure = value`, camera.py lines 200-202 -/
def Camera.setExposure (c : Camera F) (value : F) : Camera F := { c with exposure := value }

/-- The keyword arguments of the constructor that concern the settings, camera.py lines 8-43.
`blackoffsetMax` is `none` for `None`; the step counts are not negative. -/
structure Args (F : Type) where
  bitDepth : ℕ
  width : ℕ
  height : ℕ
  exposure : F
  K : F
  KMin : F
  KMax : F
  KSteps : ℕ
  blackoffset : F
  blackoffsetMin : F
  blackoffsetMax : Option F
  blackoffsetSteps : ℕ
  uEsat : F
  dsnu : Option (ℕ → ℕ → F)

/-- the default of `blackoffset_max`, camera.py lines 150-152 (`if not blackoffset_max`) -/
def defaultMax (bitDepth : ℕ) : Option F → F
  | none => ((imgMax bitDepth / 16 : ℤ) : F)
  | some x => if x = 0 then ((imgMax bitDepth / 16 : ℤ) : F) else x

/-- `Camera(...)`, camera.py lines 114-166 (without the optics, see Model/Radiance) -/
def mkCamera (a : Args F) : Except PyErr (Camera F) := do
  let Ks := linspace a.KMin a.KMax a.KSteps
  let k ← nearestValue (.fin a.K) Ks
  let bos := linspace a.blackoffsetMin (defaultMax a.bitDepth a.blackoffsetMax) a.blackoffsetSteps
  let b ← nearestValue (.fin a.blackoffset) bos
  .ok { bitDepth := a.bitDepth, width := a.width, height := a.height, Ks := Ks, K := k
        blackoffsets := bos, blackoffset := b, uEsat := a.uEsat, exposure := a.exposure
        dsnu := a.dsnu.getD fun _ _ => 0 }

/-- The outcomes of the four draws of `grab`: thermal and light electrons (Poisson), electrons of the
electronics (normal), quantisation noise (uniform). camera/camera.py lines 305, 311, 315, 328. -/
structure Noise (F : Type) where
  therm : ℕ → ℕ → ℕ
  light : ℕ → ℕ → ℕ
  dark : ℕ → ℕ → F
  quant : ℕ → ℕ → F

/-- `np.clip(x, lo, hi)`. camera/camera.py lines 322, 335. -/
def clip {α : Type} [LinearOrder α] (x lo hi : α) : α := min (max x lo) hi

section
variable [FloorRing F]

/-- `np.rint`: nearest integer, ties to even. camera/camera.py line 334. -/
def rint (x : F) : ℤ :=
  let f := ⌊x⌋
  if x - f < 1 / 2 then f
  else if 1 / 2 < x - f then f + 1
  else if f % 2 = 0 then f else f + 1

/-- the number of electrons of a pixel, camera.py lines 304-320 -/
def electrons (c : Camera F) (n : Noise F) (i j : ℕ) : F :=
  clip ((n.therm i j : F) + (n.light i j : F) + (c.dsnu i j + n.dark i j)) 0 c.uEsat

/-- the grey value of a pixel before the conversion to the image type, camera.py lines 322-335 -/
def greyValue (c : Camera F) (n : Noise F) (i j : ℕ) : ℤ :=
  clip (rint (c.K * electrons c n i j + n.quant i j + c.blackoffset)) 0 (imgMax c.bitDepth)

/-- the image `grab` returns, camera.py lines 318-336, for given outcomes of the draws: `astype` keeps the
low bits. (`grab` itself, which first computes the means of the draws, is in Model/Radiance.) -/
def grabImg (c : Camera F) (n : Noise F) : Img where
  h := c.height
  w := c.width
  px := fun i j => greyValue c n i j % 2 ^ typeBits c.bitDepth

end
end Cam
end Emva
