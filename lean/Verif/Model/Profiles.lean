import Verif.Py.MImg
import Verif.Py.Array1

/-!
Model of the profile plots, process/plotting.py lines 598-790: `ProfileBase._get_image_profiles`,
`_get_x_y` and the lines drawn by `plot`.  Pixel values are exact (no rounding).  Axis limits (see AxisLimits), colours and
legends are left out; `_get_extremes` is never called.
-/
set_option autoImplicit false
set_option linter.unusedSectionVars false
namespace Emva
namespace Profiles
variable {F : Type} [Field F] [LinearOrder F]

/-- The mask of an array: `plain` for an `np.ndarray`, `nomask` for a `MaskedArray` whose mask is
`np.ma.nomask`, `mask m` for one with a mask array. process/plotting.py lines 644-645, 660-661. -/
inductive Mask
  | plain
  | nomask
  | mask (m : ℕ → ℕ → Bool)

/-- A 2-D array of floats. process/plotting.py lines 695-696. -/
structure FImg (F : Type) where
  h : ℕ
  w : ℕ
  px : ℕ → ℕ → F
  mask : Mask

/-- is the element masked. process/plotting.py lines 645, 661. -/
def FImg.masked (a : FImg F) (i j : ℕ) : Bool :=
  match a.mask with
  | .mask m => m i j
  | _ => false

/-- `np.transpose(a)`. process/plotting.py line 634. -/
def FImg.transpose (a : FImg F) : FImg F where
  h := a.w
  w := a.h
  px i j := a.px j i
  mask := match a.mask with
    | .mask m => .mask fun i j => m j i
    | k => k

/-- A 1-D array: plain, masked without and with a mask array.
process/plotting.py lines 636-641. -/
inductive Profile (F : Type)
  | plain (v : List F)
  | nomask (v : List F)
  | masked (v : List F) (m : List Bool)

/-- The unmasked values of column `j`. process/plotting.py lines 636-638. -/
def FImg.col (a : FImg F) (j : ℕ) : List F :=
  (List.range a.h).filterMap fun i => if a.masked i j then none else some (a.px i j)

/-- A reduction along axis 0: the reduction of the unmasked values of each column; masked where all of the
column is masked (the value there is irrelevant). process/plotting.py lines 636-638. -/
def reduce (f : List F → F) (a : FImg F) : Profile F :=
  let v := (List.range a.w).map fun j => f (a.col j)
  match a.mask with
  | .plain => .plain v
  | .nomask => .nomask v
  | .mask _ => .masked v ((List.range a.w).map fun j => (a.col j).isEmpty)

/-- mean of the values. process/plotting.py line 636. -/
def meanOf (l : List F) : F := l.sum / l.length

/-- least value (0 for none). process/plotting.py line 637. -/
def minOf : List F → F
  | [] => 0
  | x :: l => l.foldl min x

/-- greatest value (0 for none). process/plotting.py line 638. -/
def maxOf : List F → F
  | [] => 0
  | x :: l => l.foldl max x

/-- `img[k, :]`: `IndexError` outside. process/plotting.py lines 641, 648. -/
def rowAt (a : FImg F) (k : ℕ) : Except PyErr (Profile F) :=
  if k < a.h then
    let v := (List.range a.w).map fun j => a.px k j
    match a.mask with
    | .plain => .ok (.plain v)
    | .nomask => .ok (.nomask v)
    | .mask m => .ok (.masked v ((List.range a.w).map fun j => m k j))
  else .error .indexError

/-- `isinstance(p, MaskedArray) and p.mask.all()`, plotting.py lines 644-645. -/
def Profile.allMasked : Profile F → Bool
  | .masked _ m => m.all id
  | _ => false

/-- `_get_x_y`, plotting.py lines 658-667.  `len` of the mask of an array without mask is a `TypeError`. -/
def getXY : Profile F → Except PyErr (List ℕ × List F)
  | .plain v => .ok (List.range v.length, v)
  | .nomask _ => .error .typeError
  | .masked v m => do
    let index := (List.range m.length).filter fun i => !(m[i]?.getD false)
    let x ← index.mapM fun i : ℕ => Np.idx (List.range v.length) i
    let y ← index.mapM fun i : ℕ => Np.idx v i
    pure (x, y)

/-- The dictionary returned by `_get_image_profiles`: positions and values.
process/plotting.py lines 651-655. -/
structure Set4 (F : Type) where
  mean : List ℕ × List F
  min : List ℕ × List F
  max : List ℕ × List F
  mid : List ℕ × List F
  deriving DecidableEq

/-- The middle row, plotting.py lines 640-648. -/
def midRow (img : FImg F) : Except PyErr (Profile F) := do
  let mid ← rowAt img (img.h / 2)
  if mid.allMasked then rowAt img (img.h / 2 + 1) else pure mid

/-- `_get_image_profiles(image)`, plotting.py lines 623-656.  The minimum along an axis of length 0 is a
`ValueError`. -/
def imageProfiles (vertical : Bool) (image : FImg F) : Except PyErr (Set4 F) := do
  let img := if vertical then image.transpose else image
  let profile := reduce meanOf img
  if img.h = 0 then .error .valueError
  else do
    let profile_min := reduce minOf img
    let profile_max := reduce maxOf img
    let mid ← midRow img
    let a ← getXY profile
    let b ← getXY profile_min
    let c ← getXY profile_max
    let d ← getXY mid
    pure ⟨a, b, c, d⟩

/-- the mask of `(a - b) / L` or of `a / L`: a quotient of masked arrays always has a mask array.
process/plotting.py lines 695-696. -/
def quotMask (a b : MImg) : Mask :=
  match a.mask, b.mask with
  | none, none => .plain
  | _, _ => .mask fun i j => a.masked i j || b.masked i j

/-- `(test.spatial['sum'] - test.spatial['sum_dark']) / L`, plotting.py lines 694-695 (arrays of one shape;
`L` is the number of images, not 0) -/
def brightImg (s d : MImg) (L : ℕ) : FImg F := ⟨s.h, s.w, fun i j => ((s.px i j - d.px i j : ℤ) : F) / L, quotMask s d⟩

/-- `test.spatial['sum_dark'] / L`, plotting.py line 696 -/
def darkImg (d : MImg) (L : ℕ) : FImg F := ⟨d.h, d.w, fun i j => ((d.px i j : ℤ) : F) / L, quotMask d d⟩

/-- A drawn line: the positions of the profile are on the x axis, or on the y axis.
process/plotting.py lines 712-724. -/
inductive Line (F : Type)
  | horizontal (x : List ℕ) (y : List F)
  | vertical (x : List F) (y : List ℕ)
  deriving DecidableEq

/-- `ax.plot(p[x], p[y])` with `x = 0, y = 1`, exchanged for vertical profiles, plotting.py lines 683-688,
712-724. -/
def line (vertical : Bool) (p : List ℕ × List F) : Line F :=
  if vertical then .vertical p.2 p.1 else .horizontal p.1 p.2

/-- The lines of one axis in the order of plotting.py lines 703-706. -/
def lines (vertical : Bool) (p : Set4 F) : List (String × Line F) :=
  [("Mid", line vertical p.mid), ("Min", line vertical p.min), ("Max", line vertical p.max),
    ("Mean", line vertical p.mean)]

/-- `plot(test)`, plotting.py lines 681-724: the lines of the bright and of the dark axis. -/
def plot (vertical : Bool) (s d : MImg) (L : ℕ) : Except PyErr (List (String × Line F) × List (String × Line F)) := do
  let b ← imageProfiles vertical (brightImg s d L : FImg F)
  let k ← imageProfiles vertical (darkImg d L : FImg F)
  pure (lines vertical b, lines vertical k)

end Profiles
end Emva
