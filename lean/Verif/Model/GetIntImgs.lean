import Verif.Py.Img

/-!
Model of `routines.get_int_imgs` (src/emva1288/process/routines.py lines 32-69).

The model takes a function `wr : ℤ → ℤ` applied to the result of every int64 operation:
`wr = i64` is the real machine arithmetic (wrap-around modulo 2^64), `wr = id` the ideal integers.
-/
set_option autoImplicit false
namespace Emva
open Finset

/-- int64 wrap-around: numpy int64 arithmetic silently wraps modulo 2^64 into
`[-2^63, 2^63)`. process/routines.py lines 58-67. -/
def i64 (x : ℤ) : ℤ := x.bmod (2 ^ 64)

/-- The local variables of the loop `for n, img in enumerate(imgs)`
(routines.py lines 53-63): `sum_`, `sq_`, `dmean_`, and `oi` (`none` before the first iteration,
which is the test `n > 0`). -/
structure IntAcc (F : Type*) where
  sum : ℕ → ℕ → ℤ
  sq : ℕ → ℕ → ℤ
  dmean : Fl F
  oi : Option Img

/-- The dictionary returned by `get_int_imgs` (routines.py line 69). -/
structure IntImgs (F : Type*) where
  L : ℕ
  h : ℕ
  w : ℕ
  sum : ℕ → ℕ → ℤ
  pvar : ℕ → ℕ → ℤ
  dmean : Fl F

variable {F : Type*} [Field F] [LinearOrder F]

/-- The loop body, routines.py lines 57-63. -/
def intStep (wr : ℤ → ℤ) (s : IntAcc F) (img : Img) : IntAcc F :=
  -- i = img.astype(np.int64)
  let i : Img := { img with px := fun r c => wr (img.px r c) }
  { sum := fun r c => wr (s.sum r c + i.px r c)
    sq := fun r c => wr (s.sq r c + wr (i.px r c * i.px r c))
    dmean := match s.oi with
      | none => s.dmean
      | some oi => s.dmean + (i.mean F - oi.mean F)
    oi := some i }

/-- Initial values of the loop variables, routines.py lines 53-55. -/
def intInit : IntAcc F := { sum := fun _ _ => 0, sq := fun _ _ => 0, dmean := .fin 0, oi := none }

/-- `get_int_imgs(imgs)`, routines.py lines 32-69.
Simplification: all images are taken to have the shape of the first one (the loader rejects mixed
shapes before calling, loader.py line 148); for an empty list python returns the integer `0` for
`sum` and `pvar`, represented here by a 0 x 0 image. -/
def getIntImgs (F : Type*) [Field F] [LinearOrder F] (wr : ℤ → ℤ) (imgs : List Img) :
    IntImgs F :=
  let L := imgs.length
  let s : IntAcc F := imgs.foldl (intStep wr) intInit
  { L := L
    h := (imgs.head?.map Img.h).getD 0
    w := (imgs.head?.map Img.w).getD 0
    sum := s.sum
    -- var_ = L * (L * sq_ - np.square(sum_))
    pvar := fun r c => wr (L * wr (wr (L * s.sq r c) - wr (s.sum r c * s.sum r c)))
    dmean := s.dmean }

/-- The reduced data of a temporal series (loader.py lines 120-124). -/
structure TemporalEntry (F : Type*) where
  sum : ℤ
  pvar : ℤ
  dmean : Fl F

/-- `np.sum` of an int64 image: exact sum wrapped once (wrapping at every addition gives the same
value modulo 2^64). process/loader.py lines 121-122. -/
def sumImg (wr : ℤ → ℤ) (h w : ℕ) (f : ℕ → ℕ → ℤ) : ℤ :=
  wr (∑ i ∈ range h, ∑ j ∈ range w, f i j)

/-- `LoadImageData._get_imgs_data(fnames, 'temporal')` after the images have been loaded,
loader.py lines 114 and 120-124. -/
def temporalEntry (F : Type*) [Field F] [LinearOrder F] (wr : ℤ → ℤ) (imgs : List Img) :
    TemporalEntry F :=
  let d := getIntImgs F wr imgs
  { sum := sumImg wr d.h d.w d.sum
    pvar := sumImg wr d.h d.w d.pvar
    dmean := d.dmean }

end Emva
