import Verif.Model.Tile
import Verif.Py.FlReal
import Mathlib.Analysis.SpecialFunctions.Exp
import Mathlib.Analysis.SpecialFunctions.Log.Basic
import Mathlib.Analysis.Real.Pi.Bounds

/-!
Model of the quantum efficiency of the camera simulator: `Qe`, `get_bayer_filter` and `poisson`
(src/emva1288/camera/routines.py lines 152-198, 207-269).

Arithmetic is exact over the reals (no underflow of `np.exp`, `np.pi` is π).  Arrays hold floats (multiplying an array of
integers in place by floats would raise).
-/
set_option autoImplicit false
namespace Emva
namespace Qe

/-- a numpy array of any number of dimensions: its shape and its elements by index.
camera/routines.py lines 225, 231. -/
structure Nd where
  shape : List ℕ
  at' : List ℕ → ℝ

/-- numpy's rule, from the last dimension backwards (the lists are reversed): the dimensions of the smaller array are
equal to those of the larger one or one. camera/routines.py line 237. -/
def fits : List ℕ → List ℕ → Bool
  | [], _ => true
  | _ :: _, [] => false
  | b :: bs, a :: as => (b == a || b == 1) && fits bs as

/-- the index of the smaller array that belongs to an index of the larger one (reversed lists).
camera/routines.py line 237. -/
def project : List ℕ → List ℕ → List ℕ
  | [], _ => []
  | _ :: _, [] => []
  | b :: bs, i :: is => (if b = 1 then 0 else i) :: project bs is

/-- `a *= b`: in place, `b` is broadcast to the shape of `a` or a `ValueError` is raised.
camera/routines.py line 237. -/
noncomputable def imul (a b : Nd) : Except PyErr Nd :=
  if fits b.shape.reverse a.shape.reverse then
    .ok ⟨a.shape, fun ix => a.at' ix * b.at' (project b.shape.reverse ix.reverse).reverse⟩
  else .error .valueError

/-- `gauss` in `gen_qe`, routines.py lines 257-265 -/
noncomputable def gauss (w : ℝ) : ℝ :=
  let s : ℝ := 1 / 2
  let u : ℝ := 0
  let x := -1 + w / (800 - 350)
  max (-(1 / 10) + Real.exp (-(x - u) ^ 2 / (2 * s ^ 2)) / Real.sqrt (Real.pi * 2 * s ^ 2)) 0

/-- `gen_qe`, routines.py lines 247-269 -/
noncomputable def genQe (w : List ℝ) (width height : ℕ) : Nd :=
  ⟨[height, width, w.length], fun ix => gauss (w.getD (ix.getD 2 0) 0)⟩

/-- the exception of the shape test, routines.py lines 231-234: `'%s != %s' % shape` is evaluated first and takes the
shape as the tuple of its two arguments -/
def shapeError (shape : List ℕ) : PyErr := if shape.length = 2 then .valueError else .typeError

/-- `Qe(qe, wavelength, width, height, filter)`, routines.py lines 216-237.  The result is the array `self._qe`; if `qe` was
given this is the same array object, so the caller sees its new content (`some`). -/
noncomputable def mkQe (qe : Option Nd) (w : List ℝ) (width height : ℕ) (filter : Option Nd) : Except PyErr (Nd × Option Nd) := do
  let a := qe.getD (genQe w width height)
  if a.shape ≠ [height, width, w.length] then .error (shapeError a.shape)
  else
    let b ← match filter with
      | none => .ok a
      | some f => imul a f
    .ok (b, qe.map fun _ => b)

/-- `astype(int)`: truncation towards zero. camera/routines.py line 208. -/
noncomputable def trunc (x : ℝ) : ℤ := if 0 ≤ x then ⌊x⌋ else ⌈x⌉

/-- one element of `ln`, routines.py lines 209-210 -/
noncomputable def lnPoisson (mu v : ℤ) : ℝ :=
  v * Real.log mu - mu - ((List.range (v.toNat - 1)).map fun i : ℕ => Real.log ((i : ℝ) + 1)).sum

/-- `poisson(x, loc, mu)`, routines.py lines 207-211 -/
noncomputable def poisson (x : List ℝ) (loc : ℤ) (mu : ℤ := 1000) : List ℝ :=
  x.map fun a => Real.exp (lnPoisson mu (trunc a + (mu - loc)))

/-- `t / np.max(t)`; `ValueError` when empty. camera/routines.py lines 195-196. -/
noncomputable def normalise (t : List ℝ) : Except PyErr (List ℝ) :=
  match t with
  | [] => .error .valueError
  | x :: l => .ok (t.map fun v => v / l.foldl max x)

/-- `get_bayer_filter(t00, t01, t10, t11, width, height, w)`, routines.py lines 188-198; the wavelengths are rounded
towards zero -/
noncomputable def bayer (t00 t01 t10 t11 : ℝ) (width height : ℕ) (w : List ℝ) : Except PyErr Nd := do
  let a ← normalise (poisson w (trunc t00))
  let b ← normalise (poisson w (trunc t01))
  let c ← normalise (poisson w (trunc t10))
  let d ← normalise (poisson w (trunc t11))
  let t ← Tile.arrayTile (.three 2 [[a, b], [c, d]]) height width
  .ok ⟨[t.rows.length, t.w, w.length], fun ix => ((t.rows.getD (ix.getD 0 0) []).getD (ix.getD 1 0) []).getD (ix.getD 2 0) 0⟩

end Qe
end Emva
