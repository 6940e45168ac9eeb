import Verif.Py.Err
import Mathlib.Data.Nat.Notation

/-!
Model of `get_tile` and `array_tile` (src/emva1288/camera/routines.py lines 97-149, 201-204).

Heights and widths are not negative.  A two-dimensional array is the list of its rows together with the
number of columns (needed when there is no row).
-/
set_option autoImplicit false
namespace Emva
namespace Tile
variable {α : Type}

/-- A numpy array with one or two dimensions; `other` is any array with none or more than two.
camera/routines.py lines 97, 126, 133. -/
inductive Arr (α : Type) where
  | one (a : List α)
  | two (w : ℕ) (rows : List (List α))
  | other

/-- `np.tile(rows, (hr, wr))` of a two-dimensional array. camera/routines.py line 143. -/
def tile (rows : List (List α)) (hr wr : ℕ) : List (List α) :=
  (List.replicate hr (rows.map fun r => (List.replicate wr r).flatten)).flatten

/-- `tile[:height, :width]` and the one-row case, routines.py lines 143-149 -/
def cut (rows : List (List α)) (w height width : ℕ) : Except PyErr (Arr α) :=
  let t := (rows.take height).map fun r => r.take width
  if height = 1 then
    match t with
    | [] => .error .indexError
    | r :: _ => .ok (.one r)
  else .ok (.two (min w width) t)

/-- `get_tile(arr, height, width)`, routines.py lines 97-149.  A one-dimensional array is tiled as one row
(`np.tile` adds the axis); `floor(a / b)` of numbers of this size is the integer quotient. -/
def getTile (arr : Arr α) (height width : ℕ) : Except PyErr (Arr α) :=
  match arr with
  | .one a =>
    if a.length = 0 then .error .zeroDivisionError
    else
      let wr := width / a.length + 1
      cut (tile [a] height wr) (wr * a.length) height width
  | .two w rows =>
    if rows.length = 0 then .error .zeroDivisionError
    else if w = 0 then .error .zeroDivisionError
    else
      let wr := width / w + 1
      cut (tile rows (height / rows.length + 1) wr) (wr * w) height width
  | .other => .error .unboundLocalError

/-- The patterns `array_tile` accepts: the last dimension (wavelengths) is the element type `α`, `d` is its
length.  So `one` is a 1-D array, `two` a 2-D array of `a.length` rows, `three` a 3-D array.
camera/routines.py lines 202-203. -/
inductive Pat (α : Type) where
  | one (x : α)
  | two (a : List α) (d : ℕ)
  | three (w : ℕ) (rows : List (List α))

/-- the result of `array_tile`: always three-dimensional, `w` columns.
camera/routines.py line 204. -/
structure Rect (α : Type) where
  w : ℕ
  rows : List (List α)

/-- `array_tile(array, height, width)`, routines.py lines 201-204 -/
def arrayTile (p : Pat α) (height width : ℕ) : Except PyErr (Rect α) :=
  match p with
  | .one x => .ok ⟨width, tile [[x]] height width⟩
  | .two a d =>
    if d = 0 then .error .zeroDivisionError
    else .ok ⟨width / d * a.length, tile [a] height (width / d)⟩
  | .three w rows =>
    if rows.length = 0 then .error .zeroDivisionError
    else if w = 0 then .error .zeroDivisionError
    else .ok ⟨width / w * w, tile rows (height / rows.length) (width / w)⟩

end Tile
end Emva
