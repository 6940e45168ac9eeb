import Verif.Py.Str
import Mathlib.Data.Rat.Defs

/-!
What a generated data set must contain, stated without reference to the generator's loops.
-/
set_option autoImplicit false
namespace Emva.Spec

/-- The points of a data set in acquisition order, each with its number of images: first the temporal
points (two images each), then the spatial ones (`L` images each).  A point is an exposure time and
either `none` (dark) or the mean number of photons. -/
def plan (L : ℕ) (temporal spatial : List (ℚ × List (Option ℚ))) : List (ℚ × Option ℚ × ℕ) :=
  temporal.flatMap (fun t => t.2.map fun r => (t.1, r, 2)) ++
    spatial.flatMap (fun t => t.2.map fun r => (t.1, r, L))

/-- Image numbers of each point: consecutive, starting at `n`. -/
def numbered : ℕ → List (ℚ × Option ℚ × ℕ) → List (ℚ × Option ℚ × List ℕ)
  | _, [] => []
  | n, (e, r, L) :: ps => (e, r, (List.range L).map (n + ·)) :: numbered (n + L) ps

end Emva.Spec
