import Verif.Model.GetIntImgs

/-!
Which images belong to which point of a measurement: two images for each temporal point, `L` images for each spatial
point, taken one after the other.  `grab n e r` is the `n`-th image, taken at the exposure time `e` with the light `r`.
-/
set_option autoImplicit false
namespace Emva.Spec
variable {ρ : Type}

/-- the points in the order of acquisition -/
def flatPoints (pts : List (ℚ × List ρ)) : List (ℚ × ρ) := pts.flatMap fun t => t.2.map fun r => (t.1, r)

/-- the points with their images; `n` images were taken before, and `L` are taken for each point -/
def shots (grab : ℕ → ℚ → ρ → Img) (n L : ℕ) (pts : List (ℚ × List ρ)) : List (ℚ × ρ × List Img) :=
  (flatPoints pts).mapIdx fun j q => (q.1, q.2, (List.range L).map fun l => grab (n + L * j + l) q.1 q.2)

end Emva.Spec
