import Verif.Model.Radiance
import Verif.Py.Dict

/-!
Model of `PointsGenerator` (src/emva1288/camera/points_generator.py): the operation points of a test.

The constructor changes the camera: it is modelled as a function returning the camera and the points or
the exception.  The outcome of the draws of the one image it takes is an argument (`Noise`).  The number
of steps is not negative, the exposures and the gain are finite.
-/
set_option autoImplicit false
set_option linter.unusedSectionVars false
namespace Emva
namespace Cam

/-- `self.points`: for each kind, exposure time → radiances.
camera/points_generator.py line 117. -/
structure Points (F ρ : Type) where
  spatial : Dict F (List ρ)
  temporal : Dict F (List ρ)

section
variable {F : Type} [Field F] [LinearOrder F] [FloorRing F] {ρ : Type}

/-- `np.round(x, 1)`. camera/points_generator.py lines 91-93. -/
def round1 (x : F) : F := (rint (x * 10) : F) / 10

/-- `_is_point_spatial(n)`, points_generator.py lines 124-132 -/
def isPointSpatial (steps n : ℕ) : Bool :=
  let middle := steps / 2
  decide (n = middle ∨ n = steps + middle)

/-- `exposures`, points_generator.py lines 91-93 -/
def exposures (emin emax : F) (steps : ℕ) : List F := (linspace emin emax steps).map round1

/-- `for n, texp in enumerate(exposures)`, points_generator.py lines 97-100 -/
def pointsLoop (steps : ℕ) (radiances : List ρ) : ℕ → List F → Points F ρ → Points F ρ
  | _, [], p => p
  | n, texp :: rest, p =>
    pointsLoop steps radiances (n + 1) rest
      { spatial := if isPointSpatial steps n then Dict.set p.spatial texp radiances else p.spatial
        temporal := Dict.set p.temporal texp radiances }

/-- `_get_points` for an exposure time variation, points_generator.py lines 84-100, 117 -/
def exposurePoints (emin emax : F) (steps : ℕ) (radiance dark : ρ) : Points F ρ :=
  pointsLoop steps [radiance, dark] 0 (exposures emin emax steps) { spatial := [], temporal := [] }

end

/-- `np.linspace(a, b, n)` for any floats. camera/points_generator.py lines 91, 107. -/
noncomputable def linspaceFl (a b : Fl ℝ) (n : ℕ) : List (Fl ℝ) :=
  (List.range n).map fun i : ℕ =>
    if n = 1 then .fin 0 * (b - a) + a
    else if i + 1 = n then b
    else .fin (i : ℝ) * ((b - a) / .fin ((n : ℝ) - 1)) + a

/-- the elements of an array of the shape (height, width, wavelengths).
camera/points_generator.py lines 86, 105. -/
def arrList (c : Camera ℝ) (o : Optics) (r : Arr3) : List (Fl ℝ) :=
  (List.range c.height).flatMap fun i => (List.range c.width).flatMap fun j =>
    (List.range o.w.length).map fun k => r i j k

/-- `r.mean()`. camera/points_generator.py lines 107-108. -/
noncomputable def arrMean (c : Camera ℝ) (o : Optics) (r : Arr3) : Fl ℝ := Fl.mean (arrList c o r)

/-- the dark radiance, points_generator.py lines 86-87 -/
def darkRadiance : Arr3 := fun _ _ _ => .fin 0

/-- `rad_i * factor`, points_generator.py lines 105-110 -/
noncomputable def uniformRadiance (factor : Fl ℝ) : Arr3 := fun _ _ _ => .fin 1 * factor

/-- `radiances`, points_generator.py lines 107-110, 113 -/
noncomputable def photonRadiances (c : Camera ℝ) (o : Optics) (rmin rmax : Arr3) (steps : ℕ) : List Arr3 :=
  (linspaceFl (arrMean c o rmin) (arrMean c o rmax) steps).map uniformRadiance ++ [darkRadiance]

/-- `_get_points` for a photon variation, points_generator.py lines 102-117 -/
noncomputable def photonPoints (c : Camera ℝ) (o : Optics) (rmin rmax : Arr3) (exposure : ℝ) (steps : ℕ) :
    Except PyErr (Points ℝ Arr3) := do
  let radiances := photonRadiances c o rmin rmax steps
  let key : ℝ := (rint exposure : ℝ)
  let mid ← Np.idx radiances ((steps / 2 : ℕ) : ℤ)
  .ok { spatial := [(key, [mid, darkRadiance])], temporal := [(key, radiances)] }

/-- The arguments of `PointsGenerator` besides the camera, points_generator.py lines 14-23 -/
structure PArgs where
  exposureMin : Option ℝ
  exposureMax : Option ℝ
  exposureFixed : Option ℝ
  radianceMin : Option Arr3
  radianceMax : Option Arr3
  gain : Option ℝ
  blackref : Option ℝ
  steps : ℕ

/-- photon variation of the constructor once the camera is set, points_generator.py lines 74-77, 81 -/
noncomputable def photonRun (c : Camera ℝ) (o : Optics) (n : Noise ℝ) (e : ℝ) (steps : ℕ) :
    Except PyErr (Points ℝ Arr3) := do
  let img ← grabRadiance c o darkRadiance none none n
  let m := Img.mean ℝ img
  let target := (Fl.fin (imgMax c.bitDepth : ℝ) - m) / .fin (steps : ℝ) + m
  let rmin ← radianceFor c o (some target) none
  let rmax ← radianceFor c o none none
  photonPoints c o rmin rmax e steps

/-- `cam.K = gain; cam.blackoffset = blackref`, points_generator.py lines 72-73 -/
noncomputable def setGainOffset (c : Camera ℝ) (gain blackref : ℝ) : Except PyErr (Camera ℝ) := do
  let c ← c.setK (.fin gain)
  c.setBlackoffset (.fin blackref)

/-- `PointsGenerator(cam, ...)`, points_generator.py lines 54-81; `camMin` and `camMax` are the exposure
limits of the camera.  When setting the camera fails its state is not modelled (it is the old one). -/
noncomputable def mkPoints (c : Camera ℝ) (o : Optics) (camMin camMax : ℝ) (a : PArgs) (n : Noise ℝ) :
    Camera ℝ × Except PyErr (Points ℝ Arr3) :=
  let emin := orDefault a.exposureMin camMin
  let emax := orDefault a.exposureMax camMax
  let gain := orDefault a.gain c.K
  let blackref := orDefault a.blackref c.blackoffset
  match a.exposureFixed with
  | none =>
    let c := c.setExposure emax
    (c, do
      let r ← radianceFor c o none none
      .ok (exposurePoints emin emax a.steps r darkRadiance))
  | some e =>
    match setGainOffset (c.setExposure e) gain blackref with
    | .error err => (c, .error err)
    | .ok c => (c, photonRun c o n e a.steps)

end Cam
end Emva
