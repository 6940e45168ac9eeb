import Verif.Model.Camera
import Verif.Py.FlReal
import Mathlib.Analysis.SpecialFunctions.Pow.Real

/-!
Model of the light and temperature model of the camera simulator: `get_photons` and `get_radiance`
(src/emva1288/camera/routines.py lines 23-94) and `_u_e`, `_u_therm`, `_u_i`, `get_radiance_for`,
`get_photons`, `grab` of `Camera` (src/emva1288/camera/camera.py lines 278-431).

Arithmetic is exact over the reals (`np.pi` is the decimal below).  Exposure, pixel area, f-number and
temperatures are Python numbers: dividing by a Python zero raises, dividing array elements by zero gives
an infinity or NaN.  A radiance is given as an array of the shape (height, width, wavelengths); numbers
and smaller arrays are broadcast to it.  Overflow is not modelled.
-/
set_option autoImplicit false
namespace Emva
namespace Cam

/-- An array of the shape (height, width, wavelengths): row, column, wavelength.
camera/routines.py lines 54, 94. -/
abbrev Arr3 := ℕ → ℕ → ℕ → Fl ℝ

/-- `np.pi`. camera/routines.py lines 53, 93. -/
noncomputable def npPi : ℝ := 3.141592653589793

/-- `h * c`, routines.py lines 42-43, 78-79 -/
noncomputable def hc : ℝ := 6.63e-34 * 3.00e8

/-- `scalar` of `get_photons`, routines.py lines 45-46, 53 -/
noncomputable def photonScalar (exposure area f : ℝ) : ℝ :=
  (area * 1e-12 * (exposure * 1e-9)) * npPi / (hc * (1 + (2 * f) ^ 2))

/-- one element of `get_photons`, routines.py lines 44, 54 -/
noncomputable def photonElem (scalar : ℝ) (radiance : Fl ℝ) (w : ℝ) : Fl ℝ :=
  radiance * .fin (scalar * (w * 1e-9 * (w * 1e-9)))

/-- `get_photons(exposure, radiance, pixel_area, wavelength, f_number)`, routines.py lines 23-54 -/
noncomputable def getPhotons (exposure : ℝ) (radiance : Arr3) (area : ℝ) (wavelength : List ℝ) (f : ℝ) : Arr3 :=
  fun i j k => photonElem (photonScalar exposure area f) (radiance i j k) (wavelength.getD k 0)

/-- `scalar` of `get_radiance`, routines.py lines 81-82, 93 -/
noncomputable def radianceScalar (exposure area f : ℝ) : Except PyErr ℝ :=
  let d := npPi * (area * 1e-12) * (exposure * 1e-9)
  if d = 0 then .error .zeroDivisionError else .ok (hc * (1 + (2 * f) ^ 2) / d)

/-- one element of `get_radiance`, routines.py lines 80, 94 -/
noncomputable def radianceElem (scalar : ℝ) (photons : Fl ℝ) (w : ℝ) : Fl ℝ :=
  photons * (.fin scalar / .fin (w * 1e-9 * (w * 1e-9)))

/-- `get_radiance(exposure, photons, pixel_area, f_number, wavelength)`, routines.py lines 57-94 -/
noncomputable def getRadiance (exposure : ℝ) (photons : Arr3) (area f : ℝ) (wavelength : List ℝ) :
    Except PyErr Arr3 := do
  let s ← radianceScalar exposure area f
  .ok fun i j k => radianceElem s (photons i j k) (wavelength.getD k 0)

/-- The parameters of a camera that describe light and temperature, camera.py lines 114-166. `qe` and `w`
are those of the `Qe` object (routines.py lines 214-245). -/
structure Optics where
  pixelArea : ℝ
  fNumber : ℝ
  temperature : ℝ
  temperatureRef : ℝ
  temperatureDoubling : ℝ
  darkCurrentRef : ℝ
  w : List ℝ
  qe : ℕ → ℕ → ℕ → ℝ
  prnu : ℕ → ℕ → ℝ

/-- `_u_i`, camera.py lines 356-364 -/
noncomputable def uI (o : Optics) (temperature : Option ℝ) : Except PyErr ℝ :=
  if o.temperatureDoubling = 0 then .error .zeroDivisionError
  else .ok (o.darkCurrentRef *
    (2 : ℝ) ^ ((temperature.getD o.temperature - o.temperatureRef) / o.temperatureDoubling))

/-- `_u_therm`, camera.py lines 349-354 -/
noncomputable def uTherm (c : Camera ℝ) (o : Optics) (temperature : Option ℝ) : Except PyErr ℝ := do
  let u ← uI o temperature
  .ok (u * c.exposure / 10 ^ 9)

/-- `Camera.get_photons`, camera.py lines 405-431 -/
noncomputable def camPhotons (c : Camera ℝ) (o : Optics) (radiance : Arr3) (exposure f : Option ℝ) : Arr3 :=
  getPhotons (exposure.getD c.exposure) radiance o.pixelArea o.w (f.getD o.fNumber)

/-- `_u_e`, camera.py lines 338-347 -/
noncomputable def uE (c : Camera ℝ) (o : Optics) (radiance : Arr3) (f : Option ℝ) (i j : ℕ) : Fl ℝ :=
  Fl.sum ((List.range o.w.length).map fun k => camPhotons c o radiance none f i j k * .fin (o.qe i j k)) *
    .fin (o.prnu i j)

/-- all elements of `qe`, row by row. camera/camera.py line 397. -/
def qeList (c : Camera ℝ) (o : Optics) : List ℝ :=
  (List.range c.height).flatMap fun i => (List.range c.width).flatMap fun j =>
    (List.range o.w.length).map fun k => o.qe i j k

/-- `if not x: x = default` for a number or `None`. camera/camera.py lines 389-392. -/
noncomputable def orDefault (x : Option ℝ) (d : ℝ) : ℝ :=
  match x with
  | none => d
  | some v => if v = 0 then d else v

/-- `if not mean: mean = default` for a numpy float or `None` (NaN and infinities are not zero).
camera/camera.py lines 389-390. -/
noncomputable def orDefaultFl (x : Option (Fl ℝ)) (d : ℝ) : Fl ℝ :=
  match x with
  | none => .fin d
  | some v => if Fl.eqb v (.fin 0) then .fin d else v

/-- `get_radiance_for(mean, exposure)`, camera.py lines 366-403 (`self.K` is a numpy float) -/
noncomputable def radianceFor (c : Camera ℝ) (o : Optics) (mean : Option (Fl ℝ)) (exposure : Option ℝ) :
    Except PyErr Arr3 := do
  let ud ← uTherm c o none
  let ue := (orDefaultFl mean (imgMax c.bitDepth : ℝ) / .fin c.K - .fin ud) / .fin (o.w.length : ℝ)
  let up := ue / Fl.mean ((qeList c o).map .fin)
  getRadiance (orDefault exposure c.exposure) (fun _ _ _ => up) o.pixelArea o.fNumber o.w

/-- `rng.poisson` rejects a mean that is negative or NaN (the upper limit is not modelled).
camera/camera.py lines 305, 311. -/
noncomputable def poissonOk (x : Fl ℝ) : Bool := Fl.le (.fin 0) x

/-- `grab(radiance, temperature, f_number)`, camera.py lines 278-336, for given outcomes of the draws -/
noncomputable def grabRadiance (c : Camera ℝ) (o : Optics) (radiance : Arr3) (temperature f : Option ℝ)
    (n : Noise ℝ) : Except PyErr Img := do
  let ud ← uTherm c o temperature
  if !poissonOk (.fin ud) then .error .valueError
  else if !((List.range c.height).all fun i => (List.range c.width).all fun j => poissonOk (uE c o radiance f i j)) then
    .error .valueError
  else .ok (grabImg c n)

end Cam
end Emva
