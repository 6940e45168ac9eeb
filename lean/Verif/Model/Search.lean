import Verif.Model.Camera
import Mathlib.Algebra.BigOperators.Group.Finset.Basic

/-!
Model of `bad_pixel` (src/emva1288/camera/bad_images.py), of the searches `_get_emva_gain` and
`_get_emva_blackoffset` and of the camera set-up of `DatasetGenerator.__init__`
(src/emva1288/camera/dataset_generator.py lines 13-42, 105-110).

The random generator is not modelled: the positions drawn by `bad_pixel` and the images grabbed by the
searches are arguments.  `grab k c` is the outcome of the `k`-th call of `cam.grab(0)` when the camera is
in the state `c`.  A function that changes the camera returns the state of the camera together with its
value or exception.
-/
set_option autoImplicit false
set_option linter.unusedSectionVars false
namespace Emva
namespace Cam
variable {F : Type} [Field F] [LinearOrder F]

/-- `cam.DSNU[i // cam.width, i % cam.width] = value`, bad_images.py line 32 (`i` is below
`height * width`) -/
def setPixel (c : Camera F) (i : ℕ) (value : F) : Camera F :=
  { c with dsnu := fun r s => if r = i / c.width ∧ s = i % c.width then value else c.dsnu r s }

/-- `bad_pixel(cam, num_bad_pixel, bad_value)`, bad_images.py lines 4-32; `draw` is the outcome of
`np.random.choice`, `none` for the bad value `None`. -/
def badPixel (c : Camera F) (num : ℤ) (bad : Option F) (draw : List ℕ) : Except PyErr (Camera F) :=
  match bad with
  | none => .error .typeError
  | some b =>
    let value := b * c.uEsat
    if num < 0 then .error .valueError
    else if c.height * c.width = 0 ∧ num ≠ 0 then .error .valueError
    else .ok (draw.foldl (fun c i => setPixel c i value) c)

/-- `(img1 - img2).std() > 0.5`, dataset_generator.py line 23, squared (the images have the same shape;
the standard deviation of no pixel is NaN) -/
def stdAboveHalf (a b : Img) : Bool :=
  let d := fun i j => a.px i j - b.px i j
  let n : ℤ := a.h * a.w
  let s := ∑ i ∈ Finset.range a.h, ∑ j ∈ Finset.range a.w, d i j
  let q := ∑ i ∈ Finset.range a.h, ∑ j ∈ Finset.range a.w, d i j ^ 2
  decide (n * n < 4 * (n * q - s * s))

/-- `np.count_nonzero(img)`. camera/dataset_generator.py line 39. -/
def countNonzero (a : Img) : ℕ :=
  ∑ i ∈ Finset.range a.h, ∑ j ∈ Finset.range a.w, if a.px i j = 0 then 0 else 1

/-- `np.count_nonzero(img) > pixels * .995`, dataset_generator.py lines 34, 39 -/
def mostNonzero (c : Camera F) (a : Img) : Bool := decide (995 * (c.width * c.height) < 1000 * countNonzero a)

/-- the loop of `_get_emva_gain`, dataset_generator.py lines 18-24 -/
def gainLoop (grab : ℕ → Camera F → Except PyErr Img) : List F → ℕ → Camera F → F → Camera F × Except PyErr F
  | [], _, c, g => (c, .ok g)
  | gain :: rest, k, c, _ =>
    match c.setK (.fin gain) with
    | .error e => (c, .error e)
    | .ok c =>
      match grab k c with
      | .error e => (c, .error e)
      | .ok img1 =>
        match grab (k + 1) c with
        | .error e => (c, .error e)
        | .ok img2 => if stdAboveHalf img1 img2 then (c, .ok gain) else gainLoop grab rest (k + 2) c gain

/-- `cam.K = value`, then `return g`, dataset_generator.py lines 25-26 -/
def restoreK (c : Camera F) (value g : F) : Camera F × Except PyErr F :=
  match c.setK (.fin value) with
  | .error e => (c, .error e)
  | .ok c => (c, .ok g)

/-- `_get_emva_gain(cam)`, dataset_generator.py lines 13-26, when `k` images have been grabbed before -/
def getGain (grab : ℕ → Camera F → Except PyErr Img) (k : ℕ) (c : Camera F) : Camera F × Except PyErr F :=
  match Np.idx c.Ks 0 with
  | .error e => (c, .error e)
  | .ok g =>
    match gainLoop grab c.Ks k c g with
    | (c', .error e) => (c', .error e)
    | (c', .ok g) => restoreK c' c.K g

/-- the loop of `_get_emva_blackoffset`, dataset_generator.py lines 35-40 -/
def offsetLoop (grab : ℕ → Camera F → Except PyErr Img) : List F → ℕ → Camera F → F → Camera F × Except PyErr F
  | [], _, c, g => (c, .ok g)
  | off :: rest, k, c, _ =>
    match c.setBlackoffset (.fin off) with
    | .error e => (c, .error e)
    | .ok c =>
      match grab k c with
      | .error e => (c, .error e)
      | .ok img => if mostNonzero c img then (c, .ok off) else offsetLoop grab rest (k + 1) c off

/-- `cam.blackoffset = value`, then `return bo`, dataset_generator.py lines 41-42 -/
def restoreBlackoffset (c : Camera F) (value g : F) : Camera F × Except PyErr F :=
  match c.setBlackoffset (.fin value) with
  | .error e => (c, .error e)
  | .ok c => (c, .ok g)

/-- `_get_emva_blackoffset(cam)`, dataset_generator.py lines 29-42, when `k` images have been grabbed
before -/
def getBlackoffset (grab : ℕ → Camera F → Except PyErr Img) (k : ℕ) (c : Camera F) : Camera F × Except PyErr F :=
  match Np.idx c.blackoffsets 0 with
  | .error e => (c, .error e)
  | .ok g =>
    match offsetLoop grab c.blackoffsets k c g with
    | (c', .error e) => (c', .error e)
    | (c', .ok g) => restoreBlackoffset c' c.blackoffset g

end Cam
end Emva
