import Verif.Py.Num
import Mathlib.Data.Rat.Floor

/-!
Model of `DatasetGenerator.run_test` (src/emva1288/camera/dataset_generator.py): the descriptor text
it writes and the files it saves.

Not modelled here: the pixel content of the images (Model/Camera) and their encoding (PIL).
-/
set_option autoImplicit false
namespace Emva
namespace Gen
open Py

/-- Round to the nearest integer, ties to even (`np.rint`, and the digit selection of `'%.<d>f'`).
camera/dataset_generator.py lines 160, 163. -/
def rint (x : ℚ) : ℤ :=
  let f := ⌊x⌋
  let d := x - f
  if d < 1 / 2 then f
  else if 1 / 2 < d then f + 1
  else if f % 2 = 0 then f else f + 1

/-- `np.round(x, d)` and the number denoted by `'%.<d>f' % x`.
camera/dataset_generator.py lines 160, 163. -/
def roundTo (d : ℕ) (x : ℚ) : ℚ := (rint (x * 10 ^ d) : ℚ) / 10 ^ d

/-- `'%.<d>f' % x` (simplification: numbers that round to zero are printed without a sign).
camera/dataset_generator.py lines 160, 163. -/
def fmtFixed (d : ℕ) (x : ℚ) : Str :=
  let n := rint (x * 10 ^ d)
  if n < 0 then '-' :: fmtFixedNat d n.natAbs else fmtFixedNat d n.natAbs

/-- What `run_test` reads from the object (dataset_generator.py lines 53-63, 119-129) and from its
camera. -/
structure Cfg where
  version : Str
  imageFormat : Str
  /-- number of images of a spatial point -/
  L : ℕ
  bits : ℕ
  width : ℕ
  height : ℕ
  outdir : Str

/-- `self.points[kind].items()`: exposure time and list of radiances.  A radiance is represented by
`none` if its mean is zero and otherwise by the mean number of photons per pixel it produces at that
exposure time (`np.sum(self.cam.get_photons(radiance), axis=2).mean()`, camera/dataset_generator.py lines 163-164). -/
abbrev Points := List (ℚ × List (Option ℚ))

/-- `_get_descriptor_line`, camera/dataset_generator.py lines 156-164. -/
def descriptorLine (exposure : ℚ) : Option ℚ → Str
  | none => "d ".toList ++ fmtFixed 1 exposure
  | some photons => "b ".toList ++ (fmtFixed 1 exposure ++ ' ' :: fmtFixed 3 (roundTo 3 photons))

/-- Mutable state of `run_test`: the text written so far, `image_number`, the paths saved so far.
camera/dataset_generator.py lines 186-191, 219, 238. -/
structure St where
  text : Str
  number : ℕ
  saved : List Str

/-- `name`, camera/dataset_generator.py lines 216-217. -/
def imageName (c : Cfg) (n : ℕ) : Str := "image".toList ++ (fmtNat n ++ '.' :: c.imageFormat)

/-- Path where `save_image` stores an image, camera/dataset_generator.py line 238: `os.path.join(outdir, 'images', name)`. -/
def savePath (c : Cfg) (name : Str) : Str := pathJoin c.outdir ["images".toList, name]

/-- Body of `for l in range(L)`, camera/dataset_generator.py lines 212-222. -/
def genImage (c : Cfg) (s : St) : St :=
  let name := imageName c s.number
  { text := s.text ++ ("i images\\".toList ++ name ++ ['\n'])
    number := s.number + 1
    saved := s.saved ++ [savePath c name] }

/-- `for l in range(L)`. camera/dataset_generator.py lines 212-222. -/
def genImages (c : Cfg) : ℕ → St → St
  | 0, s => s
  | l + 1, s => genImages c l (genImage c s)

/-- Body of `for radiance in radiances`, camera/dataset_generator.py lines 208-222. -/
def genPoint (c : Cfg) (L : ℕ) (texp : ℚ) (s : St) (rad : Option ℚ) : St :=
  genImages c L { s with text := s.text ++ (descriptorLine texp rad ++ ['\n']) }

/-- `for texp, radiances in self.points[kind].items()`, camera/dataset_generator.py lines 204-222. -/
def genKind (c : Cfg) (L : ℕ) (pts : Points) (s : St) : St :=
  pts.foldl (fun s p => p.2.foldl (genPoint c L p.1) s) s

/-- `run_test`, camera/dataset_generator.py lines 184-225: temporal points with 2 images each, then spatial points with `L`. -/
def runTest (c : Cfg) (temporal spatial : Points) : St :=
  let s0 : St :=
    { text := ("v ".toList ++ c.version ++ ['\n']) ++
        ("n ".toList ++ (fmtNat c.bits ++ ' ' :: (fmtNat c.width ++ ' ' :: fmtNat c.height)) ++ ['\n'])
      number := 0
      saved := [] }
  genKind c c.L spatial (genKind c 2 temporal s0)

/-- Path of the descriptor file, camera/dataset_generator.py line 189. -/
def descriptorPath (c : Cfg) : Str := join1 c.outdir "EMVA1288descriptor.txt".toList

end Gen
end Emva
