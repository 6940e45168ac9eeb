import Verif.Model.DatasetGenerator
import Verif.Model.Loader

/-!
Model of `DatasetGenerator.run_test` with the images (src/emva1288/camera/dataset_generator.py lines 184-241):
the camera is set to an exposure time, grabs the images, and the images are written to files; and of
`load_image` (src/emva1288/process/routines.py lines 24-29), which reads such a file.

Model/DatasetGenerator has the text and the names of the files only; `Emva.Disk.run_st` (Lemmas/Dataset) shows
that the two agree.
-/
set_option autoImplicit false
namespace Emva
namespace Disk
open Py Gen

/-- The two PIL modes `save_image` uses, dataset_generator.py lines 231-236. -/
inductive PMode
  | L
  | I
  deriving DecidableEq

/-- File formats of `image_format` that are modelled.
camera/dataset_generator.py lines 57, 122. -/
inductive Format
  | png
  | tiff
  deriving DecidableEq

/-- The format PIL takes from the extension of the file name.
camera/dataset_generator.py lines 216, 240. -/
def formatOf (ext : Str) : Option Format :=
  if ext = "png".toList then some .png
  else if ext = "tif".toList then some .tiff
  else if ext = "tiff".toList then some .tiff
  else none

/-- `dtype` and `mode`, dataset_generator.py lines 231-236. -/
def modeOf (bits : ℕ) : PMode := if bits ≤ 8 then .L else .I

/-- A pixel of `Image.fromarray(img.astype(dtype), mode)`, camera/dataset_generator.py line 237: the low 8 bits; or the low 32 bits, which the
mode `I` takes as a signed number. -/
def encodePx : PMode → ℤ → ℤ
  | .L, v => v % 2 ^ 8
  | .I, v => Int.bmod v (2 ^ 32)

/-- `Image.fromarray(img.astype(dtype), mode)`, camera/dataset_generator.py line 237. -/
def encode (bits : ℕ) (img : Img) : PMode × Img :=
  (modeOf bits, { img with px := fun i j => encodePx (modeOf bits) (img.px i j) })

/-- A pixel read back from a file written by PIL: png has 8 or 16 bit pixels, and the pixels of a mode `I` image
are clipped to the 16 bits; tiff has 32 bit pixels. process/routines.py lines 24-29. -/
def rereadPx : Format → PMode → ℤ → ℤ
  | .png, .I, v => min (max v 0) 65535
  | _, _, v => v

/-- `load_image` of a file that holds an image, routines.py lines 24-29 (`split()[0]` of an image with one band
is the image). -/
def reread (f : Format) (x : PMode × Img) : Img := { x.2 with px := fun i j => rereadPx f x.1 (x.2.px i j) }

/-- What `run_test` uses of the camera: whether `np.mean(radiance) == 0`, the mean number of photons of a radiance
at the exposure time of the camera (dataset_generator.py lines 158-164), and the `n`-th grabbed image, which depends on the
exposure time of the camera and on the radiance. -/
structure Setup (ρ : Type) where
  dark : ρ → Bool
  photons : ℚ → ρ → ℚ
  grab : ℕ → ℚ → ρ → Img

/-- State of `run_test`: text, image number and saved paths (`Gen.St`); `self.cam.exposure`, the number of images
grabbed so far, the files. camera/dataset_generator.py lines 186-191, 206, 214, 240. -/
structure RunSt where
  st : St
  exposure : ℚ
  grabs : ℕ
  files : Dict Str (PMode × Img)

section
variable {ρ : Type} (S : Setup ρ) (c : Cfg)

/-- The radiance in the form of Model/DatasetGenerator, dataset_generator.py lines 158-164. -/
def radiance (exposure : ℚ) (r : ρ) : Option ℚ := if S.dark r then none else some (S.photons exposure r)

/-- Body of `for l in range(L)`, camera/dataset_generator.py lines 212-222, with `save_image`, lines 227-241. -/
def runImage (r : ρ) (s : RunSt) : RunSt :=
  let img := S.grab s.grabs s.exposure r
  let name := imageName c s.st.number
  { s with
    grabs := s.grabs + 1
    st := { text := s.st.text ++ ("i images\\".toList ++ name ++ ['\n'])
            number := s.st.number + 1
            saved := s.st.saved ++ [savePath c name] }
    files := Dict.set s.files (savePath c name) (encode c.bits img) }

/-- `for l in range(L)`. camera/dataset_generator.py lines 212-222. -/
def runImages (r : ρ) : ℕ → RunSt → RunSt
  | 0, s => s
  | l + 1, s => runImages r l (runImage S c r s)

/-- Body of `for radiance in radiances`, camera/dataset_generator.py lines 208-222. -/
def runPoint (L : ℕ) (texp : ℚ) (s : RunSt) (r : ρ) : RunSt :=
  runImages S c r L { s with
    st := { s.st with text := s.st.text ++ (descriptorLine texp (radiance S s.exposure r) ++ ['\n']) } }

/-- `for texp, radiances in self.points[kind].items()`, camera/dataset_generator.py lines 204-222; `self.cam.exposure = texp` in line 206. -/
def runKind (L : ℕ) (pts : List (ℚ × List ρ)) (s : RunSt) : RunSt :=
  pts.foldl (fun s p => p.2.foldl (runPoint S c L p.1) { s with exposure := p.1 }) s

/-- `run_test`, camera/dataset_generator.py lines 184-225, from a camera with the exposure time `exposure` and an empty directory. -/
def run (exposure : ℚ) (temporal spatial : List (ℚ × List ρ)) : RunSt :=
  let s0 : RunSt :=
    { st :=
        { text := ("v ".toList ++ c.version ++ ['\n']) ++
            ("n ".toList ++ (fmtNat c.bits ++ ' ' :: (fmtNat c.width ++ ' ' :: fmtNat c.height)) ++ ['\n'])
          number := 0
          saved := [] }
      exposure := exposure
      grabs := 0
      files := [] }
  runKind S c c.L spatial (runKind S c 2 temporal s0)

end

/-- The files as `LoadImageData` sees them: `fload` of Model/Loader.  The format of the files is the one of the
extension they were saved with (other extensions: not modelled, no file).
process/loader.py lines 135-142. -/
def fload (ext : Str) (files : Dict Str (PMode × Img)) (path : Str) : Option (Except PyErr Img) :=
  match formatOf ext with
  | none => none
  | some f => (Dict.get? files path).map fun x => .ok (reread f x)

end Disk
end Emva
