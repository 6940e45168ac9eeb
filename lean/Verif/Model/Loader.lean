import Verif.Model.Parser
import Verif.Model.GetIntImgs

/-!
Model of src/emva1288/process/loader.py (`LoadImageData`), except for the log output.

The file system together with the image reader `fload` is a function
`fload : Str → Option (Except PyErr Img)`: `none` when `os.path.isfile` is false, `some (.error e)`
when the reader raises, `some (.ok img)` otherwise.  The default reader
(`routines.load_image`, routines.py lines 24-29) returns one channel, so images are 2-D.

A python `set` has no specified iteration order: `ord` maps the list of keys to the order in which
the set is iterated.
-/
set_option autoImplicit false
namespace Emva
namespace Loader
open Py Emva.Parser

variable {K : Type} [DecidableEq K] {V : Type*}

/-- `self.data[kind]`: `{exposure: {photons: reduced data}}`.
process/loader.py lines 56, 100-101. -/
abbrev KindData (K : Type) (V : Type*) := Dict K (Dict K V)

/-- `set.add`. process/loader.py line 147. -/
def addShape (sh : List (ℕ × ℕ)) (s : ℕ × ℕ) : List (ℕ × ℕ) := if s ∈ sh then sh else sh ++ [s]

/-- `_load_imgs`, loader.py lines 126-153; the second component is `self._shape`. -/
def loadImgs (fload : Str → Option (Except PyErr Img)) (path : Str) :
    List Str → List (ℕ × ℕ) → Except PyErr (List Img × List (ℕ × ℕ))
  | [], sh => .ok ([], sh)
  | f :: fs, sh =>
    match fload (join1 path f) with
    | none => .error .ioError
    | some (.error e) => .error e
    | some (.ok img) =>
      let sh' := addShape sh img.shape
      if 1 < sh'.length then .error .valueError
      else match loadImgs fload path fs sh' with
        | .error e => .error e
        | .ok (imgs, sh'') => .ok (img :: imgs, sh'')

/-- `for photons, fnames in images[kind][exposure].items()`, loader.py lines 96-101; `red` is the
part of `_get_imgs_data` after the loading (lines 113-124). -/
def loadPhotons (fload : Str → Option (Except PyErr Img)) (path : Str) (red : List Img → V)
    (exposure : K) : List (K × List Str) → KindData K V × List (ℕ × ℕ) →
      Except PyErr (KindData K V × List (ℕ × ℕ))
  | [], st => .ok st
  | (photons, fnames) :: rest, (data, sh) =>
    match loadImgs fload path fnames sh with
    | .error e => .error e
    | .ok (imgs, sh') =>
      let data := Dict.setdefault data exposure []
      let inner := (Dict.get? data exposure).getD []
      loadPhotons fload path red exposure rest
        (Dict.set data exposure (Dict.set inner photons (red imgs)), sh')

/-- `for exposure in exposures`, loader.py lines 79-101. -/
def loadExposures (fload : Str → Option (Except PyErr Img)) (path : Str) (red : List Img → V)
    (zero : K) (images : Images K) : List K → KindData K V × List (ℕ × ℕ) →
      Except PyErr (KindData K V × List (ℕ × ℕ))
  | [], st => .ok st
  | e :: es, st =>
    match Dict.get? images e with
    | none => .error .keyError
    | some inner =>
      if zero ∉ Dict.keys inner then .error .valueError
      else if (Dict.keys inner).length < 2 then .error .valueError
      else match loadPhotons fload path red e inner st with
        | .error e => .error e
        | .ok st' => loadExposures fload path red zero images es st'

/-- `self.data` after a successful load. process/loader.py lines 56, 101-105. -/
structure Loaded (K : Type) (F : Type*) where
  temporal : KindData K (TemporalEntry F)
  spatial : KindData K (IntImgs F)
  height : ℕ
  width : ℕ

variable {F : Type*} [Field F] [LinearOrder F]

/-- `LoadImageData(images, path).data`, loader.py lines 56-105. -/
def load (wr : ℤ → ℤ) (fload : Str → Option (Except PyErr Img)) (path : Str) (zero : K)
    (ord : List K → List K) (images : Kind → Images K) : Except PyErr (Loaded K F) :=
  match loadExposures fload path (temporalEntry F wr) zero (images .temporal)
      (ord (Dict.keys (images .temporal))) ([], []) with
  | .error e => .error e
  | .ok (t, sh) =>
    match loadExposures fload path (getIntImgs F wr) zero (images .spatial)
        (ord (Dict.keys (images .spatial))) ([], sh) with
    | .error e => .error e
    | .ok (s, sh') =>
      -- shape = self._shape.pop()
      match sh' with
      | [] => .error .keyError
      | shape :: _ => .ok { temporal := t, spatial := s, height := shape.1, width := shape.2 }

end Loader
end Emva
