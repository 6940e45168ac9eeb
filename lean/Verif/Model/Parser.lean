import Verif.Py.Err
import Verif.Py.Dict
import Verif.Py.Str

/-!
Model of src/emva1288/process/parser.py (`ParseEmvaDescriptorFile`), completely, except for the log
output and for the `UnicodeDecodeError` of undecodable files (the model starts from decoded text).

`K` is the type of python floats other than NaN (a NaN key is never equal to itself and would
defeat every dictionary lookup); `pf`/`pi` stand for `float(token)` / `int(token)`, `none` meaning
`ValueError`.
-/
set_option autoImplicit false
namespace Emva
namespace Parser
open Py

/-- Keys of `self.images` (parser.py lines 51-52). -/
inductive Kind
  | temporal
  | spatial
  deriving DecidableEq, Repr

/-- `self.images[kind]`: `{exposure: {photons: [path, ...]}}`.
process/parser.py lines 51-52, 116-127. -/
abbrev Images (K : Type) := Dict K (Dict K (List Str))

/-- The attributes of the parser object (parser.py lines 47-52).  `format` is the dictionary
`{bits, width, height}`, `none` while empty. -/
structure Desc (K : Type) where
  format : Option (ℤ × ℤ × ℤ)
  version : Option Str
  temporal : Images K
  spatial : Images K
  deriving DecidableEq

namespace Desc
variable {K : Type}

/-- `self.images[kind]`. process/parser.py lines 116-127. -/
def images (d : Desc K) : Kind → Images K
  | .temporal => d.temporal
  | .spatial => d.spatial

/-- assignment to `self.images[kind]`. process/parser.py lines 116, 127. -/
def setImages (d : Desc K) : Kind → Images K → Desc K
  | .temporal, i => { d with temporal := i }
  | .spatial, i => { d with spatial := i }

/-- parser.py lines 49-52. -/
def empty : Desc K := { format := none, version := none, temporal := [], spatial := [] }

end Desc

/-- `_split_line`, parser.py lines 211-220. -/
def splitLine (line : Str) : Except PyErr (List Str) :=
  let l := (split line).map strip
  if l = [] ∨ l.length < 2 then .error .syntaxError else .ok l

/-- Path of an image file name, parser.py lines 82-83:
`os.path.join(self._path, *os.path.normpath(name).split('\\'))`. -/
def imagePath (path name : Str) : Str := pathJoin path (splitOnChar '\\' (normpath name))

/-- The `while` loop of `_get_images_filenames`, parser.py lines 68-84: consecutive image lines;
returns the paths and the remaining lines. -/
def collectImages (path : Str) : List Str → Except PyErr (List Str × List Str)
  | [] => .ok ([], [])
  | line :: rest =>
    match splitLine line with
    | .error e => .error e
    | .ok l =>
      if l[0]? ≠ some ['i'] then .ok ([], line :: rest)
      else if l.length ≠ 2 then .error .syntaxError
      else
        match collectImages path rest with
        | .error e => .error e
        | .ok (fs, rest') => .ok (imagePath path (l.getD 1 []) :: fs, rest')

/-- `_get_images_filenames`, parser.py lines 62-90. -/
def getImagesFilenames (path : Str) (lines : List Str) : Except PyErr (List Str × List Str) :=
  match collectImages path lines with
  | .error e => .error e
  | .ok (fs, rest) => if fs.length < 2 then .error .syntaxError else .ok (fs, rest)

theorem collectImages_length {path : Str} {lines fs rest : List Str}
    (h : collectImages path lines = .ok (fs, rest)) : rest.length ≤ lines.length := by
  induction lines generalizing fs rest with
  | nil => simp [collectImages] at h; simp [h]
  | cons l t ih =>
    simp only [collectImages] at h
    split at h
    · simp at h
    · split at h
      · simp at h; simp [← h.2]
      · split at h
        · simp at h
        · split at h
          · simp at h
          · rename_i fs' rest' he
            simp at h
            have := ih he
            rw [h.2] at this
            simp; omega

theorem getImagesFilenames_length {path : Str} {lines fs rest : List Str}
    (h : getImagesFilenames path lines = .ok (fs, rest)) : rest.length ≤ lines.length := by
  unfold getImagesFilenames at h
  split at h
  · simp at h
  · rename_i fs' rest' he
    split at h
    · simp at h
    · simp at h
      have := collectImages_length he
      rw [h.2] at this
      exact this

/-- `_get_kind`, parser.py lines 92-104. -/
def getKind (fnames : List Str) : Kind := if fnames.length = 2 then .temporal else .spatial

variable {K : Type} [DecidableEq K]

/-- `_add_pcount`, parser.py lines 106-127. -/
def addPcount (d : Desc K) (exposure photons : K) (fnames : List Str) : Except PyErr (Desc K) :=
  let kind := getKind fnames
  let imgs := Dict.setdefault (d.images kind) exposure []
  let inner := (Dict.get? imgs exposure).getD []
  if Dict.has inner photons then .error .syntaxError
  else .ok (d.setImages kind (Dict.set imgs exposure (Dict.set inner photons fnames)))

/-- The loop of `_fill_info`, parser.py lines 137-209, on the lines still to be processed (in file
order: the python code reverses the list and pops from its end).  `pf`/`pi` are `float`/`int`,
`zero` is `float(0.0)`. -/
def fillInfo (pf : Str → Option K) (pi : Str → Option ℤ) (zero : K) (path : Str) :
    List Str → Desc K → Except PyErr (Desc K)
  | [], d => .ok d
  | line :: rest, d =>
    match splitLine line with
    | .error e => .error e
    | .ok l =>
      let cmd := l.getD 0 []
      if cmd = ['v'] then fillInfo pf pi zero path rest { d with version := some (l.getD 1 []) }
      else if cmd = ['n'] then
        if l.length ≠ 4 then .error .syntaxError
        else if d.format.isSome then .error .syntaxError
        else match pi (l.getD 1 []), pi (l.getD 2 []), pi (l.getD 3 []) with
          | some b, some w, some h => fillInfo pf pi zero path rest { d with format := some (b, w, h) }
          | _, _, _ => .error .valueError
      else if cmd = ['b'] then
        if l.length ≠ 3 then .error .syntaxError
        else match pf (replaceChar ',' '.' (l.getD 1 [])), pf (replaceChar ',' '.' (l.getD 2 [])) with
          | some e, some p =>
            match h : getImagesFilenames path rest with
            | .error e => .error e
            | .ok (fs, rest') =>
              match addPcount d e p fs with
              | .error e => .error e
              | .ok d' =>
                have : rest'.length < (line :: rest).length := by
                  have := getImagesFilenames_length h; simp; omega
                fillInfo pf pi zero path rest' d'
          | _, _ => .error .valueError
      else if cmd = ['d'] then
        if l.length ≠ 2 then .error .syntaxError
        else match pf (replaceChar ',' '.' (l.getD 1 [])) with
          | some e =>
            match h : getImagesFilenames path rest with
            | .error e => .error e
            | .ok (fs, rest') =>
              match addPcount d e zero fs with
              | .error e => .error e
              | .ok d' =>
                have : rest'.length < (line :: rest).length := by
                  have := getImagesFilenames_length h; simp; omega
                fillInfo pf pi zero path rest' d'
          | none => .error .valueError
      else fillInfo pf pi zero path rest d
  termination_by lines => lines.length

/-- `_load_file`, parser.py lines 235-237: stripped lines that are neither blank nor comments. -/
def loadLines (text : Str) : List Str :=
  ((readlines text).filter fun x => strip x ≠ [] ∧ ¬ startsWith (strip x) ['#']).map strip

/-- `ParseEmvaDescriptorFile(filename, path)`, parser.py lines 25-60 and 222-237, for a readable
file of content `text`. -/
def parse (pf : Str → Option K) (pi : Str → Option ℤ) (zero : K) (filename : Str)
    (path : Option Str) (text : Str) : Except PyErr (Desc K) :=
  let path := path.getD (dirname filename)
  fillInfo pf pi zero path (loadLines text) Desc.empty

end Parser
end Emva
