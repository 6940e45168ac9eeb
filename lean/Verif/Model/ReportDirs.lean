import Verif.Py.Dict
import Verif.Py.Err
import Verif.Py.Str
import Mathlib.Logic.Function.Basic

/-!
The construction of a `Report1288` (report/report.py lines 44-122, 201-209, 258-297): the directories it creates, the
files it copies and what it writes into the dictionaries of the caller.

A file system maps absolute paths (lists of components) to files with a content and directories. There are no links
and no permissions.
-/
set_option autoImplicit false
namespace Emva
namespace ReportDirs
open Py

/-- report/report.py lines 201, 266, 273. -/
abbrev Path := List Str

/-- What is found at a path; the content of a file is a number.
report/report.py lines 261, 269, 275, 281. -/
inductive Node
  | dir
  | file (content : ℕ)
  deriving DecidableEq

/-- report/report.py lines 261, 269, 275, 281. -/
abbrev FS := Path → Option Node

/-- One component in `posixpath.normpath`. report/report.py lines 201, 281. -/
def normStep (p : Path) (c : Str) : Path :=
  if c = [] ∨ c = ['.'] then p
  else if c = ['.', '.'] then p.dropLast
  else p ++ [c]

/-- `os.path.abspath(s)` in the working directory `cwd` (posix; a path with exactly two leading slashes is treated as
one with one). report/report.py lines 201, 281. -/
def abspath (cwd : Path) (s : Str) : Path :=
  (splitOnChar '/' s).foldl normStep (if startsWith s ['/'] then [] else cwd)

/-- `os.path.basename(s)`: what follows the last slash. report/report.py line 284. -/
def basename (s : Str) : Str := (s.reverse.takeWhile (· != '/')).reverse

/-- the file system with `n` at `p`. report/report.py lines 261, 269, 275, 281. -/
def FS.put (fs : FS) (p : Path) (n : Node) : FS := Function.update fs p (some n)

/-- `os.mkdir(p)`; other errors of the operating system are `ioError`.
report/report.py lines 261, 275. -/
def mkdir (p : Path) (fs : FS) : FS × Except PyErr Unit :=
  match fs p with
  | some _ => (fs, .error .fileExistsError)
  | none =>
    match fs p.dropLast with
    | none => (fs, .error .fileNotFoundError)
    | some (.file _) => (fs, .error .ioError)
    | some .dir => (fs.put p .dir, .ok ())

/-- `os.makedirs` for the path with the components in reverse order: the missing parents first, where a
`FileExistsError` is ignored. report/report.py lines 261, 275. -/
def makedirsRev : List Str → FS → FS × Except PyErr Unit
  | [], fs => mkdir [] fs
  | t :: h, fs =>
    if fs h.reverse = none then
      match makedirsRev h fs with
      | (fs, .ok _) => mkdir (t :: h).reverse fs
      | (fs, .error .fileExistsError) => mkdir (t :: h).reverse fs
      | (fs, .error e) => (fs, .error e)
    else mkdir (t :: h).reverse fs

/-- `os.makedirs(p)`. report/report.py lines 261, 275. -/
def makedirs (p : Path) (fs : FS) : FS × Except PyErr Unit := makedirsRev p.reverse fs

/-- `shutil.copy(src, dst)`: into the directory `dst`, or onto `dst`. The same file and a directory as source or target
are errors (`SameFileError`, `IsADirectoryError`: `ioError`). report/report.py line 281. -/
def copy (src dst : Path) (fs : FS) : FS × Except PyErr Unit :=
  let dst := if fs dst = some .dir then dst ++ [src.getLastD []] else dst
  match fs src with
  | none => (fs, .error .fileNotFoundError)
  | some .dir => (fs, .error .ioError)
  | some (.file c) =>
    if src = dst then (fs, .error .ioError)
    else match fs dst with
      | some .dir => (fs, .error .ioError)
      | _ =>
        match fs dst.dropLast with
        | some .dir => (fs.put dst (.file c), .ok ())
        | some (.file _) => (fs, .error .ioError)
        | none => (fs, .error .fileNotFoundError)

/-- `copytree(src, dst)` for a directory `src` that contains the files `pkg` (report.py line 269: the files that come with
the package, which are not among the files the report writes). -/
def copytree (pkg : List (Str × ℕ)) (dst : Path) (fs : FS) : FS × Except PyErr Unit :=
  match makedirs dst fs with
  | (fs, .error e) => (fs, .error e)
  | (fs, .ok _) => (pkg.foldl (fun fs f => fs.put (dst ++ [f.1]) (.file f.2)) fs, .ok ())

/-- the `try: ... except FileExistsError: pass` blocks, report.py lines 260-263, 268-271, 274-277 -/
def unlessExists (r : FS × Except PyErr Unit) : FS × Except PyErr Unit :=
  match r with
  | (fs, .error .fileExistsError) => (fs, .ok ())
  | r => r

/-- the directory `files` of the package. report/report.py lines 153, 267. -/
def packaged (logo missinglogo missingplot : ℕ) : List (Str × ℕ) :=
  [("EMVA1288Logo.pdf".toList, logo), ("missinglogo.pdf".toList, missinglogo), ("missingplot.pdf".toList, missingplot)]

/-- The dictionaries of strings and `None`. report/report.py lines 205-207. -/
abbrev Info := Dict Str (Option Str)

/-- `info_marketing(**kwargs)`, report.py lines 116-122. -/
def infoMarketing (kwargs : Info) : Info :=
  Dict.update [("logo".toList, none), ("watermark".toList, none), ("missingplot".toList, none), ("cover_page".toList, none)]
    kwargs

/-- `info_basic(**kwargs)`, report.py lines 74-96. -/
def infoBasic (kwargs : Info) : Info :=
  Dict.update [("vendor".toList, none), ("model".toList, none), ("data_type".toList, none), ("sensor_type".toList, none),
    ("sensor_diagonal".toList, none), ("lens_category".toList, none), ("resolution".toList, none), ("pixel_size".toList, none),
    ("readout_type".toList, none), ("transfer_type".toList, none), ("shutter_type".toList, none),
    ("overlap_capabilities".toList, none), ("maximum_readout_rate".toList, none),
    ("dark_current_compensation".toList, none), ("interface_type".toList, none), ("qe_plot".toList, none)] kwargs

/-- `uploaded_file(fname, default)`, report.py lines 279-287: the name written into the dictionary. -/
def uploadedFile (cwd upload : Path) (fname : Option Str) (default : Str) (fs : FS) : FS × Except PyErr Str :=
  match fname with
  | some (c :: f) =>
    match copy (abspath cwd (c :: f)) upload fs with
    | (fs, .error e) => (fs, .error e)
    | (fs, .ok _) => (fs, .ok (pathJoin "upload".toList [basename (c :: f)]))
  | _ => (fs, .ok (pathJoin "files".toList [default]))

/-- What a `Report1288` changes: the files and the two dictionaries.
report/report.py lines 201-209, 258-297. -/
structure State where
  fs : FS
  marketing : Info
  basic : Info

/-- One of the assignments `d[k] = uploaded_file(d[k], default)`, report.py lines 289-297. -/
def place (cwd upload : Path) (k default : Str) (d : Info) (fs : FS) : (FS × Info) × Except PyErr Unit :=
  match Dict.get? d k with
  | none => ((fs, d), .error .keyError)
  | some v =>
    match uploadedFile cwd upload v default fs with
    | (fs, .error e) => ((fs, d), .error e)
    | (fs, .ok s) => ((fs, Dict.set d k (some s)), .ok ())

/-- the next statement, unless an exception is raised. report/report.py lines 258-297. -/
def andThen (r : FS × Except PyErr Unit) (k : FS → FS × Except PyErr Unit) : FS × Except PyErr Unit :=
  match r with
  | (fs, .error e) => (fs, .error e)
  | (fs, .ok _) => k fs

/-- The directories, report.py lines 260-277. -/
def directories (pkg : List (Str × ℕ)) (out : Path) (fs : FS) : FS × Except PyErr Unit :=
  andThen (unlessExists (makedirs out fs)) fun fs =>
  andThen (unlessExists (copytree pkg (out ++ ["files".toList]) fs)) fun fs =>
  unlessExists (makedirs (out ++ ["upload".toList]) fs)

/-- `_make_dirs`, report.py lines 258-297. -/
def makeDirs (pkg : List (Str × ℕ)) (cwd out : Path) (s : State) : State × Except PyErr Unit :=
  match directories pkg out s.fs with
  | (fs, .error e) => ({ s with fs := fs }, .error e)
  | (fs, .ok _) =>
    let upload := out ++ ["upload".toList]
    match place cwd upload "logo".toList "missinglogo.pdf".toList s.marketing fs with
    | ((fs, m), .error e) => ({ s with fs := fs, marketing := m }, .error e)
    | ((fs, m), .ok _) =>
      match place cwd upload "missingplot".toList "missingplot.pdf".toList m fs with
      | ((fs, m), .error e) => ({ s with fs := fs, marketing := m }, .error e)
      | ((fs, m), .ok _) =>
        match place cwd upload "qe_plot".toList "missingplot.pdf".toList s.basic fs with
        | ((fs, b), .error e) => (⟨fs, m, b⟩, .error e)
        | ((fs, b), .ok _) => (⟨fs, m, b⟩, .ok ())

/-- `d or default`: `None` and the empty dictionary are replaced.
report/report.py lines 205-207. -/
def orDefault (d : Option Info) (default : Info) : Info :=
  match d with
  | some (x :: d) => x :: d
  | _ => default

/-- `Report1288(outdir, basic=..., marketing=...)`, report.py lines 201-209. The state contains the dictionaries the
report works with: those of the caller, unless they are replaced. -/
def init (pkg : List (Str × ℕ)) (cwd : Path) (outdir : Str) (marketing basic : Option Info) (fs : FS) :
    State × Except PyErr Unit :=
  makeDirs pkg cwd (abspath cwd outdir) ⟨fs, orDefault marketing (infoMarketing []), orDefault basic (infoBasic [])⟩

end ReportDirs
end Emva
