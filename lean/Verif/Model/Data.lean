import Verif.Model.Loader
import Verif.Model.Temporal
import Mathlib.Data.List.Sort

/-!
Model of src/emva1288/process/data.py (`Data1288`), except for the logging.

The argument is the dictionary produced by the loader (`Loaded F F`): exposures and photon counts
are the finite floats of the descriptor file, i.e. elements of `F`.
-/
set_option autoImplicit false
set_option linter.unusedSectionVars false
namespace Emva
namespace Data
open Py Loader
variable {F : Type} [Field F] [LinearOrder F]

/-- `sorted(d.keys())`. process/data.py lines 99, 113, 245. -/
def sortedKeys {V : Type*} (d : Dict F V) : List F := (Dict.keys d).insertionSort (· ≤ ·)

/-- `self.data['temporal']`, data.py lines 102 and 134-138. -/
structure Temporal (F : Type) where
  texp : List F
  u_p : List F
  u_y : List (Fl F)
  s2_y : List (Fl F)
  u_ydark : List (Fl F)
  s2_ydark : List (Fl F)
  deriving DecidableEq

/-- The loop over the bright photon counts of one exposure, data.py lines 126-131. -/
def brightLoop (pixels : ℕ) (inner : Dict F (TemporalEntry F)) :
    List F → Temporal F → Except PyErr (Temporal F)
  | [], a => .ok a
  | p :: ps, a =>
    match Dict.get? inner p with
    | none => .error .keyError
    | some e =>
      let d := getTemporalData pixels e
      brightLoop pixels inner ps { a with
        u_p := a.u_p ++ [p]
        u_y := a.u_y ++ [d.mean]
        s2_y := a.s2_y ++ [d.var - d.dmean] }

/-- The loop over the exposures, data.py lines 110-131. -/
def expLoop (pixels : ℕ) (data : KindData F (TemporalEntry F)) :
    List F → Temporal F → Except PyErr (Temporal F)
  | [], a => .ok a
  | t :: ts, a =>
    match Dict.get? data t with
    | none => .error .keyError
    | some inner =>
      let photons := sortedKeys inner
      if (0 : F) ∉ photons then .error .valueError
      else if photons.length < 2 then .error .valueError
      else
        match Dict.get? inner 0 with
        | none => .error .keyError
        | some e =>
          let d := getTemporalData pixels e
          match brightLoop pixels inner (photons.drop 1) { a with
              u_ydark := a.u_ydark ++ [d.mean]
              s2_ydark := a.s2_ydark ++ [d.var - d.dmean] } with
          | .error e => .error e
          | .ok a' => expLoop pixels data ts a'

/-- `np.asarray([v[0] for _i in range(l)])`, data.py lines 146-153. -/
def repeatFirst {α : Type*} (l : ℕ) : List α → Except PyErr (List α)
  | [] => .error .indexError
  | v :: _ => .ok (List.replicate l v)

/-- `_get_temporal`, data.py lines 96-155. -/
def getTemporal (pixels : ℕ) (data : KindData F (TemporalEntry F)) : Except PyErr (Temporal F) :=
  let exposures := sortedKeys data
  match expLoop pixels data exposures ⟨exposures, [], [], [], [], []⟩ with
  | .error e => .error e
  | .ok t =>
    if exposures.length = 1 then
      let l := t.u_p.length
      match repeatFirst l t.texp, repeatFirst l t.u_ydark, repeatFirst l t.s2_ydark with
      | .ok a, .ok b, .ok c => .ok { t with texp := a, u_ydark := b, s2_ydark := c }
      | _, _, _ => .error .indexError
    else .ok t

/-- The elements of an `h x w` array in row-major order (`.ravel()`).
process/data.py lines 305, 310, 314. -/
def flat (h w : ℕ) {α : Type*} (f : ℕ → ℕ → α) : List α :=
  (List.range h).flatMap fun i => (List.range w).map (f i)

/-- The dictionary returned by `_get_spatial_data`, data.py lines 319-328 (`h`, `w`: shape of the
`sum` image). -/
structure SpatialData (F : Type) where
  h : ℕ
  w : ℕ
  sum : ℕ → ℕ → ℤ
  var_mean : Fl F
  L : ℕ
  M : ℕ
  N : ℕ
  avg_var : Fl F
  avg_mean : Fl F
  avg_var_cav : Fl F
  avg_var_rav : Fl F

/-- `np.var(a, ddof=1)` of the flattened array: squared deviations from the mean divided by
`max(n - 1, 0)`. process/data.py line 314. -/
def npVar1 (l : List (Fl F)) : Fl F :=
  Fl.sum (l.map fun x => Fl.sq (x - Fl.mean l)) / .fin ((l.length - 1 : ℕ) : F)

/-- `_get_spatial_data(d)`, data.py lines 264-328; `rows`/`cols` are `self.rows`/`self.cols`.
Without images the loader stores the python integer `0`, which has no `astype`
(`AttributeError`). -/
def getSpatialData (rows cols : ℕ) (d : IntImgs F) : Except PyErr (SpatialData F) :=
  if d.L = 0 then .error .attributeError
  else
    let L := d.L
    let M := rows
    let N := cols
    -- avg_ = sum_ / (1.0 * L)
    let avg_ : ℕ → ℕ → Fl F := fun i j => .fin (d.sum i j : F) / .fin (L : F)
    let avg := Fl.mean (flat d.h d.w avg_)
    let avg_row := (List.range d.w).map fun j => Fl.mean ((List.range d.h).map fun i => avg_ i j)
    let avg_col := (List.range d.h).map fun i => Fl.mean ((List.range d.w).map fun j => avg_ i j)
    -- var_ = pvar_ / (1.0 * np.square(L) * (L - 1))
    let var_ : ℕ → ℕ → Fl F := fun i j =>
      .fin (d.pvar i j : F) / .fin ((L : F) * (L : F) * ((L : F) - 1))
    let var_mean := Fl.mean (flat d.h d.w var_)
    let avg_var := npVar1 (flat d.h d.w avg_)
    -- 1 / N and 1 / M are divisions of python integers
    if N = 0 then .error .zeroDivisionError
    else if M = 0 then .error .zeroDivisionError
    else
      let cav := .fin (1 / (N : F)) * Fl.sum (avg_row.map fun x => Fl.sq (x - avg))
        - var_mean / .fin ((L * M : ℕ) : F)
      let rav := .fin (1 / (M : F)) * Fl.sum (avg_col.map fun x => Fl.sq (x - avg))
        - var_mean / .fin ((L * N : ℕ) : F)
      .ok { h := d.h, w := d.w, sum := d.sum, var_mean := var_mean, L := L, M := M, N := N,
            avg_var := avg_var, avg_mean := avg, avg_var_cav := cav, avg_var_rav := rav }

/-- `self.data['spatial']`: the entries with the suffix `_dark` are in `dark`.
process/data.py lines 242-262, 319-328. -/
structure Spatial (F : Type) where
  texp : F
  u_p : F
  dark : SpatialData F
  bright : SpatialData F

/-- `_get_spatial`, data.py lines 190-262. -/
def getSpatial (rows cols : ℕ) (data : KindData F (IntImgs F)) : Except PyErr (Spatial F) :=
  match data with
  | [(exposure, inner)] =>
    let photons := sortedKeys inner
    if (0 : F) ∉ photons then .error .valueError
    else if photons.length ≠ 2 then .error .valueError
    else
      match Dict.get? inner 0 with
      | none => .error .keyError
      | some d =>
        match getSpatialData rows cols d with
        | .error e => .error e
        | .ok dark =>
          -- bphoton = photons[1]
          match photons[1]? with
          | none => .error .indexError
          | some bphoton =>
            match Dict.get? inner bphoton with
            | none => .error .keyError
            | some b =>
              match getSpatialData rows cols b with
              | .error e => .error e
              | .ok bright => .ok ⟨exposure, bphoton, dark, bright⟩
  | _ => .error .valueError

/-- A `Data1288` object. process/data.py lines 50-56. -/
structure Data1288 (F : Type) where
  pixels : ℕ
  rows : ℕ
  cols : ℕ
  temporal : Temporal F
  spatial : Spatial F

/-- `pixels or data['width'] * data['height']`, data.py line 50; `None` and `0` are both falsy. -/
def pixelsOf (r : Loaded F F) : Option ℕ → ℕ
  | none => r.width * r.height
  | some 0 => r.width * r.height
  | some n => n

/-- `Data1288(data, pixels=...)`, data.py lines 46-56. -/
def make (r : Loaded F F) (pixels : Option ℕ) : Except PyErr (Data1288 F) :=
  let px := pixelsOf r pixels
  match getTemporal px r.temporal with
  | .error e => .error e
  | .ok t =>
    match getSpatial r.height r.width r.spatial with
    | .error e => .error e
    | .ok s => .ok ⟨px, r.height, r.width, t, s⟩

end Data
end Emva
