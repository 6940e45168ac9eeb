import Verif.Py.Rounding
import Verif.Model.GetIntImgs

/-!
The mean and the temporal variance of a pair of images, and the spatial data of a stack, with the rounding of every floating
point operation.

The integer part (the sums in int64) is that of `Model/GetIntImgs.lean`; here are the operations in float64 of
src/emva1288/process/routines.py lines 61-62 and src/emva1288/process/data.py lines 157-188, 122-124, 129-131, 264-328. The rounding
`R` and the order of the additions of `np.mean` (the summation `S`) are parameters. Infinities, nan and empty images do not
occur here: they are in the models without rounding.
-/
set_option autoImplicit false
namespace Emva.Rounded
variable {u : ℝ} (R : Rounding u) (S : RSum R)

/-- the pixels of an `h x w` array in the order of memory (numpy, C order).
process/routines.py line 62. -/
def pixelsOf {α : Type*} (h w : ℕ) (f : ℕ → ℕ → α) : List α :=
  (List.range h).flatMap fun i => (List.range w).map fun j => f i j

/-- `np.mean(i)` of an int64 image: the pixels become floats, their sum is divided by their number (a float).
process/routines.py line 62. -/
noncomputable def mean (a : Img) : ℝ :=
  R.rnd (S.sum ((pixelsOf a.h a.w a.px).map fun n : ℤ => R.rnd n) / R.rnd a.size)

/-- the loop over the images, routines.py lines 56-63, for `dmean_`; the images are int64 (`i64`) -/
noncomputable def dmeanLoop : List Img → Option Img → ℝ → ℝ
  | [], _, d => d
  | img :: l, oi, d =>
    let i : Img := { img with px := fun r c => i64 (img.px r c) }
    -- if n > 0: dmean_ += np.mean(i) - np.mean(oi)
    let d' := match oi with
      | none => d
      | some o => R.rnd (d + R.rnd (mean R S i - mean R S o))
    -- oi = i
    dmeanLoop l (some i) d'

/-- the numbers of a temporal series in the loader, loader.py lines 120-124 -/
structure Entry where
  sum : ℤ
  pvar : ℤ
  dmean : ℝ

/-- `LoadImageData._get_imgs_data(fnames, 'temporal')`. process/loader.py lines 107-124. -/
noncomputable def entry (imgs : List Img) : Entry :=
  { sum := (temporalEntry ℚ i64 imgs).sum
    pvar := (temporalEntry ℚ i64 imgs).pvar
    dmean := dmeanLoop R S imgs none 0 }

/-- `Data1288._get_temporal_data(d)`, data.py lines 185-187, and the two numbers that are stored, lines 123-124:
`mean` and `var - dmean` -/
noncomputable def seriesPoint (pixels : ℕ) (d : Entry) : ℝ × ℝ :=
  let mean_ := R.rnd (R.rnd d.sum / R.rnd (2 * R.rnd pixels))
  let var_ := R.rnd (R.rnd d.pvar / R.rnd (4 * R.rnd pixels))
  let dmean_ := R.rnd (R.rnd (d.dmean * d.dmean) / 2)
  (mean_, R.rnd (var_ - dmean_))

/-- `np.mean` of floats: their sum divided by their number. process/data.py lines 305-307, 310. -/
noncomputable def meanF (l : List ℝ) : ℝ := R.rnd (S.sum l / R.rnd l.length)

/-- `np.square(x - m)`. process/data.py lines 314, 316-317. -/
noncomputable def sqDev (m x : ℝ) : ℝ := R.rnd (R.rnd (x - m) * R.rnd (x - m))

/-- `np.var(l, ddof=1)`: numpy computes the mean, the squared deviations and divides their sum by the number - 1.
process/data.py line 314. -/
noncomputable def var1 (l : List ℝ) : ℝ :=
  R.rnd (S.sum (l.map (sqDev R (meanF R S l))) / R.rnd ((l.length - 1 : ℕ) : ℝ))

/-- the floating point numbers of the dictionary of `_get_spatial_data`, data.py lines 319-328 -/
structure SpatialData where
  var_mean : ℝ
  avg_var : ℝ
  avg_mean : ℝ
  avg_var_cav : ℝ
  avg_var_rav : ℝ

/-- `Data1288._get_spatial_data(d)`, data.py lines 296-317, for images that are not empty and at least two images -/
noncomputable def spatialData (M N : ℕ) (d : IntImgs ℚ) : SpatialData :=
  let L := d.L
  -- avg_ = sum_ / (1.0 * L)
  let avg_ : ℕ → ℕ → ℝ := fun i j => R.rnd (R.rnd (d.sum i j) / R.rnd (1 * R.rnd L))
  -- avg = avg_.mean()
  let avg := meanF R S (pixelsOf d.h d.w avg_)
  -- avg_row = np.mean(avg_, axis=0)
  let avg_row := (List.range d.w).map fun j => meanF R S ((List.range d.h).map fun i => avg_ i j)
  -- avg_col = np.mean(avg_, axis=1)
  let avg_col := (List.range d.h).map fun i => meanF R S ((List.range d.w).map fun j => avg_ i j)
  -- var_ = pvar_ / (1.0 * np.square(L) * (L - 1))
  let var_ : ℕ → ℕ → ℝ := fun i j =>
    R.rnd (R.rnd (d.pvar i j) / R.rnd (R.rnd (1 * R.rnd ((L * L : ℕ) : ℝ)) * R.rnd ((L - 1 : ℕ) : ℝ)))
  -- var_mean = var_.mean()
  let var_mean := meanF R S (pixelsOf d.h d.w var_)
  -- s_2_y_cav = 1 / N * np.sum(np.square(avg_row - avg)) - var_mean / (L * M)
  let cav := R.rnd (R.rnd (R.rnd (1 / N) * S.sum (avg_row.map (sqDev R avg))) - R.rnd (var_mean / R.rnd ((L * M : ℕ) : ℝ)))
  -- s_2_y_rav = 1 / M * np.sum(np.square(avg_col - avg)) - var_mean / (L * N)
  let rav := R.rnd (R.rnd (R.rnd (1 / M) * S.sum (avg_col.map (sqDev R avg))) - R.rnd (var_mean / R.rnd ((L * N : ℕ) : ℝ)))
  { var_mean := var_mean
    avg_var := var1 R S (pixelsOf d.h d.w avg_)
    avg_mean := avg
    avg_var_cav := cav
    avg_var_rav := rav }

end Emva.Rounded
