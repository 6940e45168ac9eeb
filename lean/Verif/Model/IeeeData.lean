import Verif.Py.Ieee
import Verif.Model.Rounded

/-!
The mean and the temporal variance of a pair of images, and the spatial data of a stack, in float64 with its limits.

The same code as in `Model/Rounded.lean`, with infinities, nan and numbers that lose digits because they are too small:
src/emva1288/process/routines.py lines 61-62 and src/emva1288/process/data.py lines 157-188, 122-124, 129-131, 264-328. The order
of the additions of `np.mean` and `np.sum` (the summation `T`) is a parameter.
-/
set_option autoImplicit false
namespace Emva.Ieee
variable (T : ISum)

/-- `np.mean(i)` of an int64 image (nan for an empty one). process/routines.py line 62. -/
noncomputable def mean (a : Img) : Fl ℝ :=
  rounded (T.sum ((Rounded.pixelsOf a.h a.w a.px).map fun n : ℤ => f64 n) / f64 a.size)

/-- the loop over the images, routines.py lines 56-63, for `dmean_`; the images are int64 (`i64`) -/
noncomputable def dmeanLoop : List Img → Option Img → Fl ℝ → Fl ℝ
  | [], _, d => d
  | img :: l, oi, d =>
    let i : Img := { img with px := fun r c => i64 (img.px r c) }
    -- if n > 0: dmean_ += np.mean(i) - np.mean(oi)
    let d' := match oi with
      | none => d
      | some o => rounded (d + rounded (mean T i - mean T o))
    -- oi = i
    dmeanLoop l (some i) d'

/-- the numbers of a temporal series in the loader, loader.py lines 120-124 -/
structure Entry where
  sum : ℤ
  pvar : ℤ
  dmean : Fl ℝ

/-- `LoadImageData._get_imgs_data(fnames, 'temporal')`. process/loader.py lines 107-124. -/
noncomputable def entry (imgs : List Img) : Entry :=
  { sum := (temporalEntry ℚ i64 imgs).sum
    pvar := (temporalEntry ℚ i64 imgs).pvar
    dmean := dmeanLoop T imgs none (.fin 0) }

/-- `Data1288._get_temporal_data(d)`, data.py lines 185-187, and the two numbers that are stored, lines 123-124:
`mean` and `var - dmean` -/
noncomputable def seriesPoint (pixels : ℕ) (d : Entry) : Fl ℝ × Fl ℝ :=
  let mean_ := rounded (f64 d.sum / rounded (.fin 2 * f64 pixels))
  let var_ := rounded (f64 d.pvar / rounded (.fin 4 * f64 pixels))
  let dmean_ := rounded (rounded (d.dmean * d.dmean) / .fin 2)
  (mean_, rounded (var_ - dmean_))

/-- `np.mean` of floats: their sum divided by their number. process/data.py lines 305-307, 310. -/
noncomputable def meanF (l : List (Fl ℝ)) : Fl ℝ := rounded (T.sum l / f64 l.length)

/-- `np.square(x - m)`. process/data.py lines 314, 316-317. -/
noncomputable def sqDev (m x : Fl ℝ) : Fl ℝ := rounded (rounded (x - m) * rounded (x - m))

/-- `np.var(l, ddof=1)`. process/data.py line 314. -/
noncomputable def var1 (l : List (Fl ℝ)) : Fl ℝ :=
  rounded (T.sum (l.map (sqDev (meanF T l))) / f64 ((l.length - 1 : ℕ) : ℝ))

/-- the floating point numbers of the dictionary of `_get_spatial_data`, data.py lines 319-328 -/
structure SpatialData where
  var_mean : Fl ℝ
  avg_var : Fl ℝ
  avg_mean : Fl ℝ
  avg_var_cav : Fl ℝ
  avg_var_rav : Fl ℝ

/-- `Data1288._get_spatial_data(d)`, data.py lines 296-317, for at least two images (`L - 1` is a natural number) -/
noncomputable def spatialData (M N : ℕ) (d : IntImgs ℚ) : SpatialData :=
  let L := d.L
  -- avg_ = sum_ / (1.0 * L)
  let avg_ : ℕ → ℕ → Fl ℝ := fun i j => rounded (f64 (d.sum i j) / rounded (.fin 1 * f64 L))
  -- avg = avg_.mean()
  let avg := meanF T (Rounded.pixelsOf d.h d.w avg_)
  -- avg_row = np.mean(avg_, axis=0)
  let avg_row := (List.range d.w).map fun j => meanF T ((List.range d.h).map fun i => avg_ i j)
  -- avg_col = np.mean(avg_, axis=1)
  let avg_col := (List.range d.h).map fun i => meanF T ((List.range d.w).map fun j => avg_ i j)
  -- var_ = pvar_ / (1.0 * np.square(L) * (L - 1))
  let var_ : ℕ → ℕ → Fl ℝ := fun i j =>
    rounded (f64 (d.pvar i j) / rounded (rounded (.fin 1 * f64 ((L * L : ℕ) : ℝ)) * f64 ((L - 1 : ℕ) : ℝ)))
  -- var_mean = var_.mean()
  let var_mean := meanF T (Rounded.pixelsOf d.h d.w var_)
  -- s_2_y_cav = 1 / N * np.sum(np.square(avg_row - avg)) - var_mean / (L * M)
  let cav := rounded (rounded (rounded (.fin 1 / .fin N) * T.sum (avg_row.map (sqDev avg))) -
    rounded (var_mean / f64 ((L * M : ℕ) : ℝ)))
  -- s_2_y_rav = 1 / M * np.sum(np.square(avg_col - avg)) - var_mean / (L * N)
  let rav := rounded (rounded (rounded (.fin 1 / .fin M) * T.sum (avg_col.map (sqDev avg))) -
    rounded (var_mean / f64 ((L * N : ℕ) : ℝ)))
  { var_mean := var_mean
    avg_var := var1 T (Rounded.pixelsOf d.h d.w avg_)
    avg_mean := avg
    avg_var_cav := cav
    avg_var_rav := rav }

end Emva.Ieee
