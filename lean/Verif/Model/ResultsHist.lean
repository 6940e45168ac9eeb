import Verif.Model.Results
import Verif.Model.HighPass

/-!
Model of the histogram attributes of `Results1288` (src/emva1288/process/results.py lines 1113-1224).
The images are plain arrays.  The `model` entries (normal densities) are in HistModel.lean.
-/
set_option autoImplicit false
set_option linter.unusedSectionVars false
namespace Emva
namespace Results
open Data Routines
variable {F : Type} [Field F] [LinearOrder F]

/-- The returned dictionary. process/results.py lines 1137, 1169, 1194, 1224. -/
structure HistF (F : Type) where
  bins : List (Fl F)
  values : List (Fl F)
  deriving DecidableEq

/-- `self._histogram_Qmax`, results.py line 63. -/
def histogramQmax : ℕ := 256

/-- `spatial['sum_dark']` as an array. process/results.py lines 1185, 1209. -/
def sumDark : M F Img := do
  let s ← spat true
  pure ⟨s.h, s.w, s.sum⟩

/-- `spatial['sum'] - spatial['sum_dark']`, results.py lines 1128, 1154.  Arrays of different shapes:
`ValueError` (broadcasting of sides of length one is not modelled). -/
def sumDiff : M F Img := do
  let b ← spat false
  let d ← spat true
  if b.h = d.h ∧ b.w = d.w then pure ⟨b.h, b.w, fun i j => b.sum i j - d.sum i j⟩
  else lift (.error .valueError)

/-- `int(np.mean(y))`: truncation towards zero; the mean of an empty array is NaN, `int` of which raises
`ValueError`. process/results.py lines 1158, 1211. -/
def truncMean (y : List ℤ) : Except PyErr ℤ :=
  if y = [] then .error .valueError else .ok (y.sum.tdiv y.length)

/-- `np.abs(y - int(np.mean(y)))`, results.py lines 1158, 1211. -/
def absDev (y : List (ℤ × Bool)) : Except PyErr (List (ℤ × Bool)) := do
  let t ← truncMean (y.map Prod.fst)
  pure (y.map fun p => (|p.1 - t|, p.2))

/-- `np.cumsum` with a running total. process/results.py lines 1165, 1219. -/
def cumsum : ℕ → List ℕ → List ℕ
  | _, [] => []
  | acc, x :: l => (acc + x) :: cumsum (acc + x) l

/-- `np.cumsum(values[::-1])[::-1]`, results.py lines 1165, 1219. -/
def accumulate (values : List ℕ) : List ℕ := (cumsum 0 values.reverse).reverse

/-- edges divided by a scale, as in `h['bins'] /= scale`.
process/results.py lines 1135, 1162, 1191, 1215. -/
def scaleBins (bins : List ℤ) (scale : Fl F) : List (Fl F) := bins.map fun b : ℤ => .fin (b : F) / scale

/-- counts as floats. process/results.py lines 1167, 1222. -/
def countsF (values : List ℕ) : List (Fl F) := values.map fun v : ℕ => .fin (v : F)

/-- `100 * values / y.size`, results.py lines 1167, 1222. -/
def percent (values : List ℕ) (size : ℕ) : List (Fl F) :=
  values.map fun v : ℕ => .fin (100 * (v : F)) / .fin (size : F)

/-- the multiplicator as a float. process/results.py lines 1135, 1162. -/
def multF : Option ℤ → Fl F
  | none => .nan
  | some m => .fin (m : F)

/-- `histogram_PRNU`, results.py lines 1127-1137. -/
def histogramPRNU : M F (HistF F) := do
  let y ← sumDiff
  let data ← lift (highPass (.plain y) 5)
  let h ← lift (histogram1288 data.img.ravel histogramQmax)
  let s ← spat false
  pure ⟨scaleBins h.bins (.fin (s.L : F) * multF data.multiplicator), countsF h.values⟩

/-- `histogram_PRNU_accumulated`, results.py lines 1153-1169. -/
def histogramPRNUAccumulated : M F (HistF F) := do
  let y ← sumDiff
  let data ← lift (highPass (.plain y) 5)
  let d ← lift (absDev data.img.ravel)
  let h ← lift (histogram1288 d histogramQmax)
  let s ← spat false
  pure ⟨scaleBins h.bins (.fin (s.L : F) * multF data.multiplicator),
    percent (accumulate h.values) d.length⟩

/-- `histogram_DSNU`, results.py lines 1185-1194. -/
def histogramDSNU : M F (HistF F) := do
  let y ← sumDark
  let h ← lift (histogram1288 (MImg.plain y).ravel histogramQmax)
  let s ← spat true
  pure ⟨(scaleBins h.bins (.fin (s.L : F))).map fun b => b - y.mean F / .fin (s.L : F), countsF h.values⟩

/-- `histogram_DSNU_accumulated`, results.py lines 1209-1224. -/
def histogramDSNUAccumulated : M F (HistF F) := do
  let y ← sumDark
  let d ← lift (absDev (MImg.plain y).ravel)
  let h ← lift (histogram1288 d histogramQmax)
  let s ← spat true
  pure ⟨scaleBins h.bins (.fin (s.L : F)), percent (accumulate h.values) d.length⟩

end Results
end Emva
