import Verif.Py.MImg

/-!
Model of `routines.Histogram1288` (src/emva1288/process/routines.py lines 252-302).
The `model` entry of the result (a normal density drawn as a line) is in HistModel.lean.
-/
set_option autoImplicit false
namespace Emva
namespace Routines

/-- The returned dictionary: lower bin edges and counts (as integers; the edges become floats).
process/routines.py line 302. -/
structure Hist where
  bins : List ℤ
  values : List ℕ
  deriving DecidableEq

/-- `np.min` of integers. process/routines.py line 255. -/
def minZ : List ℤ → Option ℤ
  | [] => none
  | x :: l => some (l.foldl min x)

/-- `np.max` of integers. process/routines.py line 256. -/
def maxZ : List ℤ → Option ℤ
  | [] => none
  | x :: l => some (l.foldl max x)

/-- `np.histogram(y, B)[0]` for increasing edges: bin `k` is `[B_k, B_(k+1))`, the last one is closed.
`np.histogram` converts its argument with `np.asarray`, so masked elements are counted too.
process/routines.py line 300. -/
def npHistogram (y : List ℤ) : List ℤ → List ℕ
  | [] => []
  | [_] => []
  | [a, b] => [y.countP fun v => decide (a ≤ v ∧ v ≤ b)]
  | a :: b :: t => (y.countP fun v => decide (a ≤ v ∧ v < b)) :: npHistogram y (b :: t)

/-- The bin width, routines.py lines 259-268 (`Qmax` at least one). -/
def binWidth (q Qmax : ℕ) : ℕ := if q + 1 > Qmax then q / Qmax + 1 else 1

/-- The number of bins, routines.py lines 261-268. -/
def binCount (q Qmax : ℕ) : ℕ := if q + 1 > Qmax then q / (binWidth q Qmax) + 1 else q + 1

/-- `Histogram1288(img, Qmax)` from the flattened image, routines.py lines 252-302.
`ymin` and `ymax` skip masked elements.  An empty array: `np.min` raises `ValueError`.  Everything
masked: `ymin`, `Q` are the masked constant and `range(Q + 1)` raises `TypeError`.  `Qmax = 0`:
`q / 0` is `inf` or `nan` and `int(...)` raises `OverflowError` or `ValueError`. -/
def histogram1288 (y : List (ℤ × Bool)) (Qmax : ℕ) : Except PyErr Hist :=
  if y = [] then .error .valueError
  else
    let vis := (y.filter fun p => !p.2).map Prod.fst
    match minZ vis, maxZ vis with
    | some ymin, some ymax =>
      let q := (ymax - ymin).toNat
      if Qmax = 0 then .error (if q = 0 then .valueError else .overflowError)
      else
        let W := binWidth q Qmax
        let Q := binCount q Qmax
        let B := (List.range (Q + 1)).map fun i : ℕ => ymin + (i : ℤ) * (W : ℤ)
        .ok ⟨B.dropLast, npHistogram (y.map Prod.fst) B⟩
    | _, _ => .error .typeError

end Routines
end Emva
