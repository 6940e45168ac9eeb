import Verif.Py.Fl
import Verif.Py.Err
import Mathlib.Data.List.Basic
import Mathlib.Data.Int.Notation

/-!
1-D numpy arrays: element-wise operations with broadcasting, indexing, slices, `np.argwhere`,
`np.min`, `np.max`, `np.unique`.
-/
set_option autoImplicit false
set_option linter.unusedSectionVars false
namespace Emva
namespace Np
variable {F : Type} [Field F] [LinearOrder F] {α β γ : Type*}

/-- Element-wise binary operation on 1-D arrays with numpy broadcasting: equal lengths, or one of the
arrays has length one; otherwise `ValueError`.
Used for process/results.py lines 126, 158, 184-185. -/
def bin (op : α → β → γ) (a : List α) (b : List β) : Except PyErr (List γ) :=
  if a.length = b.length then .ok (List.zipWith op a b)
  else match a, b with
    | [x], b => .ok (b.map (op x))
    | a, [y] => .ok (a.map (op · y))
    | _, _ => .error .valueError

/-- `a[i]` for a python integer `i` (negative indices count from the end).
Used for process/results.py lines 127, 239, 343. -/
def idx (a : List α) (i : ℤ) : Except PyErr α :=
  let j := if i < 0 then i + a.length else i
  if j < 0 then .error .indexError
  else match a[j.toNat]? with
    | some x => .ok x
    | none => .error .indexError

/-- `a[i:j]` for `0 ≤ i`, `0 ≤ j`. Used for process/results.py lines 161-164, 545-546. -/
def slice (a : List α) (i j : ℕ) : List α := (a.take j).drop i

/-- `np.argwhere(mask)` for a 1-D condition: the indices where it holds, increasing.
Used for process/results.py lines 128, 497, 512. -/
def argwhere (p : α → Bool) (a : List α) : List ℕ :=
  (List.range a.length).filter fun i => (a[i]?.map p).getD false

/-- python `max(...)` of a list of integers: `ValueError` when empty.
Used for process/results.py lines 128, 512. -/
def maxI : List ℕ → Except PyErr ℕ
  | [] => .error .valueError
  | x :: l => .ok (l.foldl max x)

/-- python `min(...)`. Used for process/results.py line 497. -/
def minI : List ℕ → Except PyErr ℕ
  | [] => .error .valueError
  | x :: l => .ok (l.foldl min x)

/-- `np.minimum` on floats (NaN propagates). Used for process/results.py line 566. -/
def fmin (a b : Fl F) : Fl F :=
  if a.isNan || b.isNan then .nan else if Fl.le a b then a else b

/-- `np.maximum` on floats (NaN propagates). Used for process/results.py line 567. -/
def fmax (a b : Fl F) : Fl F :=
  if a.isNan || b.isNan then .nan else if Fl.le a b then b else a

/-- `np.min(a)`: `ValueError` for an empty array. Used for process/results.py line 566. -/
def amin : List (Fl F) → Except PyErr (Fl F)
  | [] => .error .valueError
  | x :: l => .ok (l.foldl fmin x)

/-- `np.max(a)`. Used for process/results.py line 567. -/
def amax : List (Fl F) → Except PyErr (Fl F)
  | [] => .error .valueError
  | x :: l => .ok (l.foldl fmax x)

/-- `len(np.unique(a))` for finite values. Used for process/results.py lines 238, 614, 661. -/
def nUnique (a : List F) : ℕ := a.dedup.length

end Np
end Emva
