import Mathlib.Algebra.Order.Field.Basic
import Mathlib.Algebra.BigOperators.Group.List.Basic
import Mathlib.Tactic.Ring
import Mathlib.Tactic.Linarith

/-!
`float64` values.  A value is finite (`fin x`, with `x` in an ordered field and exact arithmetic),
an infinity or NaN.  The rules for the special values are the IEEE-754 ones used by numpy (numpy
never raises on float division, it returns `inf`/`nan` with a warning).

Simplifications: finite arithmetic is exact (no rounding, no overflow to infinity) and there is a
single zero, treated as `+0`.
-/
set_option autoImplicit false
namespace Emva

/-- A python or numpy float, e.g. process/results.py line 222: a number, an infinity or NaN. -/
inductive Fl (F : Type*)
  | nan
  | inf (neg : Bool)
  | fin (x : F)
  deriving DecidableEq

set_option linter.unusedSectionVars false
namespace Fl
variable {F : Type*} [Field F] [LinearOrder F]

/-- IEEE addition. Used for process/results.py line 279. -/
def add : Fl F → Fl F → Fl F
  | fin a, fin b => fin (a + b)
  | nan, _ => nan
  | _, nan => nan
  | inf s, inf t => if s = t then inf s else nan
  | inf s, fin _ => inf s
  | fin _, inf s => inf s

/-- IEEE negation. Used for process/results.py line 126, as part of the subtraction. -/
def neg : Fl F → Fl F
  | fin a => fin (-a)
  | nan => nan
  | inf s => inf (!s)

/-- IEEE subtraction. Used for process/results.py line 126. -/
def sub (a b : Fl F) : Fl F := add a (neg b)

/-- IEEE multiplication (`0 * inf = nan`). Used for process/results.py line 222. -/
def mul : Fl F → Fl F → Fl F
  | fin a, fin b => fin (a * b)
  | nan, _ => nan
  | _, nan => nan
  | inf s, inf t => inf (xor s t)
  | inf s, fin b => if b = 0 then nan else inf (xor s (decide (b < 0)))
  | fin a, inf s => if a = 0 then nan else inf (xor s (decide (a < 0)))

/-- IEEE division: `0/0 = nan`, `a/0 = ±inf` (zero counted as `+0`), `a/inf = 0`.
Used for process/results.py lines 222, 467. -/
def div : Fl F → Fl F → Fl F
  | fin a, fin b => if b = 0 then (if a = 0 then nan else inf (decide (a < 0))) else fin (a / b)
  | nan, _ => nan
  | _, nan => nan
  | inf _, inf _ => nan
  | inf s, fin b => inf (xor s (decide (b < 0)))
  | fin _, inf _ => fin 0

/-- Used for process/results.py lines 222, 265, 279. -/
instance : Add (Fl F) := ⟨add⟩
/-- Used for process/results.py lines 222, 265, 279. -/
instance : Sub (Fl F) := ⟨sub⟩
/-- Used for process/results.py lines 222, 265, 279. -/
instance : Mul (Fl F) := ⟨mul⟩
/-- Used for process/results.py lines 222, 265, 279. -/
instance : Div (Fl F) := ⟨div⟩
/-- Used for process/results.py lines 222, 265, 279. -/
instance : Neg (Fl F) := ⟨neg⟩

/-- python `a < b` (False if an operand is NaN). Used for process/results.py lines 109, 248. -/
def lt : Fl F → Fl F → Bool
  | fin a, fin b => decide (a < b)
  | nan, _ => false
  | _, nan => false
  | inf s, inf t => s && !t
  | inf s, fin _ => s
  | fin _, inf t => !t

/-- python `a <= b` (False if an operand is NaN). Used for process/results.py lines 128, 512. -/
def le : Fl F → Fl F → Bool
  | fin a, fin b => decide (a ≤ b)
  | nan, _ => false
  | _, nan => false
  | inf s, inf t => s || !t
  | inf s, fin _ => s
  | fin _, inf t => !t

/-- python `a == b` (False if an operand is NaN). Used for process/routines.py line 513. -/
def eqb : Fl F → Fl F → Bool
  | fin a, fin b => decide (a = b)
  | inf s, inf t => s == t
  | _, _ => false

/-- `np.isfinite`. Used for process/plotting.py lines 303, 752. -/
def isFinite : Fl F → Bool
  | fin _ => true
  | _ => false

/-- `np.isnan`. Used for report/report.py line 243. -/
def isNan : Fl F → Bool
  | nan => true
  | _ => false

/-- `np.sum` of a 1-D array (left fold starting at `0.0`; numpy's pairwise order is irrelevant for
exact arithmetic on finite values). Used for process/results.py lines 548-552. -/
def sum (l : List (Fl F)) : Fl F := l.foldl (· + ·) (fin 0)

/-- `np.mean` of a 1-D array: the sum divided by the number of elements (`nan` for an empty
array). Used for process/plotting.py lines 181, 672. -/
def mean (l : List (Fl F)) : Fl F := sum l / fin (l.length : F)

/-- `x ** 2` / `np.square`. Used for process/results.py lines 265, 549. -/
def sq (a : Fl F) : Fl F := a * a

@[simp] theorem fin_add (a b : F) : (fin a + fin b : Fl F) = fin (a + b) := rfl
@[simp] theorem fin_neg (a : F) : (-fin a : Fl F) = fin (-a) := rfl
@[simp] theorem fin_sub (a b : F) : (fin a - fin b : Fl F) = fin (a - b) := by
  show fin (a + -b) = _
  rw [sub_eq_add_neg]
@[simp] theorem fin_mul (a b : F) : (fin a * fin b : Fl F) = fin (a * b) := rfl
theorem fin_div_def (a b : F) : (fin a / fin b : Fl F) =
    if b = 0 then (if a = 0 then nan else inf (decide (a < 0))) else fin (a / b) := rfl
theorem fin_div {a b : F} (h : b ≠ 0) : (fin a / fin b : Fl F) = fin (a / b) := by
  rw [fin_div_def, if_neg h]
theorem fin_div_zero (a : F) : (fin a / fin 0 : Fl F) =
    if a = 0 then nan else inf (decide (a < 0)) := by
  rw [fin_div_def, if_pos rfl]
@[simp] theorem zero_div_zero : (fin 0 / fin 0 : Fl F) = nan := by
  rw [fin_div_zero, if_pos rfl]
@[simp] theorem sq_fin (a : F) : sq (fin a : Fl F) = fin (a * a) := rfl
@[simp] theorem lt_fin (a b : F) : lt (fin a) (fin b) = decide (a < b) := rfl
@[simp] theorem le_fin (a b : F) : le (fin a) (fin b) = decide (a ≤ b) := rfl
@[simp] theorem eqb_fin (a b : F) : eqb (fin a) (fin b) = decide (a = b) := rfl
@[simp] theorem isFinite_fin (a : F) : isFinite (fin a) = true := rfl
@[simp] theorem isFinite_nan : isFinite (nan : Fl F) = false := rfl
@[simp] theorem isFinite_inf (s) : isFinite (inf s : Fl F) = false := rfl
@[simp] theorem nan_add (a : Fl F) : nan + a = nan := by cases a <;> rfl
@[simp] theorem add_nan (a : Fl F) : a + nan = nan := by cases a <;> rfl
@[simp] theorem nan_sub (a : Fl F) : nan - a = nan := by cases a <;> rfl
@[simp] theorem sub_nan (a : Fl F) : a - nan = nan := by cases a <;> rfl
@[simp] theorem nan_mul (a : Fl F) : nan * a = nan := by cases a <;> rfl
@[simp] theorem mul_nan (a : Fl F) : a * nan = nan := by cases a <;> rfl
@[simp] theorem nan_div (a : Fl F) : nan / a = nan := by cases a <;> rfl
@[simp] theorem div_nan (a : Fl F) : a / nan = nan := by cases a <;> rfl

theorem fin_injective : Function.Injective (fin : F → Fl F) := fun _ _ h => by cases h; rfl
@[simp] theorem fin_inj {a b : F} : (fin a : Fl F) = fin b ↔ a = b :=
  ⟨fun h => fin_injective h, fun h => h ▸ rfl⟩

theorem foldl_add_fin (l : List F) (a : F) :
    (l.map fin).foldl (· + ·) (fin a) = (fin (a + l.sum) : Fl F) := by
  induction l generalizing a with
  | nil => simp
  | cons x xs ih => simp [ih, add_assoc]

@[simp] theorem sum_fin (l : List F) : sum (l.map fin) = (fin l.sum : Fl F) := by
  simp [sum, foldl_add_fin]

theorem mean_fin (l : List F) [CharZero F] (h : l ≠ []) :
    mean (l.map fin) = (fin (l.sum / l.length) : Fl F) := by
  have : (l.length : F) ≠ 0 := by
    have := List.length_pos_of_ne_nil h
    exact_mod_cast this.ne'
  simp [mean, fin_div this]

@[simp] theorem mean_nil : mean ([] : List (Fl F)) = nan := by
  simp [mean, sum]

end Fl
end Emva
