import Verif.Py.Rounding
import Verif.Py.Fl

/-!
float64 with its limits: numbers too large become infinite, numbers too small lose digits or vanish.

`Rounding.binary64` of `Py/Rounding.lean` is the same rounding without these limits.
-/
set_option autoImplicit false
namespace Emva
open Rounding

/-- the distance of the floats near `x`; below `2^-1022` it does not become smaller (gradual underflow).
Used for the floats of process/data.py lines 185-187. -/
noncomputable def ulp64 (x : ℝ) : ℝ := max (ulp x) (2 ^ (-1074 : ℤ))

/-- The float64 nearest to a number, infinite from `2^1024` on (after rounding with any exponent), e.g. process/data.py
lines 185-187. -/
noncomputable def f64 (x : ℝ) : Fl ℝ :=
  if (2 : ℝ) ^ (1024 : ℤ) ≤ |nearestEven (x / ulp64 x) * ulp64 x| then .inf (decide (x < 0))
  else .fin (nearestEven (x / ulp64 x) * ulp64 x)

/-- the result of an operation: the exact result (with the rules for infinities and nan) is rounded.
Used for the floats of process/data.py lines 185-187. -/
noncomputable def rounded : Fl ℝ → Fl ℝ
  | .fin x => f64 x
  | x => x

/-- `s` is a sum of the floats `l`, in some order and grouping; no number takes part in more than `d` additions.
Used for process/routines.py line 62 and process/data.py lines 305-317. -/
inductive ISumOf : List (Fl ℝ) → Fl ℝ → ℕ → Prop
  | nil : ISumOf [] (.fin 0) 0
  | one (x : Fl ℝ) : ISumOf [x] x 0
  | add {l l' : List (Fl ℝ)} {s s' : Fl ℝ} {d : ℕ} : ISumOf l s d → ISumOf l' s' d → ISumOf (l ++ l') (rounded (s + s')) (d + 1)
  | perm {l l' : List (Fl ℝ)} {s : Fl ℝ} {d : ℕ} : ISumOf l s d → l.Perm l' → ISumOf l' s d
  | depth {l : List (Fl ℝ)} {s : Fl ℝ} {d d' : ℕ} : ISumOf l s d → d ≤ d' → ISumOf l s d'

/-- A summation of floats: `np.sum`, whose order is not specified.
Used for process/routines.py line 62 and process/data.py lines 305-317. -/
structure ISum where
  sum : List (Fl ℝ) → Fl ℝ
  depth : ℕ → ℕ
  spec : ∀ l, ISumOf l (sum l) (depth l.length)

/-- the sum from left to right. Used for process/routines.py line 62. -/
noncomputable def leftISum : List (Fl ℝ) → Fl ℝ
  | [] => .fin 0
  | x :: l => l.foldl (fun s y => rounded (s + y)) x

theorem leftISum_spec (l : List (Fl ℝ)) : ISumOf l (leftISum l) (l.length - 1) := by
  cases l with
  | nil => exact .nil
  | cons x l =>
    have key : ∀ (l pre : List (Fl ℝ)) (s : Fl ℝ) (d : ℕ), ISumOf pre s d →
        ISumOf (pre ++ l) (l.foldl (fun s y => rounded (s + y)) s) (d + l.length) := by
      intro l
      induction l with
      | nil => intro pre s d h; simpa using h
      | cons y l ih =>
        intro pre s d h
        have := ih (pre ++ [y]) (rounded (s + y)) (d + 1) (.add h ((ISumOf.one y).depth (Nat.zero_le d)))
        rw [List.append_assoc] at this
        simpa [Nat.add_assoc, Nat.add_comm 1] using this
    have := key l [x] x 0 (.one x)
    rw [Nat.zero_add] at this
    exact this

/-- `sum()` of Python. Used for process/routines.py line 62. -/
noncomputable def ISum.left : ISum := ⟨leftISum, fun n => n - 1, leftISum_spec⟩

end Emva
