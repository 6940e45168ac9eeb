import Verif.Py.Array1

/-!
Model of `routines.LinearB0` and `routines.LinearB` (src/emva1288/process/routines.py lines 72-123).

`scipy.optimize.leastsq` is external: a solver is a parameter `q : LSQ F`, and `LSQ.Good q` is what is
assumed about it: on finite data with at least as many points as parameters it returns a minimiser of
the sum of squares of the residual function it is given.  (On exact arithmetic a linear least squares
problem is solved by one Levenberg-Marquardt step; rounding and the iteration tolerance are not
modelled.)
-/
set_option autoImplicit false
set_option linter.unusedSectionVars false
namespace Emva
variable {F : Type} [Field F] [LinearOrder F]

/-- The residual function `e` of `LinearB0` on finite data, routines.py lines 77-82:
`x * v[0] - y`. -/
def residB0 (m : F) (X Y : List F) : List F := List.zipWith (fun x y => x * m - y) X Y

/-- The residual function `e` of `LinearB` on finite data, routines.py lines 106-111:
`x * v[0] + v[1] - y`. -/
def residB (m b : F) (X Y : List F) : List F := List.zipWith (fun x y => x * m + b - y) X Y

/-- The solver `leastsq` applied to these two residual functions with the arrays `X`, `Y`.
process/routines.py lines 88, 117. -/
structure LSQ (F : Type) where
  b0 : List (Fl F) → List (Fl F) → Fl F
  b : List (Fl F) → List (Fl F) → Fl F × Fl F

/-- sum of squares. process/routines.py lines 88, 117: what `leastsq` minimises. -/
def sumSq (l : List F) : F := (l.map fun r => r ^ 2).sum

/-- The assumption about `leastsq`. process/routines.py lines 88, 117. -/
structure LSQ.Good (q : LSQ F) : Prop where
  b0 : ∀ X Y : List F, X.length = Y.length → 1 ≤ X.length →
    ∃ m, q.b0 (X.map .fin) (Y.map .fin) = .fin m ∧
      ∀ m', sumSq (residB0 m X Y) ≤ sumSq (residB0 m' X Y)
  b : ∀ X Y : List F, X.length = Y.length → 2 ≤ X.length →
    ∃ m c, q.b (X.map .fin) (Y.map .fin) = (.fin m, .fin c) ∧
      ∀ m' c', sumSq (residB m c X Y) ≤ sumSq (residB m' c' X Y)

/-- `LinearB0(X, Y)[0][0]`, routines.py lines 72-98.  `leastsq` raises `TypeError` when the residual
vector is shorter than the parameter vector.  (The second component, the fit error, is
`linearB0Err` in `Model/FitErr.lean`; the results do not use it.) -/
def linearB0 (q : LSQ F) (X Y : List (Fl F)) : Except PyErr (Fl F) :=
  match Np.bin (fun x y => x * .fin 1 - y) X Y with
  | .error e => .error e
  | .ok r => if r.length < 1 then .error .typeError else .ok (q.b0 X Y)

/-- `LinearB(X, Y)[0]`, routines.py lines 101-123. -/
def linearB (q : LSQ F) (X Y : List (Fl F)) : Except PyErr (Fl F × Fl F) :=
  match Np.bin (fun x y => x * .fin 1 + .fin 1 - y) X Y with
  | .error e => .error e
  | .ok r => if r.length < 2 then .error .typeError else .ok (q.b X Y)

/-- the finite values of an array, if all are finite. process/routines.py lines 73-74, 102-103. -/
def finite? : List (Fl F) → Option (List F)
  | [] => some []
  | .fin x :: l => (finite? l).map (x :: ·)
  | _ :: _ => none

/-- A solver by the normal equations (used to show that `LSQ.Good` can be met, and in examples).
process/routines.py lines 88, 117. -/
def exactLSQ (F : Type) [Field F] [LinearOrder F] : LSQ F where
  b0 := fun X Y => match finite? X, finite? Y with
    | some x, some y =>
      .fin ((List.zipWith (· * ·) x y).sum / (x.map fun a => a * a).sum)
    | _, _ => .nan
  b := fun X Y => match finite? X, finite? Y with
    | some x, some y =>
      let n : F := x.length
      let d := n * (x.map fun a => a * a).sum - x.sum * x.sum
      let m := (n * (List.zipWith (· * ·) x y).sum - x.sum * y.sum) / d
      (.fin m, .fin ((y.sum - m * x.sum) / n))
    | _, _ => (.nan, .nan)

end Emva
