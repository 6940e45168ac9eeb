import Verif.Model.Results
import Verif.Lemmas.Results

/-!
Specification for C100: results that can be those of a camera.
-/
set_option autoImplicit false
namespace Emva
namespace Spec
open Results

/-- a finite number above zero -/
def Positive (x : Except PyErr (Fl ℝ)) : Prop := ∃ v : ℝ, x = .ok (.fin v) ∧ 0 < v

/-- a finite number -/
def IsFinite (x : Except PyErr (Fl ℝ)) : Prop := ∃ v : ℝ, x = .ok (.fin v)

/-- The figures of the datasheet that are quantities of photons, electrons, digital numbers or ratios of them are positive
numbers, and the logarithmic ones are numbers. -/
structure Plausible (q : LSQ ℝ) (r : Res ℝ) : Prop where
  inverseK : Positive (val (inverseK q) r)
  QE : Positive (val (QE q) r)
  sigmaYDark : Positive (val (sigmaYDark q) r)
  sigmaD : Positive (val (sigmaD q) r)
  uPMin : Positive (val (uPMin q) r)
  uEMin : Positive (val (uEMin q) r)
  uPSat : Positive (val uPSat r)
  uESat : Positive (val (uESat q) r)
  SNRMax : Positive (val (SNRMax q) r)
  inverseSNRMax : Positive (val (inverseSNRMax q) r)
  DR : Positive (val (DR q) r)
  SNRMaxDB : IsFinite (val (SNRMaxDB q) r)
  SNRMaxBit : IsFinite (val (SNRMaxBit q) r)
  DRDB : IsFinite (val (DRDB q) r)

/-- `leastsq` begins at 1 (routines.py line 86) and stays there if the gradient of the error is zero everywhere, as it is
when all the abscissas are zero. -/
def KeepsStart (q : LSQ ℝ) : Prop :=
  ∀ X Y : List ℝ, X.length = Y.length → X ≠ [] → (∀ x ∈ X, x = 0) → q.b0 (X.map .fin) (Y.map .fin) = .fin 1

end Spec
end Emva
