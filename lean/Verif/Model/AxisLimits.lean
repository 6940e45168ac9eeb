import Verif.Model.Profiles
import Verif.Model.Plots

/-!
Model of the limits of the axes of the profile plots and of the SNR plot, process/plotting.py lines 245-247,
276, 303, 600-605, 669-679, 746-755 and 779-784.  The ticks are left out.  matplotlib widens the limits when both
are equal; this is left out too.
-/
set_option autoImplicit false
set_option linter.unusedSectionVars false
namespace Emva

namespace Py
variable {F : Type} [Field F] [LinearOrder F]

/-- python's `min(l)` of floats: an element replaces the one found so far if it is less; `ValueError` without
elements. process/plotting.py lines 752, 754, 782, 784. -/
def flMin : List (Fl F) → Except PyErr (Fl F)
  | [] => .error .valueError
  | x :: l => .ok (l.foldl (fun m y => if Fl.lt y m then y else m) x)

/-- python's `max(l)`. process/plotting.py lines 753, 755, 783, 785. -/
def flMax : List (Fl F) → Except PyErr (Fl F)
  | [] => .error .valueError
  | x :: l => .ok (l.foldl (fun m y => if Fl.lt m y then y else m) x)

/-- `ax.axis(ymin=lo, ymax=hi)` and `ax.set_ylim(lo, hi)`: limits that are not finite are a `ValueError`.
process/plotting.py lines 303, 532, 555, 752-755, 782-785. -/
def setAxis : Fl F → Fl F → Except PyErr (F × F)
  | .fin lo, .fin hi => .ok (lo, hi)
  | _, _ => .error .valueError

end Py

namespace Profiles
open Py
variable {F : Type} [Field F] [LinearOrder F]

/-- `self.axis_limits`, plotting.py lines 604-605: the lists `min` and `max` of one axis (the list `length` is
not used) -/
structure Limits (F : Type) where
  min : List (Fl F)
  max : List (Fl F)

/-- `get_profiles(bright, dark)`, plotting.py lines 669-679: the profiles and the lists of limits afterwards.
(`np.mean` of a profile without a value is not a number, for a masked array the constant `masked`; both lose
every comparison and are rejected as a limit.) -/
def getProfiles (vertical : Bool) (bright dark : FImg F) (lim : Limits F × Limits F) :
    Except PyErr ((Set4 F × Set4 F) × (Limits F × Limits F)) := do
  let b ← imageProfiles vertical bright
  let b_mean := Fl.mean (b.mean.2.map .fin)
  let lb : Limits F := ⟨lim.1.min ++ [.fin (9 / 10) * b_mean], lim.1.max ++ [.fin (11 / 10) * b_mean]⟩
  let d ← imageProfiles vertical dark
  let ld : Limits F := ⟨lim.2.min ++ [.fin (9 / 10) * Fl.mean (d.min.2.map .fin)],
    lim.2.max ++ [.fin (11 / 10) * Fl.mean (d.max.2.map .fin)]⟩
  pure ((b, d), (lb, ld))

/-- What a profile plot reads of a test: `spatial['sum']`, `spatial['sum_dark']`, `spatial['L']`.
process/plotting.py lines 694-696. -/
structure Test where
  sum : MImg
  dark : MImg
  L : ℕ

/-- `plot(test)`, plotting.py lines 681-724, with the lists of limits -/
def plotTest (vertical : Bool) (t : Test) (lim : Limits F × Limits F) :
    Except PyErr ((List (String × Line F) × List (String × Line F)) × (Limits F × Limits F)) := do
  let (p, lim) ← getProfiles vertical (brightImg t.sum t.dark t.L) (darkImg t.dark t.L) lim
  pure ((lines vertical p.1, lines vertical p.2), lim)

/-- the tests one after the other, plotting.py lines 869-870 -/
def plotTests (vertical : Bool) : List Test → Limits F × Limits F →
    Except PyErr (List (List (String × Line F) × List (String × Line F)) × (Limits F × Limits F))
  | [], lim => .ok ([], lim)
  | t :: ts, lim => do
    let (l, lim) ← plotTest vertical t lim
    let (ls, lim) ← plotTests vertical ts lim
    pure (l :: ls, lim)

/-- `rearrange()`, plotting.py lines 746-755 and 779-788: the limits of the bright and of the dark axis (of
the y axis for horizontal, of the x axis for vertical profiles) -/
def rearrange (lim : Limits F × Limits F) : Except PyErr ((F × F) × (F × F)) := do
  let a ← flMin lim.1.min
  let b ← flMax lim.1.max
  let bright ← setAxis a b
  let c ← flMin lim.2.min
  let d ← flMax lim.2.max
  let dark ← setAxis c d
  pure (bright, dark)

/-- The finished figure of a profile plot: the lines of each test and the limits of the two axes.
process/plotting.py lines 681-729, 750-759, 780-790. -/
def figure (vertical : Bool) (ts : List Test) :
    Except PyErr (List (List (String × Line F) × List (String × Line F)) × ((F × F) × (F × F))) := do
  let (ls, lim) ← plotTests vertical ts (⟨[], []⟩, ⟨[], []⟩)
  let axes ← rearrange lim
  pure (ls, axes)

end Profiles

namespace Plots
open Results Py
variable (q : LSQ ℝ)

/-- `PlotSNR.plot` with the limits of the y axis, plotting.py lines 249-304: `tops` is `self.max_ideal`.  The
range `X` is computed once more. -/
noncomputable def plotSNRAxis (tops : List (Fl ℝ)) : M ℝ (List Drawn × List (Fl ℝ) × (ℝ × ℝ)) := do
  let d ← plotSNR q
  let a ← uPMin q
  let b ← uPSat
  let X ← lift (Np.arange a b ((b - a) / .fin 100))
  let t ← lift (Np.idx (X.map Fl.sqrt) (-1))
  let top ← lift (flMax (tops ++ [t]))
  let ax ← lift (setAxis (.fin 1) top)
  pure (d, tops ++ [t], ax)

end Plots
end Emva
