import Verif.Spec.Loader
import Mathlib.Algebra.Field.Basic

/-!
What the temporal arrays and the spatial statistics must contain, stated on the loaded dictionary.
-/
set_option autoImplicit false
namespace Emva.Spec
open Emva Py
variable {F : Type} [Field F] [LinearOrder F] {V : Type*}

/-- `pts` lists every bright series `(exposure, photons, data)` exactly once, by increasing exposure
and, within an exposure, by increasing photon count.  There is only one such list. -/
structure Bright (d : Dict F (Dict F V)) (pts : List (F × F × V)) : Prop where
  mem : ∀ e p v, (e, p, v) ∈ pts ↔ p ≠ 0 ∧ get2 d e p = some v
  sorted : pts.Pairwise fun a b => a.1 < b.1 ∨ (a.1 = b.1 ∧ a.2.1 < b.2.1)

/-- `ds` lists every dark series `(exposure, data)` exactly once, by increasing exposure. -/
structure Dark (d : Dict F (Dict F V)) (ds : List (F × V)) : Prop where
  mem : ∀ e v, (e, v) ∈ ds ↔ get2 d e 0 = some v
  sorted : ds.Pairwise fun a b => a.1 < b.1

/-- Every exposure has a dark series and at least one other series. -/
def Paired (d : Dict F (Dict F V)) : Prop :=
  ∀ e i, Dict.get? d e = some i →
    (∃ v, Dict.get? i 0 = some v) ∧ ∃ p v, p ≠ 0 ∧ Dict.get? i p = some v

/-- No negative photon count. -/
def NonNegPhotons (d : Dict F (Dict F V)) : Prop := ∀ e p v, get2 d e p = some v → 0 ≤ p

/-- Exactly one exposure `e`, and it has exactly two series: the dark one and one with photon count
`p`. -/
def OnePair (d : Dict F (Dict F V)) (e p : F) (dark bright : V) : Prop :=
  p ≠ 0 ∧ Dict.keys d = [e] ∧ ∀ p' v, get2 d e p' = some v ↔
    (p' = 0 ∧ v = dark) ∨ (p' = p ∧ v = bright)

end Emva.Spec
