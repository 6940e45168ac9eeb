import Verif.Spec.Units
import Verif.Spec.Loader

/-!
Specification for C80: how the results depend on the units of the photon counts, of the exposure times and of the
pixel area.
-/
set_option autoImplicit false
namespace Emva
namespace Spec
open Results Py

/-- The same measurement with the photon counts, the exposure times and the pixel area in other units (one photon is
`a` new units of light, one nanosecond `b` new units of time, one square micrometre `c` new units of area). -/
noncomputable def inUnits (a b c : ℝ) (r : Res ℝ) : Res ℝ :=
  { r with
    temporal := { r.temporal with u_p := r.temporal.u_p.map (a * ·), texp := r.temporal.texp.map (b * ·) }
    spatial := { r.spatial with u_p := a * r.spatial.u_p, texp := b * r.spatial.texp }
    pixel_area := r.pixel_area.map (c * ·) }

/-- The descriptor in other units: the files of exposure time `e` and photon count `p` are listed under `b * e` and
`a * p`, in any order. -/
structure Relabelled {V : Type} (a b : ℝ) (d d' : Dict ℝ (Dict ℝ V)) : Prop where
  keys : ∀ e, e ∈ Dict.keys d ↔ b * e ∈ Dict.keys d'
  files : ∀ e p, get2 d' (b * e) (a * p) = get2 d e p

/-- The powers of the units of light, time and area in the unit of a result. -/
def units : Attr → ℤ × ℤ × ℤ
  | .R | .QE | .linearity => (-1, 0, 0)
  | .u_p_min | .u_p_sat => (1, 0, 0)
  | .u_p_min_area | .u_p_sat_area => (1, 0, -1)
  | .u_e_min_area | .u_e_sat_area => (0, 0, -1)
  | .u_I_var_DN | .u_I_var | .u_I_mean_DN | .u_I_mean => (0, -1, 0)
  | _ => (0, 0, 0)

/-- The factor by which a result is multiplied. -/
noncomputable def factor (a b c : ℝ) (x : Attr) : ℝ := a ^ (units x).1 * b ^ (units x).2.1 * c ^ (units x).2.2

/-- A result in the new units: a number is multiplied, of the linearity dictionary only the slope is (the offset is a
signal, the deviations are in percent). -/
noncomputable def rescale (k : ℝ) : Value → Value
  | .num (.num x) => .num (.num (scale k x))
  | .lin l => .lin { l with fit_slope := scale k l.fit_slope }
  | v => v

end Spec
end Emva
