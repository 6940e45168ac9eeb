import Verif.Model.Rounded
import Verif.Model.Data

/-!
The temporal data of a whole measurement from its images, without and with the rounding of the floating point operations.

One `Shot` is one entry of the arrays of `Data1288.data['temporal']` (data.py lines 113-142): a pair of bright images, the pair of
dark images of the same exposure time, the exposure time and the photons. The grouping of the images into pairs is in
`Model/Dataset.lean` and `Model/Data.lean`; here the pairs are given. The photons are used as they are in the file: their
computation from the radiances (parser) is not part of this model.
-/
set_option autoImplicit false
namespace Emva
open Data

/-- one point of the measurement. process/data.py lines 113-142, the variables of one turn of the loops. -/
structure Shot where
  bright₁ : Img
  bright₂ : Img
  dark₁ : Img
  dark₂ : Img
  texp : ℝ
  photons : ℝ

/-- `data['temporal']` without rounding. process/data.py lines 113-155. -/
noncomputable def exactTemporal (h w : ℕ) (l : List Shot) : Temporal ℝ where
  texp := l.map Shot.texp
  u_p := l.map Shot.photons
  u_y := l.map fun s => (seriesPoint (h * w) (temporalEntry ℝ i64 [s.bright₁, s.bright₂])).1
  s2_y := l.map fun s => (seriesPoint (h * w) (temporalEntry ℝ i64 [s.bright₁, s.bright₂])).2
  u_ydark := l.map fun s => (seriesPoint (h * w) (temporalEntry ℝ i64 [s.dark₁, s.dark₂])).1
  s2_ydark := l.map fun s => (seriesPoint (h * w) (temporalEntry ℝ i64 [s.dark₁, s.dark₂])).2

/-- `data['temporal']` with every operation rounded. process/data.py lines 113-155. -/
noncomputable def Rounded.temporal {u : ℝ} (R : Rounding u) (S : RSum R) (h w : ℕ) (l : List Shot) : Temporal ℝ where
  texp := l.map Shot.texp
  u_p := l.map Shot.photons
  u_y := l.map fun s => .fin (seriesPoint R (h * w) (entry R S [s.bright₁, s.bright₂])).1
  s2_y := l.map fun s => .fin (seriesPoint R (h * w) (entry R S [s.bright₁, s.bright₂])).2
  u_ydark := l.map fun s => .fin (seriesPoint R (h * w) (entry R S [s.dark₁, s.dark₂])).1
  s2_ydark := l.map fun s => .fin (seriesPoint R (h * w) (entry R S [s.dark₁, s.dark₂])).2

end Emva
