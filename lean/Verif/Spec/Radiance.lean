import Mathlib.Data.Real.Basic
import Mathlib.Algebra.BigOperators.Group.Finset.Basic
import Mathlib.Algebra.BigOperators.Group.List.Basic

/-!
Specification of the light model: photons on a pixel behind an aperture.
-/
set_option autoImplicit false
namespace Emva
namespace Spec

/-- Photons of wavelength `w` on a pixel of area `A` during `t` (SI units) for the radiance `L` at the
f-number `f`: the irradiance is `π·L·w / (1 + (2f)²)`, a photon has the energy `h·c / w`. -/
noncomputable def photonCount (pi hc L A t w f : ℝ) : ℝ :=
  let irradiance := pi * L * w / (1 + 4 * f ^ 2)
  irradiance * A * t / (hc / w)

/-- average over the pixels of an image -/
noncomputable def pixelMean (h w : ℕ) (u : ℕ → ℕ → ℝ) : ℝ :=
  (∑ i ∈ Finset.range h, ∑ j ∈ Finset.range w, u i j) / (h * w)

end Spec
end Emva
