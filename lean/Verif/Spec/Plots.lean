import Mathlib.Analysis.SpecialFunctions.Sqrt
import Mathlib.Data.List.Basic

/-!
Signal to noise ratios of the EMVA 1288 linear camera model.
-/
set_option autoImplicit false
namespace Emva
namespace Snr

/-- SNR of a camera with quantum efficiency `η` and dark noise variance `v` (in electrons) at `x`
photons, photon noise and dark noise -/
noncomputable def camera (η v x : ℝ) : ℝ := η * x / Real.sqrt (v + η * x)

/-- the same with the non-uniformities: `d` electrons in the dark, a relative `p` of the signal -/
noncomputable def total (η v d p x : ℝ) : ℝ := η * x / Real.sqrt (v + η * x + d ^ 2 + (p * (η * x)) ^ 2)

/-- SNR of the ideal camera, limited by the photon noise -/
noncomputable def ideal (x : ℝ) : ℝ := Real.sqrt x

end Snr
end Emva
