import Verif.Py.Chars
import Verif.Model.Spectrograms
import Verif.Model.HistModel

/-!
The labels of the axes of the plots with one diagram (process/plotting.py lines 133-587) and what is drawn there.
-/
set_option autoImplicit false
namespace Emva
namespace Plots
open Results

/-- The plots with one diagram; `vertical` tells the two directions of the spectrograms apart.
process/plotting.py lines 794-807. -/
inductive Diagram : Type
  | ptc
  | snr
  | sensitivity
  | uyDark
  | linearity
  | deviation
  | spectrogramPRNU (vertical : Bool)
  | spectrogramDSNU (vertical : Bool)
  | histogramDSNU
  | histogramPRNU
  | accumulatedDSNU
  | accumulatedPRNU

/-- `xlabel`. process/plotting.py lines 135, 175, 201, 240, 311, 345, 374, 411, 444, 479, 513, 539, 562, 582. -/
def xlabel : Diagram → Str
  | .ptc => chars! r"$\mu_y - \mu_{y.dark}$ [DN]"
  | .snr => chars! r"$\mu_{p}$ [mean number of photons/pixel]"
  | .sensitivity => chars! r"$\mu_p$ [mean number of photons/pixel]"
  | .uyDark => chars! "exposure time [ns]"
  | .linearity => chars! r"$\mu_{p}$ [mean number of photons/pixel]"
  | .deviation => chars! r"$\mu_{p}$ [mean number of photons/pixel]"
  | .spectrogramPRNU _ => chars! "cycles [periods/pixel]"
  | .spectrogramDSNU false => chars! "cycles [periods/pixel]"
  | .spectrogramDSNU true => chars! "Cycles [periods/pixel]"
  | .histogramDSNU => chars! "Dark value [DN]"
  | .histogramPRNU => chars! "Deviation from the mean [DN]"
  | .accumulatedDSNU => chars! "Minimal deviation from the mean [DN]"
  | .accumulatedPRNU => chars! "Minimal deviation from the mean [%]"

/-- `ylabel`. process/plotting.py lines 136, 176, 202, 241, 312, 346, 375, 412, 445, 480, 514, 540, 563, 583. -/
def ylabel : Diagram → Str
  | .ptc => chars! r"$\sigma^2_y - \sigma^2_{y.dark}$ [DN$^2$]"
  | .snr => chars! "SNR"
  | .sensitivity => chars! r"$\mu_y - \mu_{y.dark}$ [DN]"
  | .uyDark => chars! r"$\mu_{y.dark}$ [DN]"
  | .linearity => chars! r"$\mu_y - \mu_{y.dark}$ [DN]"
  | .deviation => chars! "Linearity error LE [%]"
  | .spectrogramPRNU _ => chars! "Standard deviation and\nrelative presence of each cycle [%]"
  | .spectrogramDSNU _ => chars! "Standard deviation and\nrelative presence of each cycle [DN]"
  | .histogramDSNU => chars! "Number of pixels"
  | .histogramPRNU => chars! "Number of pixels"
  | .accumulatedDSNU => chars! "Number of pixels"
  | .accumulatedPRNU => chars! "Number of pixels"

/-- `plot(test)` of the class. process/plotting.py lines 138-595. -/
noncomputable def draw (q : LSQ ℝ) : Diagram → M ℝ (List Drawn)
  | .ptc => plotPTC q
  | .snr => plotSNR q
  | .sensitivity => plotSensitivity q
  | .uyDark => do
    let d ← plotUyDark
    pure d.1
  | .linearity => plotLinearity
  | .deviation => plotDeviation
  | .spectrogramPRNU vertical => spectrogramPRNU vertical
  | .spectrogramDSNU vertical => spectrogramDSNU vertical
  | .histogramDSNU => do
    let d ← plotHistDSNU
    pure d.1
  | .histogramPRNU => do
    let d ← plotHistPRNU
    pure d.1
  | .accumulatedDSNU => plotAccDSNU
  | .accumulatedPRNU => plotAccPRNU

end Plots
end Emva
