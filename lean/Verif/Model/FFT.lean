import Verif.Py.FlReal
import Verif.Py.Err
import Verif.Model.Compress
import Mathlib.Analysis.SpecialFunctions.Complex.Circle
import Mathlib.Analysis.SpecialFunctions.Exp

/-!
Model of `routines.FFT1288` and `routines.GetFrecs` (src/emva1288/process/routines.py lines 136-182 and
245-249).  `np.fft.fft` is the exact discrete Fourier transform.
-/
set_option autoImplicit false
namespace Emva
namespace Routines
open Finset

/-- `np.fft.fft(x)[k]` for a signal of length `n`. process/routines.py line 170. -/
noncomputable def dft (n : ℕ) (x : ℕ → ℝ) (k : ℕ) : ℂ :=
  ∑ j ∈ range n, (x j : ℂ) * Complex.exp (-2 * Real.pi * Complex.I * j * k / n)

/-- `np.mean(img)` as a real number (only used for images with pixels).
process/routines.py line 169. -/
noncomputable def meanR (a : Img) : ℝ := (a.total : ℝ) / (a.size : ℝ)

/-- `fabs[i, k]`, routines.py lines 168-172: squared modulus of the DFT of row `i` of the image minus
its mean, divided by `sqrt(cols)`. -/
noncomputable def rowPower (a : Img) (i k : ℕ) : ℝ :=
  let f := dft a.w (fun j => (a.px i j : ℝ) - meanR a) k / (Real.sqrt a.w : ℂ)
  (f * (starRingEnd ℂ) f).re

/-- `r[k]`, routines.py lines 175-178: mean over the rows, divided by `n ** 2`. -/
noncomputable def power (a : Img) (n : ℕ) (k : ℕ) : Fl ℝ :=
  Fl.fin (∑ i ∈ range a.h, rowPower a i k) / Fl.fin (a.h : ℝ) / Fl.fin ((n : ℝ) ^ 2)

/-- `img.transpose()`. process/routines.py line 160. -/
def transpose (a : Img) : Img := ⟨a.w, a.h, fun i j => a.px j i⟩

/-- The arithmetic of `FFT1288` after the removal of masked entries, routines.py lines 164-182: no
columns is a `ValueError` of `np.fft.fft`. -/
noncomputable def fftPlain (a : Img) (n : ℕ) : Except PyErr (List (Fl ℝ)) :=
  if a.w = 0 then .error .valueError
  else .ok ((List.range (a.w / 2 + 1)).map (power a n))

/-- `FFT1288(img, rotate, n)` for a plain 2-D array. process/routines.py lines 159-182. -/
noncomputable def fft1288 (a : Img) (rotate : Bool) (n : ℕ) : Except PyErr (List (Fl ℝ)) :=
  fftPlain (if rotate then transpose a else a) n

/-- `FFT1288(img, rotate, n)` for a masked array whose data are in memory.
process/routines.py lines 159-182. -/
noncomputable def fft1288Masked (a : MRef) (fresh : ℕ) (mem : Mem) (rotate : Bool) (n : ℕ) :
    Except PyErr (List (Fl ℝ)) :=
  -- `transpose` of a masked array is a view with the mask transposed
  let a' : MRef := if rotate then ⟨a.w, a.h, fun i j => a.mask j i, a.addr⟩ else a
  let mem' : Mem := if rotate then fun p i j => mem p j i else mem
  fftPlain (rowWiseCompress a' fresh mem').1 n

/-- `GetFrecs(fft)` for a spectrum with `n` entries, routines.py lines 245-249. -/
def getFrecs (F : Type) [Field F] (n : ℕ) : List F :=
  (List.range n).map fun i : ℕ => (i : F) * 1 / (2 * (n : F))

end Routines
end Emva
