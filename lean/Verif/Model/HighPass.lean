import Verif.Model.Histogram

/-!
Model of `routines.high_pass_filter` (src/emva1288/process/routines.py lines 623-716).
`scipy.ndimage.convolve` computes in float64 and stores int64; here exactly.
-/
set_option autoImplicit false
namespace Emva
namespace Routines
open Finset

/-- Index of `scipy.ndimage` mode `reflect` (`d c b a | a b c d | d c b a`) for a side of length `n`.
process/routines.py lines 696, 709, 715. -/
def reflect (n : ℕ) (k : ℤ) : ℕ :=
  let m := (k % (2 * n : ℤ)).toNat
  if m < n then m else 2 * n - 1 - m

/-- `scipy.ndimage.convolve(img, kernel)` for a `dim x dim` kernel with odd `dim`.
process/routines.py lines 696, 709, 715. -/
def convolve (h w : ℕ) (px : ℕ → ℕ → ℤ) (dim : ℕ) (kernel : ℕ → ℕ → ℤ) (i j : ℕ) : ℤ :=
  ∑ a ∈ range dim, ∑ b ∈ range dim,
    kernel a b * px (reflect h ((i : ℤ) + (dim / 2 : ℕ) - a)) (reflect w ((j : ℤ) + (dim / 2 : ℕ) - b))

/-- The kernel: -1 everywhere, `centre` in the middle, routines.py lines 703-704 and 712-713. -/
def hpKernel (sl : ℕ) (centre : ℤ) (a b : ℕ) : ℤ := if a = sl ∧ b = sl then centre else -1

/-- number of rows (columns) left by the slice `[sl:-sl]`; `[0:-0]` is `[0:0]`, empty.
process/routines.py lines 698, 710, 715. -/
def cutLen (n sl : ℕ) : ℕ := if sl = 0 then 0 else n - 2 * sl

/-- `a[sl:-sl, sl:-sl]`, routines.py lines 696, 708, 714. -/
def cut (sl : ℕ) (a : MImg) : MImg where
  h := cutLen a.h sl
  w := cutLen a.w sl
  px := fun i j => a.px (i + sl) (j + sl)
  mask := a.mask.map fun m i j => m (i + sl) (j + sl)

/-- The returned dictionary; `multiplicator = none` is NaN (only when every interior pixel is
masked). process/routines.py line 716. -/
structure Filtered where
  img : MImg
  multiplicator : Option ℤ

/-- `high_pass_filter(img, dim)`, routines.py lines 623-716. -/
def highPass (img : MImg) (dim : ℕ) : Except PyErr Filtered :=
  if dim % 2 = 0 then .error .valueError
  else
    let sl := dim / 2
    match img.mask with
    | some m =>
      -- number of unmasked pixels below the kernel, lines 683-696
      let value : ℕ → ℕ → ℤ := convolve img.h img.w (fun i j => if m i j then 0 else 1) dim fun _ _ => 1
      let inner := (cut sl ⟨img.h, img.w, value, some m⟩).ravel
      if inner = [] then .error .valueError
      else match maxZ ((inner.filter fun p => !p.2).map Prod.fst),
          minZ ((inner.filter fun p => !p.2).map Prod.fst) with
        | some hi, some lo =>
          if hi ≠ lo then .error .valueError
          else
            -- lines 703-708
            let c := convolve img.h img.w img.filled0 dim (hpKernel sl (hi - 1))
            .ok ⟨cut sl ⟨img.h, img.w, c, some m⟩, some (hi - 1 + 1)⟩
        | _, _ =>
          -- everything masked: the kernel centre is NaN; all values of the result are masked
          .ok ⟨cut sl ⟨img.h, img.w, fun _ _ => 0, some m⟩, none⟩
    | none =>
      let c := convolve img.h img.w img.px dim (hpKernel sl ((dim : ℤ) ^ 2 - 1))
      .ok ⟨cut sl ⟨img.h, img.w, c, none⟩, some ((dim : ℤ) ^ 2 - 1 + 1)⟩

end Routines
end Emva
