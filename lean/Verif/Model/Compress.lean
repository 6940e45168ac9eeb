import Verif.Py.MImg

/-!
Model of `routines._row_wise_compress` (src/emva1288/process/routines.py lines 185-212, defined again
with the same text in lines 215-242).

The function works in place, so the model has a memory: data buffers by address.  The caller's array
has its data at some address; `img.copy()` allocates a new buffer; `np.ma.getdata(img)` is a view of
the copy and the iteration `for line in img` reads rows of the same buffer while it is overwritten.
-/
set_option autoImplicit false
namespace Emva
namespace Routines

/-- Data buffers by address.
process/routines.py lines 221-223, the arrays `img` and `compressed`. -/
abbrev Mem := ℕ → ℕ → ℕ → ℤ

/-- A masked array: shape, mask and the address of its data.
process/routines.py line 215, the argument. -/
structure MRef where
  h : ℕ
  w : ℕ
  mask : ℕ → ℕ → Bool
  addr : ℕ

/-- `img.copy()`: a new buffer at the address `fresh`. process/routines.py line 221. -/
def copyArr (a : MRef) (fresh : ℕ) (mem : Mem) : MRef × Mem :=
  ({ a with addr := fresh }, fun p => if p = fresh then mem a.addr else mem p)

/-- `line.compressed()` for row `i`: the unmasked values of the row, a copy.
process/routines.py line 231. -/
def rowCompressed (a : MRef) (mem : Mem) (i : ℕ) : List ℤ :=
  ((List.range a.w).filter fun j => !a.mask i j).map fun j => mem a.addr i j

/-- `compressed[r, :line.size] = line`. process/routines.py line 236. -/
def writeRow (addr r : ℕ) (line : List ℤ) (mem : Mem) : Mem := fun p i j =>
  if p = addr ∧ i = r then (line[j]?).getD (mem p i j) else mem p i j

/-- local variables of the loop.
process/routines.py lines 223-240, `compressed`, `lines`, `cols`. -/
structure CState where
  mem : Mem
  lines : ℕ
  cols : ℕ

/-- One turn of the loop, routines.py lines 199-210. -/
def compressStep (a : MRef) (s : CState) (i : ℕ) : CState :=
  let line := rowCompressed a s.mem i
  if line.length = 0 then s
  else ⟨writeRow a.addr s.lines line s.mem, s.lines + 1, min s.cols line.length⟩

/-- `_row_wise_compress(img)`: the returned array (a view: the data at the address of the copy, cut to
`lines` rows and `cols` columns) and the memory afterwards. process/routines.py lines 215-242. -/
def rowWiseCompress (img : MRef) (fresh : ℕ) (mem : Mem) : Img × Mem :=
  let (a, mem) := copyArr img fresh mem
  let s := (List.range a.h).foldl (compressStep a) ⟨mem, 0, a.w⟩
  (⟨s.lines, s.cols, s.mem a.addr⟩, s.mem)

end Routines
end Emva
