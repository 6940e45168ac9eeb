import Verif.Py.Str

/-!
The docstrings of the methods and properties of `Results1288` (process/results.py), transcribed by
tools/gen_template.py.  The entries that python adds to the dictionary of a class (`__module__`,
`__dict__`, `__weakref__`, `__doc__`) are left out: their docstrings are those of built-in types and
have no `emva1288` block.
-/
set_option autoImplicit false
set_option maxRecDepth 20000
namespace Emva
namespace Report

/-- process/results.py lines 34-51 -/
def doc_init : Str := ['R', 'e', 's', 'u', 'l', 't', 's', ' ', 'c', 'o', 'm', 'p', 'u', 't', 'a', 't', 'i', 'o', 'n', ' ', 'i', 'n', 'i', 't', ' ', 'm', 'e', 't', 'h', 'o', 'd', '.', '\n', '\n', ' ', ' ', ' ', ' ', ' ', ' ', ' ', ' ', 'T', 'h', 'i', 's', ' ', 'c', 'l', 'a', 's', 's', ' ', 'u', 's', 'e', 's', ' ', 'a', ' ', ':', 'c', 'l', 'a', 's', 's', ':', '`', 'p', 'y', 't', 'h', 'o', 'n', ':', 'l', 'o', 'g', 'g', 'i', 'n', 'g', '.', 'L', 'o', 'g', 'g', 'e', 'r', '`', ' ', 'o', 'b', 'j', 'e', 'c', 't', ' ', 't', 'o', ' ', 'd', 'i', 's', 'p', 'l', 'a', 'y', '\n', ' ', ' ', ' ', ' ', ' ', ' ', ' ', ' ', 'i', 'n', 'f', 'o', 'r', 'm', 'a', 't', 'i', 'o', 'n', 's', ' ', 'f', 'o', 'r', ' ', 'u', 's', 'e', 'r', 's', '.', '\n', '\n', ' ', ' ', ' ', ' ', ' ', ' ', ' ', ' ', 'P', 'a', 'r', 'a', 'm', 'e', 't', 'e', 'r', 's', '\n', ' ', ' ', ' ', ' ', ' ', ' ', ' ', ' ', '-', '-', '-', '-', '-', '-', '-', '-', '-', '-', '\n', ' ', ' ', ' ', ' ', ' ', ' ', ' ', ' ', 'd', 'a', 't', 'a', ' ', ':', ' ', 'd', 'i', 'c', 't', '\n', ' ', ' ', ' ', ' ', ' ', ' ', ' ', ' ', ' ', ' ', ' ', ' ', ' ', ' ', ' ', 'T', 'h', 'e', ' ', 'd', 'a', 't', 'a', ' ', 'd', 'i', 'c', 't', 'i', 'o', 'n', 'a', 'r', 'y', ' ', 't', 'o', ' ', 'c', 'o', 'm', 'p', 'u', 't', 'e', ' ', 't', 'h', 'e', ' ', 'r', 'e', 's', 'u', 'l', 't', 's', ' ', 'f', 'r', 'o', 'm', '.', '\n', ' ', ' ', ' ', ' ', ' ', ' ', ' ', ' ', 'p', 'i', 'x', 'e', 'l', '_', 'a', 'r', 'e', 'a', ' ', ':', ' ', 'f', 'l', 'o', 'a', 't', ',', ' ', 'o', 'p', 't', 'i', 'o', 'n', 'a', 'l', '\n', ' ', ' ', ' ', ' ', ' ', ' ', ' ', ' ', ' ', ' ', ' ', ' ', ' ', ' ', ' ', ' ', ' ', ' ', ' ', ' ', ' ', 'T', 'h', 'e', ' ', 'a', 'r', 'e', 'a', ' ', 'o', 'f', ' ', 'o', 'n', 'e', ' ', 'p', 'i', 'x', 'e', 'l', ' ', 'i', 'n', ' ', 'u', 'm', '^', '2', '.', '\n', ' ', ' ', ' ', ' ', ' ', ' ', ' ', ' ', 'i', 'n', 'd', 'e', 'x', '_', 'u', '_', 'y', 's', 'a', 't', ' ', ':', ' ', 'i', 'n', 't', ',', ' ', 'o', 'p', 't', 'i', 'o', 'n', 'a', 'l', '\n', ' ', ' ', ' ', ' ', ' ', ' ', ' ', ' ', ' ', ' ', ' ', ' ', ' ', ' ', ' ', ' ', ' ', ' ', ' ', ' ', ' ', ' ', ' ', 'T', 'h', 'e', ' ', 'i', 'n', 'd', 'e', 'x', ' ', 'o', 'f', ' ', 't', 'h', 'e', ' ', 'u', '_', 'y', ' ', 'a', 'r', 'r', 'a', 'y', ' ', 'a', 't', ' ', 'w', 'h', 'i', 'c', 'h', ' ', 'w', 'e', ' ', 'c', 'o', 'n', 's', 'i', 'd', 'e', 'r', '\n', ' ', ' ', ' ', ' ', ' ', ' ', ' ', ' ', ' ', ' ', ' ', ' ', ' ', ' ', ' ', ' ', ' ', ' ', ' ', ' ', ' ', ' ', ' ', 't', 'h', 'a', 't', ' ', 't', 'h', 'e', ' ', 'c', 'a', 'm', 'e', 'r', 'a', ' ', 's', 'a', 't', 'u', 'r', 'a', 't', 'e', 's', '.', ' ', 'T', 'h', 'i', 's', ' ', 'i', 's', ' ', 'u', 's', 'e', 'd', ' ', 'i', 'f', ' ', 'f', 'o', 'r', 'c', 'i', 'n', 'g', '\n', ' ', ' ', ' ', ' ', ' ', ' ', ' ', ' ', ' ', ' ', ' ', ' ', ' ', ' ', ' ', ' ', ' ', ' ', ' ', ' ', ' ', ' ', ' ', 't', 'h', 'e', ' ', 's', 'a', 't', 'u', 'r', 'a', 't', 'i', 'o', 'n', ' ', 'p', 'o', 'i', 'n', 't', ' ', 'i', 's', ' ', 'n', 'e', 'c', 'e', 's', 's', 'a', 'r', 'y', '.', '\n', ' ', ' ', ' ', ' ', ' ', ' ', ' ', ' ', 'l', 'o', 'g', 'l', 'e', 'v', 'e', 'l', ' ', ':', ' ', 'i', 'n', 't', ',', ' ', 'o', 'p', 't', 'i', 'o', 'n', 'a', 'l', '\n', ' ', ' ', ' ', ' ', ' ', ' ', ' ', ' ', ' ', ' ', ' ', ' ', ' ', ' ', ' ', ' ', ' ', ' ', ' ', 'T', 'h', 'e', ' ', 'l', 'e', 'v', 'e', 'l', ' ', 'f', 'o', 'r', ' ', 't', 'h', 'e', ' ', ':', 'c', 'l', 'a', 's', 's', ':', '`', 'p', 'y', 't', 'h', 'o', 'n', ':', 'l', 'o', 'g', 'g', 'i', 'n', 'g', '.', 'L', 'o', 'g', 'g', 'e', 'r', '`', ' ', 'o', 'b', 'j', 'e', 'c', 't', '.', '\n', ' ', ' ', ' ', ' ', ' ', ' ', ' ', ' ']

/-- process/results.py lines 72-72 -/
def doc_s2q : Str := ['Q', 'u', 'a', 'n', 't', 'i', 'f', 'i', 'c', 'a', 't', 'i', 'o', 'n', ' ', 'n', 'o', 'i', 's', 'e', '.']

/-- process/results.py lines 77-82 -/
def doc_index_start : Str := ['T', 'h', 'e', ' ', 'a', 'r', 'r', 'a', 'y', '\'', 's', ' ', 's', 't', 'a', 'r', 't', 'i', 'n', 'g', ' ', 'i', 'n', 'd', 'e', 'x', '.', '\n', '\n', ' ', ' ', ' ', ' ', ' ', ' ', ' ', ' ', '.', '.', ' ', 'e', 'm', 'v', 'a', '1', '2', '8', '8', ':', ':', '\n', ' ', ' ', ' ', ' ', ' ', ' ', ' ', ' ', ' ', ' ', ' ', ' ', ':', 'S', 'e', 'c', 't', 'i', 'o', 'n', ':', ' ', 'i', 'n', 'f', 'o', '\n', ' ', ' ', ' ', ' ', ' ', ' ', ' ', ' ', ' ', ' ', ' ', ' ', ':', 'S', 'h', 'o', 'r', 't', ':', ' ', 'S', 't', 'a', 'r', 't', ' ', 'a', 'r', 'r', 'a', 'y', ' ', 'i', 'n', 'd', 'e', 'x', '\n', ' ', ' ', ' ', ' ', ' ', ' ', ' ', ' ']

/-- process/results.py lines 87-92 -/
def doc_index_u_ysat : Str := ['I', 'n', 'd', 'e', 'x', ' ', 'o', 'f', ' ', 's', 'a', 't', 'u', 'r', 'a', 't', 'i', 'o', 'n', '.', '\n', '\n', ' ', ' ', ' ', ' ', ' ', ' ', ' ', ' ', '.', '.', ' ', 'e', 'm', 'v', 'a', '1', '2', '8', '8', ':', ':', '\n', ' ', ' ', ' ', ' ', ' ', ' ', ' ', ' ', ' ', ' ', ' ', ' ', ':', 'S', 'e', 'c', 't', 'i', 'o', 'n', ':', ' ', 's', 'e', 'n', 's', 'i', 't', 'i', 'v', 'i', 't', 'y', '\n', ' ', ' ', ' ', ' ', ' ', ' ', ' ', ' ', ' ', ' ', ' ', ' ', ':', 'S', 'h', 'o', 'r', 't', ':', ' ', 'S', 'a', 't', 'u', 'r', 'a', 't', 'i', 'o', 'n', ' ', 'i', 'n', 'd', 'e', 'x', '\n', ' ', ' ', ' ', ' ', ' ', ' ', ' ', ' ']

/-- process/results.py lines 118-124 -/
def doc_index_sensitivity_max : Str := ['I', 'n', 'd', 'e', 'x', ' ', 'f', 'o', 'r', ' ', 'l', 'i', 'n', 'e', 'a', 'r', ' ', 'f', 'i', 't', 's', ' ', 'i', 'n', ' ', 's', 'e', 'n', 's', 'i', 't', 'i', 'v', 'i', 't', 'y', ' ', 'p', 'a', 'r', 't', ' ', 'o', 'f', ' ', 't', 'h', 'e', ' ', 's', 't', 'a', 'n', 'd', 'a', 'r', 'd', '\n', ' ', ' ', ' ', ' ', ' ', ' ', ' ', ' ', '(', '7', '0', '%', ' ', 'o', 'f', ' ', 's', 'a', 't', 'u', 'r', 'a', 't', 'i', 'o', 'n', ')', '.', '\n', '\n', ' ', ' ', ' ', ' ', ' ', ' ', ' ', ' ', '.', '.', ' ', 'e', 'm', 'v', 'a', '1', '2', '8', '8', ':', ':', '\n', ' ', ' ', ' ', ' ', ' ', ' ', ' ', ' ', ' ', ' ', ' ', ' ', ':', 'S', 'e', 'c', 't', 'i', 'o', 'n', ':', ' ', 's', 'e', 'n', 's', 'i', 't', 'i', 'v', 'i', 't', 'y', '\n', ' ', ' ', ' ', ' ', ' ', ' ', ' ', ' ', ' ', ' ', ' ', ' ', ':', 'S', 'h', 'o', 'r', 't', ':', ' ', 'S', 'e', 'n', 's', 'i', 't', 'i', 'v', 'i', 't', 'y', ' ', 'f', 'i', 't', ' ', 'm', 'a', 'x', 'i', 'm', 'u', 'm', ' ', 'i', 'n', 'd', 'e', 'x', '\n', ' ', ' ', ' ', ' ', ' ', ' ', ' ', ' ']

/-- process/results.py lines 132-140 -/
def doc_index_sensitivity_min : Str := ['S', 'e', 'n', 's', 'i', 't', 'i', 'v', 'i', 't', 'y', ' ', 'm', 'i', 'n', 'i', 'm', 'u', 'm', ' ', 'i', 'n', 'd', 'e', 'x', '.', '\n', '\n', ' ', ' ', ' ', ' ', ' ', ' ', ' ', ' ', 'I', 'n', 'd', 'e', 'x', ' ', 'f', 'o', 'r', ' ', 'l', 'i', 'n', 'e', 'a', 'r', ' ', 'f', 'i', 't', 's', ' ', 'i', 'n', ' ', 's', 'e', 'n', 's', 'i', 't', 'i', 'v', 'i', 't', 'y', ' ', 'p', 'a', 'r', 't', ' ', 'o', 'f', ' ', 't', 'h', 'e', ' ', 's', 't', 'a', 'n', 'd', 'a', 'r', 'd', '\n', ' ', ' ', ' ', ' ', ' ', ' ', ' ', ' ', '(', '7', '0', '%', ' ', 'o', 'f', ' ', 's', 'a', 't', 'u', 'r', 'a', 't', 'i', 'o', 'n', ')', '\n', '\n', ' ', ' ', ' ', ' ', ' ', ' ', ' ', ' ', '.', '.', ' ', 'e', 'm', 'v', 'a', '1', '2', '8', '8', ':', ':', '\n', ' ', ' ', ' ', ' ', ' ', ' ', ' ', ' ', ' ', ' ', ' ', ' ', ':', 'S', 'e', 'c', 't', 'i', 'o', 'n', ':', ' ', 's', 'e', 'n', 's', 'i', 't', 'i', 'v', 'i', 't', 'y', '\n', ' ', ' ', ' ', ' ', ' ', ' ', ' ', ' ', ' ', ' ', ' ', ' ', ':', 'S', 'h', 'o', 'r', 't', ':', ' ', 'S', 'e', 'n', 's', 'i', 't', 'i', 'v', 'i', 't', 'y', ' ', 'f', 'i', 't', ' ', 'm', 'i', 'n', 'i', 'm', 'u', 'm', ' ', 'i', 'n', 'd', 'e', 'x', '\n', ' ', ' ', ' ', ' ', ' ', ' ', ' ', ' ']

/-- process/results.py lines 145-156 -/
def doc_R : Str := ['R', 'e', 's', 'p', 'o', 'n', 's', 'i', 'v', 'i', 't', 'y', '.', '\n', '\n', ' ', ' ', ' ', ' ', ' ', ' ', ' ', ' ', 'S', 'l', 'o', 'p', 'e', ' ', 'o', 'f', ' ', 't', 'h', 'e', ' ', '(', 'u', '_', 'y', ' ', '-', ' ', 'u', '_', 'y', '_', 'd', 'a', 'r', 'k', ')', ' ', 'V', 's', ' ', 'u', '_', 'p', '.', ' ', 'F', 'i', 't', ' ', 'w', 'i', 't', 'h', ' ', 'o', 'f', 'f', 's', 'e', 't', ' ', '=', ' ', '0', '\n', ' ', ' ', ' ', ' ', ' ', ' ', ' ', ' ', 'U', 's', 'e', 's', ' ', 't', 'h', 'e', ' ', ':', 'f', 'u', 'n', 'c', ':', '`', '~', 'e', 'm', 'v', 'a', '1', '2', '8', '8', '.', 'p', 'r', 'o', 'c', 'e', 's', 's', '.', 'r', 'o', 'u', 't', 'i', 'n', 'e', 's', '.', 'L', 'i', 'n', 'e', 'a', 'r', 'B', '0', '`', ' ', 'f', 'u', 'n', 'c', 't', 'i', 'o', 'n', '\n', ' ', ' ', ' ', ' ', ' ', ' ', ' ', ' ', 't', 'o', ' ', 'm', 'a', 'k', 'e', ' ', 't', 'h', 'e', ' ', 'f', 'i', 't', '.', '\n', '\n', ' ', ' ', ' ', ' ', ' ', ' ', ' ', ' ', '.', '.', ' ', 'e', 'm', 'v', 'a', '1', '2', '8', '8', ':', ':', '\n', ' ', ' ', ' ', ' ', ' ', ' ', ' ', ' ', ' ', ' ', ' ', ' ', ':', 'S', 'e', 'c', 't', 'i', 'o', 'n', ':', ' ', 's', 'e', 'n', 's', 'i', 't', 'i', 'v', 'i', 't', 'y', '\n', ' ', ' ', ' ', ' ', ' ', ' ', ' ', ' ', ' ', ' ', ' ', ' ', ':', 'S', 'h', 'o', 'r', 't', ':', ' ', 'R', 'e', 's', 'p', 'o', 'n', 's', 'i', 'v', 'i', 't', 'y', '\n', ' ', ' ', ' ', ' ', ' ', ' ', ' ', ' ', ' ', ' ', ' ', ' ', ':', 'S', 'y', 'm', 'b', 'o', 'l', ':', ' ', 'R', '\n', ' ', ' ', ' ', ' ', ' ', ' ', ' ', ' ', ' ', ' ', ' ', ' ', ':', 'U', 'n', 'i', 't', ':', ' ', 'D', 'N', '/', 'p', '\n', ' ', ' ', ' ', ' ', ' ', ' ', ' ', ' ']

/-- process/results.py lines 170-182 -/
def doc_K : Str := ['O', 'v', 'e', 'r', 'a', 'l', 'l', ' ', 's', 'y', 's', 't', 'e', 'm', ' ', 'g', 'a', 'i', 'n', '.', '\n', '\n', ' ', ' ', ' ', ' ', ' ', ' ', ' ', ' ', 'S', 'l', 'o', 'p', 'e', ' ', 'o', 'f', ' ', '(', 's', '2', '_', 'y', ' ', '-', ' ', 's', '2', '_', 'y', '_', 'd', 'a', 'r', 'k', ')', ' ', 'V', 's', ' ', '(', 'u', '_', 'y', ' ', '-', ' ', 'u', '_', 'y', '_', 'd', 'a', 'r', 'k', ')', '.', ' ', 'F', 'i', 't', ' ', 'w', 'i', 't', 'h', '\n', ' ', ' ', ' ', ' ', ' ', ' ', ' ', ' ', 'o', 'f', 'f', 's', 'e', 't', ' ', '=', ' ', '0', '.', ' ', 'U', 's', 'e', 's', ' ', 't', 'h', 'e', ' ', ':', 'f', 'u', 'n', 'c', ':', '`', '~', 'e', 'm', 'v', 'a', '1', '2', '8', '8', '.', 'p', 'r', 'o', 'c', 'e', 's', 's', '.', 'r', 'o', 'u', 't', 'i', 'n', 'e', 's', '.', 'L', 'i', 'n', 'e', 'a', 'r', 'B', '0', '`', '\n', ' ', ' ', ' ', ' ', ' ', ' ', ' ', ' ', 't', 'o', ' ', 'm', 'a', 'k', 'e', ' ', 't', 'h', 'e', ' ', 'f', 'i', 't', '.', '\n', '\n', ' ', ' ', ' ', ' ', ' ', ' ', ' ', ' ', '.', '.', ' ', 'e', 'm', 'v', 'a', '1', '2', '8', '8', ':', ':', '\n', ' ', ' ', ' ', ' ', ' ', ' ', ' ', ' ', ' ', ' ', ' ', ' ', ':', 'S', 'e', 'c', 't', 'i', 'o', 'n', ':', ' ', 's', 'e', 'n', 's', 'i', 't', 'i', 'v', 'i', 't', 'y', '\n', ' ', ' ', ' ', ' ', ' ', ' ', ' ', ' ', ' ', ' ', ' ', ' ', ':', 'S', 'h', 'o', 'r', 't', ':', ' ', 'S', 'y', 's', 't', 'e', 'm', ' ', 'g', 'a', 'i', 'n', '\n', ' ', ' ', ' ', ' ', ' ', ' ', ' ', ' ', ' ', ' ', ' ', ' ', ':', 'S', 'y', 'm', 'b', 'o', 'l', ':', ' ', 'K', '\n', ' ', ' ', ' ', ' ', ' ', ' ', ' ', ' ', ' ', ' ', ' ', ' ', ':', 'U', 'n', 'i', 't', ':', ' ', '$', 'D', 'N', '/', 'e', '^', '-', '$', '\n', ' ', ' ', ' ', ' ', ' ', ' ', ' ', ' ', ' ', ' ', ' ', ' ', ':', 'L', 'a', 't', 'e', 'x', 'N', 'a', 'm', 'e', ':', ' ', 'K', '\n', ' ', ' ', ' ', ' ', ' ', ' ', ' ', ' ']

/-- process/results.py lines 195-203 -/
def doc_inverse_K : Str := ['I', 'n', 'v', 'e', 'r', 's', 'e', ' ', 'o', 'f', ' ', 'o', 'v', 'e', 'r', 'a', 'l', 'l', ' ', 's', 'y', 's', 't', 'e', 'm', ' ', 'g', 'a', 'i', 'n', '.', '\n', '\n', ' ', ' ', ' ', ' ', ' ', ' ', ' ', ' ', '.', '.', ' ', 'e', 'm', 'v', 'a', '1', '2', '8', '8', ':', ':', '\n', ' ', ' ', ' ', ' ', ' ', ' ', ' ', ' ', ' ', ' ', ' ', ' ', ':', 'S', 'e', 'c', 't', 'i', 'o', 'n', ':', ' ', 's', 'e', 'n', 's', 'i', 't', 'i', 'v', 'i', 't', 'y', '\n', ' ', ' ', ' ', ' ', ' ', ' ', ' ', ' ', ' ', ' ', ' ', ' ', ':', 'S', 'h', 'o', 'r', 't', ':', ' ', 'I', 'n', 'v', 'e', 'r', 's', 'e', ' ', 'o', 'f', ' ', 'o', 'v', 'e', 'r', 'a', 'l', 'l', ' ', 's', 'y', 's', 't', 'e', 'm', ' ', 'g', 'a', 'i', 'n', '\n', ' ', ' ', ' ', ' ', ' ', ' ', ' ', ' ', ' ', ' ', ' ', ' ', ':', 'S', 'y', 'm', 'b', 'o', 'l', ':', ' ', '1', '/', 'K', '\n', ' ', ' ', ' ', ' ', ' ', ' ', ' ', ' ', ' ', ' ', ' ', ' ', ':', 'U', 'n', 'i', 't', ':', ' ', '$', 'e', '^', '-', '/', 'D', 'N', '$', '\n', ' ', ' ', ' ', ' ', ' ', ' ', ' ', ' ', ' ', ' ', ' ', ' ', ':', 'L', 'a', 't', 'e', 'x', 'N', 'a', 'm', 'e', ':', ' ', 'I', 'n', 'v', 'K', '\n', ' ', ' ', ' ', ' ', ' ', ' ', ' ', ' ']

/-- process/results.py lines 209-220 -/
def doc_QE : Str := ['Q', 'u', 'a', 'n', 't', 'u', 'm', ' ', 'e', 'f', 'f', 'i', 'c', 'i', 'e', 'n', 'c', 'y', '.', '\n', '\n', ' ', ' ', ' ', ' ', ' ', ' ', ' ', ' ', 'I', 't', ' ', 'i', 's', ' ', 'r', 'e', 't', 'r', 'i', 'e', 'v', 'e', 'd', ' ', 'a', 's', ' ', 't', 'h', 'e', ' ', 'r', 'a', 't', 'i', 'o', ' ', 'o', 'f', ' ', 't', 'h', 'e', ' ', 'r', 'e', 's', 'p', 'o', 'n', 's', 'i', 'v', 'i', 't', 'y', ' ', 't', 'o', ' ', 't', 'h', 'e', ' ', 'o', 'v', 'e', 'r', 'a', 'l', 'l', '\n', ' ', ' ', ' ', ' ', ' ', ' ', ' ', ' ', 's', 'y', 's', 't', 'e', 'm', ' ', 'g', 'a', 'i', 'n', '.', '\n', '\n', ' ', ' ', ' ', ' ', ' ', ' ', ' ', ' ', '.', '.', ' ', 'e', 'm', 'v', 'a', '1', '2', '8', '8', ':', ':', '\n', ' ', ' ', ' ', ' ', ' ', ' ', ' ', ' ', ' ', ' ', ' ', ' ', ':', 'S', 'e', 'c', 't', 'i', 'o', 'n', ':', ' ', 's', 'e', 'n', 's', 'i', 't', 'i', 'v', 'i', 't', 'y', '\n', ' ', ' ', ' ', ' ', ' ', ' ', ' ', ' ', ' ', ' ', ' ', ' ', ':', 'S', 'h', 'o', 'r', 't', ':', ' ', 'Q', 'u', 'a', 'n', 't', 'u', 'm', ' ', 'e', 'f', 'f', 'i', 'c', 'i', 'e', 'n', 'c', 'y', '\n', ' ', ' ', ' ', ' ', ' ', ' ', ' ', ' ', ' ', ' ', ' ', ' ', ':', 'S', 'y', 'm', 'b', 'o', 'l', ':', ' ', '$', '\\', 'e', 't', 'a', '$', '\n', ' ', ' ', ' ', ' ', ' ', ' ', ' ', ' ', ' ', ' ', ' ', ' ', ':', 'U', 'n', 'i', 't', ':', ' ', '\\', '%', '\n', ' ', ' ', ' ', ' ', ' ', ' ', ' ', ' ', ' ', ' ', ' ', ' ', ':', 'L', 'a', 't', 'e', 'x', 'N', 'a', 'm', 'e', ':', ' ', 'Q', 'E', '\n', ' ', ' ', ' ', ' ', ' ', ' ', ' ', ' ']

/-- process/results.py lines 226-236 -/
def doc_sigma_y_dark : Str := ['T', 'e', 'm', 'p', 'o', 'r', 'a', 'l', ' ', 'D', 'a', 'r', 'k', ' ', 'N', 'o', 'i', 's', 'e', '.', '\n', '\n', ' ', ' ', ' ', ' ', ' ', ' ', ' ', ' ', 'U', 's', 'e', 's', ' ', ':', 'f', 'u', 'n', 'c', ':', '`', '~', 'e', 'm', 'v', 'a', '1', '2', '8', '8', '.', 'p', 'r', 'o', 'c', 'e', 's', 's', '.', 'r', 'o', 'u', 't', 'i', 'n', 'e', 's', '.', 'L', 'i', 'n', 'e', 'a', 'r', 'B', '`', ' ', 't', 'o', ' ', 'm', 'a', 'k', 'e', ' ', 't', 'h', 'e', ' ', 'f', 'i', 't', '.', '\n', '\n', ' ', ' ', ' ', ' ', ' ', ' ', ' ', ' ', '.', '.', ' ', 'e', 'm', 'v', 'a', '1', '2', '8', '8', ':', ':', '\n', ' ', ' ', ' ', ' ', ' ', ' ', ' ', ' ', ' ', ' ', ' ', ' ', ':', 'S', 'e', 'c', 't', 'i', 'o', 'n', ':', ' ', 's', 'e', 'n', 's', 'i', 't', 'i', 'v', 'i', 't', 'y', '\n', ' ', ' ', ' ', ' ', ' ', ' ', ' ', ' ', ' ', ' ', ' ', ' ', ':', 'S', 'h', 'o', 'r', 't', ':', ' ', 'T', 'e', 'm', 'p', 'o', 'r', 'a', 'l', ' ', 'D', 'a', 'r', 'k', ' ', 'N', 'o', 'i', 's', 'e', '\n', ' ', ' ', ' ', ' ', ' ', ' ', ' ', ' ', ' ', ' ', ' ', ' ', ':', 'S', 'y', 'm', 'b', 'o', 'l', ':', ' ', '$', '\\', 's', 'i', 'g', 'm', 'a', '_', '{', 'y', '.', 'd', 'a', 'r', 'k', '}', '$', '\n', ' ', ' ', ' ', ' ', ' ', ' ', ' ', ' ', ' ', ' ', ' ', ' ', ':', 'U', 'n', 'i', 't', ':', ' ', 'D', 'N', '\n', ' ', ' ', ' ', ' ', ' ', ' ', ' ', ' ', ' ', ' ', ' ', ' ', ':', 'L', 'a', 't', 'e', 'x', 'N', 'a', 'm', 'e', ':', ' ', 'S', 'i', 'g', 'm', 'a', 'Y', 'D', 'a', 'r', 'k', '\n', ' ', ' ', ' ', ' ', ' ', ' ', ' ', ' ']

/-- process/results.py lines 255-263 -/
def doc_sigma_d : Str := ['T', 'e', 'm', 'p', 'o', 'r', 'a', 'l', ' ', 'D', 'a', 'r', 'k', ' ', 'N', 'o', 'i', 's', 'e', '.', '\n', '\n', ' ', ' ', ' ', ' ', ' ', ' ', ' ', ' ', '.', '.', ' ', 'e', 'm', 'v', 'a', '1', '2', '8', '8', ':', ':', '\n', ' ', ' ', ' ', ' ', ' ', ' ', ' ', ' ', ' ', ' ', ' ', ' ', ':', 'S', 'e', 'c', 't', 'i', 'o', 'n', ':', ' ', 's', 'e', 'n', 's', 'i', 't', 'i', 'v', 'i', 't', 'y', '\n', ' ', ' ', ' ', ' ', ' ', ' ', ' ', ' ', ' ', ' ', ' ', ' ', ':', 'S', 'h', 'o', 'r', 't', ':', ' ', 'T', 'e', 'm', 'p', 'o', 'r', 'a', 'l', ' ', 'D', 'a', 'r', 'k', ' ', 'N', 'o', 'i', 's', 'e', '\n', ' ', ' ', ' ', ' ', ' ', ' ', ' ', ' ', ' ', ' ', ' ', ' ', ':', 'S', 'y', 'm', 'b', 'o', 'l', ':', ' ', '$', '\\', 's', 'i', 'g', 'm', 'a', '_', 'd', '$', '\n', ' ', ' ', ' ', ' ', ' ', ' ', ' ', ' ', ' ', ' ', ' ', ' ', ':', 'U', 'n', 'i', 't', ':', ' ', '$', 'e', '^', '-', '$', '\n', ' ', ' ', ' ', ' ', ' ', ' ', ' ', ' ', ' ', ' ', ' ', ' ', ':', 'L', 'a', 't', 'e', 'x', 'N', 'a', 'm', 'e', ':', ' ', 'S', 'i', 'g', 'm', 'a', 'D', 'a', 'r', 'k', '\n', ' ', ' ', ' ', ' ', ' ', ' ', ' ', ' ']

/-- process/results.py lines 269-277 -/
def doc_u_p_min : Str := ['A', 'b', 's', 'o', 'l', 'u', 't', 'e', ' ', 's', 'e', 'n', 's', 'i', 't', 'i', 'v', 'i', 't', 'y', ' ', 't', 'h', 'r', 'e', 's', 'h', 'o', 'l', 'd', '.', '\n', '\n', ' ', ' ', ' ', ' ', ' ', ' ', ' ', ' ', '.', '.', ' ', 'e', 'm', 'v', 'a', '1', '2', '8', '8', ':', ':', '\n', ' ', ' ', ' ', ' ', ' ', ' ', ' ', ' ', ' ', ' ', ' ', ' ', ':', 'S', 'e', 'c', 't', 'i', 'o', 'n', ':', ' ', 's', 'e', 'n', 's', 'i', 't', 'i', 'v', 'i', 't', 'y', '\n', ' ', ' ', ' ', ' ', ' ', ' ', ' ', ' ', ' ', ' ', ' ', ' ', ':', 'S', 'h', 'o', 'r', 't', ':', ' ', 'A', 'b', 's', 'o', 'l', 'u', 't', 'e', ' ', 's', 'e', 'n', 's', 'i', 't', 'i', 'v', 'i', 't', 'y', ' ', 't', 'h', 'r', 'e', 's', 'h', 'o', 'l', 'd', '\n', ' ', ' ', ' ', ' ', ' ', ' ', ' ', ' ', ' ', ' ', ' ', ' ', ':', 'S', 'y', 'm', 'b', 'o', 'l', ':', ' ', '$', '\\', 'm', 'u', '_', '{', 'p', '.', 'm', 'i', 'n', '}', '$', '\n', ' ', ' ', ' ', ' ', ' ', ' ', ' ', ' ', ' ', ' ', ' ', ' ', ':', 'U', 'n', 'i', 't', ':', ' ', '$', 'p', '$', '\n', ' ', ' ', ' ', ' ', ' ', ' ', ' ', ' ', ' ', ' ', ' ', ' ', ':', 'L', 'a', 't', 'e', 'x', 'N', 'a', 'm', 'e', ':', ' ', 'U', 'P', 'M', 'i', 'n', '\n', ' ', ' ', ' ', ' ', ' ', ' ', ' ', ' ']

/-- process/results.py lines 283-293 -/
def doc_u_p_min_area : Str := ['S', 'e', 'n', 's', 'i', 't', 'i', 'v', 'i', 't', 'y', ' ', 't', 'h', 'r', 'e', 's', 'h', 'o', 'l', 'd', ' ', 'p', 'e', 'r', ' ', 'p', 'i', 'x', 'e', 'l', ' ', 'a', 'r', 'e', 'a', '.', '\n', '\n', ' ', ' ', ' ', ' ', ' ', ' ', ' ', ' ', 'R', 'e', 't', 'u', 'r', 'n', 's', ' ', 'N', 'o', 'n', 'e', ' ', 'i', 'f', ' ', 'p', 'i', 'x', 'e', 'l', ' ', 'a', 'r', 'e', 'a', ' ', 'i', 's', ' ', 'n', 'o', 't', ' ', 'd', 'e', 'f', 'i', 'n', 'e', 'd', ' ', 'o', 'r', ' ', '0', '.', '\n', '\n', ' ', ' ', ' ', ' ', ' ', ' ', ' ', ' ', '.', '.', ' ', 'e', 'm', 'v', 'a', '1', '2', '8', '8', ':', ':', '\n', ' ', ' ', ' ', ' ', ' ', ' ', ' ', ' ', ' ', ' ', ' ', ' ', ':', 'S', 'e', 'c', 't', 'i', 'o', 'n', ':', ' ', 's', 'e', 'n', 's', 'i', 't', 'i', 'v', 'i', 't', 'y', '\n', ' ', ' ', ' ', ' ', ' ', ' ', ' ', ' ', ' ', ' ', ' ', ' ', ':', 'S', 'h', 'o', 'r', 't', ':', ' ', 'S', 'e', 'n', 's', 'i', 't', 'i', 'v', 'i', 't', 'y', ' ', 't', 'h', 'r', 'e', 's', 'h', 'o', 'l', 'd', '\n', ' ', ' ', ' ', ' ', ' ', ' ', ' ', ' ', ' ', ' ', ' ', ' ', ':', 'S', 'y', 'm', 'b', 'o', 'l', ':', ' ', '$', '\\', 'm', 'u', '_', '{', 'p', '.', 'm', 'i', 'n', '.', 'a', 'r', 'e', 'a', '}', '$', '\n', ' ', ' ', ' ', ' ', ' ', ' ', ' ', ' ', ' ', ' ', ' ', ' ', ':', 'U', 'n', 'i', 't', ':', ' ', '$', 'p', '/', '\\', 'm', 'u', ' ', 'm', '^', '2', '$', '\n', ' ', ' ', ' ', ' ', ' ', ' ', ' ', ' ', ' ', ' ', ' ', ' ', ':', 'L', 'a', 't', 'e', 'x', 'N', 'a', 'm', 'e', ':', ' ', 'U', 'P', 'M', 'i', 'n', '\n', ' ', ' ', ' ', ' ', ' ', ' ', ' ', ' ']

/-- process/results.py lines 302-310 -/
def doc_u_e_min : Str := ['S', 'e', 'n', 's', 'i', 't', 'i', 'v', 'i', 't', 'y', ' ', 't', 'h', 'r', 'e', 's', 'h', 'o', 'l', 'd', '.', '\n', '\n', ' ', ' ', ' ', ' ', ' ', ' ', ' ', ' ', '.', '.', ' ', 'e', 'm', 'v', 'a', '1', '2', '8', '8', ':', ':', '\n', ' ', ' ', ' ', ' ', ' ', ' ', ' ', ' ', ' ', ' ', ' ', ' ', ':', 'S', 'e', 'c', 't', 'i', 'o', 'n', ':', ' ', 's', 'e', 'n', 's', 'i', 't', 'i', 'v', 'i', 't', 'y', '\n', ' ', ' ', ' ', ' ', ' ', ' ', ' ', ' ', ' ', ' ', ' ', ' ', ':', 'S', 'h', 'o', 'r', 't', ':', ' ', 'S', 'e', 'n', 's', 'i', 't', 'i', 'v', 'i', 't', 'y', ' ', 't', 'h', 'r', 'e', 's', 'h', 'o', 'l', 'd', '\n', ' ', ' ', ' ', ' ', ' ', ' ', ' ', ' ', ' ', ' ', ' ', ' ', ':', 'S', 'y', 'm', 'b', 'o', 'l', ':', ' ', '$', '\\', 'm', 'u', '_', '{', 'e', '.', 'm', 'i', 'n', '}', '$', '\n', ' ', ' ', ' ', ' ', ' ', ' ', ' ', ' ', ' ', ' ', ' ', ' ', ':', 'U', 'n', 'i', 't', ':', ' ', '$', 'e', '^', '-', '$', '\n', ' ', ' ', ' ', ' ', ' ', ' ', ' ', ' ', ' ', ' ', ' ', ' ', ':', 'L', 'a', 't', 'e', 'x', 'N', 'a', 'm', 'e', ':', ' ', 'U', 'E', 'M', 'i', 'n', '\n', ' ', ' ', ' ', ' ', ' ', ' ', ' ', ' ']

/-- process/results.py lines 315-325 -/
def doc_u_e_min_area : Str := ['S', 'e', 'n', 's', 'i', 't', 'i', 'v', 'i', 't', 'y', ' ', 't', 'h', 'r', 'e', 's', 'h', 'o', 'l', 'd', ' ', 'p', 'e', 'r', ' ', 'p', 'i', 'x', 'e', 'l', ' ', 'a', 'r', 'e', 'a', '.', '\n', '\n', ' ', ' ', ' ', ' ', ' ', ' ', ' ', ' ', 'R', 'e', 't', 'u', 'r', 'n', 's', ' ', 'N', 'o', 'n', 'e', ' ', 'i', 'f', ' ', 't', 'h', 'e', ' ', 'p', 'i', 'x', 'e', 'l', ' ', 'a', 'r', 'e', 'a', ' ', 'i', 's', ' ', 'n', 'o', 't', ' ', 'd', 'e', 'f', 'i', 'n', 'e', 'd', ' ', 'o', 'r', ' ', '0', '.', '\n', '\n', ' ', ' ', ' ', ' ', ' ', ' ', ' ', ' ', '.', '.', ' ', 'e', 'm', 'v', 'a', '1', '2', '8', '8', ':', ':', '\n', ' ', ' ', ' ', ' ', ' ', ' ', ' ', ' ', ' ', ' ', ' ', ' ', ':', 'S', 'e', 'c', 't', 'i', 'o', 'n', ':', ' ', 's', 'e', 'n', 's', 'i', 't', 'i', 'v', 'i', 't', 'y', '\n', ' ', ' ', ' ', ' ', ' ', ' ', ' ', ' ', ' ', ' ', ' ', ' ', ':', 'S', 'h', 'o', 'r', 't', ':', ' ', 'S', 'e', 'n', 's', 'i', 't', 'i', 'v', 'i', 't', 'y', ' ', 't', 'h', 'r', 'e', 's', 'h', 'o', 'l', 'd', '\n', ' ', ' ', ' ', ' ', ' ', ' ', ' ', ' ', ' ', ' ', ' ', ' ', ':', 'S', 'y', 'm', 'b', 'o', 'l', ':', ' ', '$', '\\', 'm', 'u', '_', '{', 'e', '.', 'm', 'i', 'n', '.', 'a', 'r', 'e', 'a', '}', '$', '\n', ' ', ' ', ' ', ' ', ' ', ' ', ' ', ' ', ' ', ' ', ' ', ' ', ':', 'U', 'n', 'i', 't', ':', ' ', '$', 'e', '^', '-', '/', '\\', 'm', 'u', ' ', 'm', '^', '2', '$', '\n', ' ', ' ', ' ', ' ', ' ', ' ', ' ', ' ', ' ', ' ', ' ', ' ', ':', 'L', 'a', 't', 'e', 'x', 'N', 'a', 'm', 'e', ':', ' ', 'U', 'E', 'M', 'i', 'n', '\n', ' ', ' ', ' ', ' ', ' ', ' ', ' ', ' ']

/-- process/results.py lines 333-341 -/
def doc_u_p_sat : Str := ['S', 'a', 't', 'u', 'r', 'a', 't', 'i', 'o', 'n', ' ', 'C', 'a', 'p', 'a', 'c', 'i', 't', 'y', '.', '\n', '\n', ' ', ' ', ' ', ' ', ' ', ' ', ' ', ' ', '.', '.', ' ', 'e', 'm', 'v', 'a', '1', '2', '8', '8', ':', ':', '\n', ' ', ' ', ' ', ' ', ' ', ' ', ' ', ' ', ' ', ' ', ' ', ' ', ':', 'S', 'e', 'c', 't', 'i', 'o', 'n', ':', ' ', 's', 'e', 'n', 's', 'i', 't', 'i', 'v', 'i', 't', 'y', '\n', ' ', ' ', ' ', ' ', ' ', ' ', ' ', ' ', ' ', ' ', ' ', ' ', ':', 'S', 'h', 'o', 'r', 't', ':', ' ', 'S', 'a', 't', 'u', 'r', 'a', 't', 'i', 'o', 'n', ' ', 'C', 'a', 'p', 'a', 'c', 'i', 't', 'y', '\n', ' ', ' ', ' ', ' ', ' ', ' ', ' ', ' ', ' ', ' ', ' ', ' ', ':', 'S', 'y', 'm', 'b', 'o', 'l', ':', ' ', '$', '\\', 'm', 'u', '_', '{', 'p', '.', 's', 'a', 't', '}', '$', '\n', ' ', ' ', ' ', ' ', ' ', ' ', ' ', ' ', ' ', ' ', ' ', ' ', ':', 'U', 'n', 'i', 't', ':', ' ', '$', 'p', '$', '\n', ' ', ' ', ' ', ' ', ' ', ' ', ' ', ' ', ' ', ' ', ' ', ' ', ':', 'L', 'a', 't', 'e', 'x', 'N', 'a', 'm', 'e', ':', ' ', 'U', 'P', 'S', 'a', 't', '\n', ' ', ' ', ' ', ' ', ' ', ' ', ' ', ' ']

/-- process/results.py lines 347-357 -/
def doc_u_p_sat_area : Str := ['S', 'a', 't', 'u', 'r', 'a', 't', 'i', 'o', 'n', ' ', 'C', 'a', 'p', 'a', 'c', 'i', 't', 'y', ' ', 'p', 'e', 'r', ' ', 'p', 'i', 'x', 'e', 'l', ' ', 'a', 'r', 'e', 'a', '.', '\n', '\n', ' ', ' ', ' ', ' ', ' ', ' ', ' ', ' ', 'R', 'e', 't', 'u', 'r', 'n', 's', ' ', 'N', 'o', 'n', 'e', ' ', 'i', 'f', ' ', 'p', 'i', 'x', 'e', 'l', ' ', 'a', 'r', 'e', 'a', ' ', 'i', 's', ' ', 'n', 'o', 't', ' ', 'd', 'e', 'f', 'i', 'n', 'e', 'd', ' ', 'o', 'r', ' ', '0', '.', '\n', '\n', ' ', ' ', ' ', ' ', ' ', ' ', ' ', ' ', '.', '.', ' ', 'e', 'm', 'v', 'a', '1', '2', '8', '8', ':', ':', '\n', ' ', ' ', ' ', ' ', ' ', ' ', ' ', ' ', ' ', ' ', ' ', ' ', ':', 'S', 'e', 'c', 't', 'i', 'o', 'n', ':', ' ', 's', 'e', 'n', 's', 'i', 't', 'i', 'v', 'i', 't', 'y', '\n', ' ', ' ', ' ', ' ', ' ', ' ', ' ', ' ', ' ', ' ', ' ', ' ', ':', 'S', 'h', 'o', 'r', 't', ':', ' ', 'S', 'a', 't', 'u', 'r', 'a', 't', 'i', 'o', 'n', ' ', 'C', 'a', 'p', 'a', 'c', 'i', 't', 'y', '\n', ' ', ' ', ' ', ' ', ' ', ' ', ' ', ' ', ' ', ' ', ' ', ' ', ':', 'S', 'y', 'm', 'b', 'o', 'l', ':', ' ', '$', '\\', 'm', 'u', '_', '{', 'p', '.', 's', 'a', 't', '.', 'a', 'r', 'e', 'a', '}', '$', '\n', ' ', ' ', ' ', ' ', ' ', ' ', ' ', ' ', ' ', ' ', ' ', ' ', ':', 'U', 'n', 'i', 't', ':', ' ', '$', 'p', '/', '\\', 'm', 'u', ' ', 'm', '^', '2', '$', '\n', ' ', ' ', ' ', ' ', ' ', ' ', ' ', ' ', ' ', ' ', ' ', ' ', ':', 'L', 'a', 't', 'e', 'x', 'N', 'a', 'm', 'e', ':', ' ', 'U', 'P', 'S', 'a', 't', '\n', ' ', ' ', ' ', ' ', ' ', ' ', ' ', ' ']

/-- process/results.py lines 366-376 -/
def doc_u_e_sat : Str := ['S', 'a', 't', 'u', 'r', 'a', 't', 'i', 'o', 'n', ' ', 'C', 'a', 'p', 'a', 'c', 'i', 't', 'y', '.', '\n', '\n', ' ', ' ', ' ', ' ', ' ', ' ', ' ', ' ', 'N', 'u', 'm', 'b', 'e', 'r', ' ', 'o', 'f', ' ', 'e', 'l', 'e', 'c', 't', 'r', 'o', 'n', 's', ' ', 'a', 't', ' ', 's', 'a', 't', 'u', 'r', 'a', 't', 'i', 'o', 'n', '.', '\n', '\n', ' ', ' ', ' ', ' ', ' ', ' ', ' ', ' ', '.', '.', ' ', 'e', 'm', 'v', 'a', '1', '2', '8', '8', ':', ':', '\n', ' ', ' ', ' ', ' ', ' ', ' ', ' ', ' ', ' ', ' ', ' ', ' ', ':', 'S', 'e', 'c', 't', 'i', 'o', 'n', ':', ' ', 's', 'e', 'n', 's', 'i', 't', 'i', 'v', 'i', 't', 'y', '\n', ' ', ' ', ' ', ' ', ' ', ' ', ' ', ' ', ' ', ' ', ' ', ' ', ':', 'S', 'h', 'o', 'r', 't', ':', ' ', 'S', 'a', 't', 'u', 'r', 'a', 't', 'i', 'o', 'n', ' ', 'C', 'a', 'p', 'a', 'c', 'i', 't', 'y', '\n', ' ', ' ', ' ', ' ', ' ', ' ', ' ', ' ', ' ', ' ', ' ', ' ', ':', 'S', 'y', 'm', 'b', 'o', 'l', ':', ' ', '$', '\\', 'm', 'u', '_', '{', 'e', '.', 's', 'a', 't', '}', '$', '\n', ' ', ' ', ' ', ' ', ' ', ' ', ' ', ' ', ' ', ' ', ' ', ' ', ':', 'U', 'n', 'i', 't', ':', ' ', '$', 'e', '^', '-', '$', '\n', ' ', ' ', ' ', ' ', ' ', ' ', ' ', ' ', ' ', ' ', ' ', ' ', ':', 'L', 'a', 't', 'e', 'x', 'N', 'a', 'm', 'e', ':', ' ', 'U', 'E', 'S', 'a', 't', '\n', ' ', ' ', ' ', ' ', ' ', ' ', ' ', ' ']

/-- process/results.py lines 382-392 -/
def doc_u_e_sat_area : Str := ['S', 'a', 't', 'u', 'r', 'a', 't', 'i', 'o', 'n', ' ', 'C', 'a', 'p', 'a', 'c', 'i', 't', 'y', ' ', 'p', 'e', 'r', ' ', 'p', 'i', 'x', 'e', 'l', ' ', 'a', 'r', 'e', 'a', '.', '\n', '\n', ' ', ' ', ' ', ' ', ' ', ' ', ' ', ' ', 'R', 'e', 't', 'u', 'r', 'n', 's', ' ', 'N', 'o', 'n', 'e', ' ', 'i', 'f', ' ', 'p', 'i', 'x', 'e', 'l', ' ', 'a', 'r', 'e', 'a', ' ', 'i', 's', ' ', 'n', 'o', 't', ' ', 'd', 'e', 'f', 'i', 'n', 'e', 'd', ' ', 'o', 'r', ' ', '0', '.', '\n', '\n', ' ', ' ', ' ', ' ', ' ', ' ', ' ', ' ', '.', '.', ' ', 'e', 'm', 'v', 'a', '1', '2', '8', '8', ':', ':', '\n', ' ', ' ', ' ', ' ', ' ', ' ', ' ', ' ', ' ', ' ', ' ', ' ', ':', 'S', 'e', 'c', 't', 'i', 'o', 'n', ':', ' ', 's', 'e', 'n', 's', 'i', 't', 'i', 'v', 'i', 't', 'y', '\n', ' ', ' ', ' ', ' ', ' ', ' ', ' ', ' ', ' ', ' ', ' ', ' ', ':', 'S', 'h', 'o', 'r', 't', ':', ' ', 'S', 'a', 't', 'u', 'r', 'a', 't', 'i', 'o', 'n', ' ', 'C', 'a', 'p', 'a', 'c', 'i', 't', 'y', '\n', ' ', ' ', ' ', ' ', ' ', ' ', ' ', ' ', ' ', ' ', ' ', ' ', ':', 'S', 'y', 'm', 'b', 'o', 'l', ':', ' ', '$', '\\', 'm', 'u', '_', '{', 'e', '.', 's', 'a', 't', '.', 'a', 'r', 'e', 'a', '}', '$', '\n', ' ', ' ', ' ', ' ', ' ', ' ', ' ', ' ', ' ', ' ', ' ', ' ', ':', 'U', 'n', 'i', 't', ':', ' ', '$', 'e', '^', '-', '/', '\\', 'm', 'u', ' ', 'm', '^', '2', '$', '\n', ' ', ' ', ' ', ' ', ' ', ' ', ' ', ' ', ' ', ' ', ' ', ' ', ':', 'L', 'a', 't', 'e', 'x', 'N', 'a', 'm', 'e', ':', ' ', 'U', 'E', 'S', 'a', 't', '\n', ' ', ' ', ' ', ' ', ' ', ' ', ' ', ' ']

/-- process/results.py lines 401-408 -/
def doc_SNR_max : Str := ['M', 'a', 'x', 'i', 'm', 'u', 'm', ' ', 'S', 'i', 'g', 'n', 'a', 'l', '-', 't', 'o', '-', 'N', 'o', 'i', 's', 'e', ' ', 'R', 'a', 't', 'i', 'o', '.', '\n', '\n', ' ', ' ', ' ', ' ', ' ', ' ', ' ', ' ', '.', '.', ' ', 'e', 'm', 'v', 'a', '1', '2', '8', '8', ':', ':', '\n', ' ', ' ', ' ', ' ', ' ', ' ', ' ', ' ', ' ', ' ', ' ', ' ', ':', 'S', 'e', 'c', 't', 'i', 'o', 'n', ':', ' ', 's', 'e', 'n', 's', 'i', 't', 'i', 'v', 'i', 't', 'y', '\n', ' ', ' ', ' ', ' ', ' ', ' ', ' ', ' ', ' ', ' ', ' ', ' ', ':', 'S', 'h', 'o', 'r', 't', ':', ' ', 'S', 'i', 'g', 'n', 'a', 'l', '-', 't', 'o', '-', 'N', 'o', 'i', 's', 'e', ' ', 'R', 'a', 't', 'i', 'o', '\n', ' ', ' ', ' ', ' ', ' ', ' ', ' ', ' ', ' ', ' ', ' ', ' ', ':', 'S', 'y', 'm', 'b', 'o', 'l', ':', ' ', '$', 'S', 'N', 'R', '_', '{', 'm', 'a', 'x', '}', '$', '\n', ' ', ' ', ' ', ' ', ' ', ' ', ' ', ' ', ' ', ' ', ' ', ' ', ':', 'L', 'a', 't', 'e', 'x', 'N', 'a', 'm', 'e', ':', ' ', 'S', 'N', 'R', 'M', 'a', 'x', '\n', ' ', ' ', ' ', ' ', ' ', ' ', ' ', ' ']

/-- process/results.py lines 413-421 -/
def doc_SNR_max_dB : Str := ['M', 'a', 'x', 'i', 'm', 'u', 'm', ' ', 'S', 'i', 'g', 'n', 'a', 'l', ' ', 't', 'o', ' ', 'N', 'o', 'i', 's', 'e', ' ', 'R', 'a', 't', 'i', 'o', ' ', 'i', 'n', ' ', 'D', 'b', '.', '\n', '\n', ' ', ' ', ' ', ' ', ' ', ' ', ' ', ' ', '.', '.', ' ', 'e', 'm', 'v', 'a', '1', '2', '8', '8', ':', ':', '\n', ' ', ' ', ' ', ' ', ' ', ' ', ' ', ' ', ' ', ' ', ' ', ' ', ':', 'S', 'e', 'c', 't', 'i', 'o', 'n', ':', ' ', 's', 'e', 'n', 's', 'i', 't', 'i', 'v', 'i', 't', 'y', '\n', ' ', ' ', ' ', ' ', ' ', ' ', ' ', ' ', ' ', ' ', ' ', ' ', ':', 'S', 'h', 'o', 'r', 't', ':', ' ', 'M', 'a', 'x', 'i', 'm', 'u', 'm', ' ', 'S', 'i', 'g', 'n', 'a', 'l', ' ', 't', 'o', ' ', 'N', 'o', 'i', 's', 'e', ' ', 'R', 'a', 't', 'i', 'o', ' ', 'i', 'n', ' ', 'D', 'b', '\n', ' ', ' ', ' ', ' ', ' ', ' ', ' ', ' ', ' ', ' ', ' ', ' ', ':', 'S', 'y', 'm', 'b', 'o', 'l', ':', ' ', '$', 'S', 'N', 'R', '_', '{', 'm', 'a', 'x', '.', 'd', 'B', '}', '$', '\n', ' ', ' ', ' ', ' ', ' ', ' ', ' ', ' ', ' ', ' ', ' ', ' ', ':', 'U', 'n', 'i', 't', ':', ' ', 'd', 'B', '\n', ' ', ' ', ' ', ' ', ' ', ' ', ' ', ' ', ' ', ' ', ' ', ' ', ':', 'L', 'a', 't', 'e', 'x', 'N', 'a', 'm', 'e', ':', ' ', 'S', 'N', 'R', 'M', 'a', 'x', 'D', 'B', '\n', ' ', ' ', ' ', ' ', ' ', ' ', ' ', ' ']

/-- process/results.py lines 426-434 -/
def doc_SNR_max_bit : Str := ['M', 'a', 'x', 'i', 'm', 'u', 'm', ' ', 'S', 'i', 'g', 'n', 'a', 'l', ' ', 't', 'o', ' ', 'N', 'o', 'i', 's', 'e', ' ', 'R', 'a', 't', 'i', 'o', ' ', 'i', 'n', ' ', 'B', 'i', 't', 's', '.', '\n', '\n', ' ', ' ', ' ', ' ', ' ', ' ', ' ', ' ', '.', '.', ' ', 'e', 'm', 'v', 'a', '1', '2', '8', '8', ':', ':', '\n', ' ', ' ', ' ', ' ', ' ', ' ', ' ', ' ', ' ', ' ', ' ', ' ', ':', 'S', 'e', 'c', 't', 'i', 'o', 'n', ':', ' ', 's', 'e', 'n', 's', 'i', 't', 'i', 'v', 'i', 't', 'y', '\n', ' ', ' ', ' ', ' ', ' ', ' ', ' ', ' ', ' ', ' ', ' ', ' ', ':', 'S', 'h', 'o', 'r', 't', ':', ' ', 'M', 'a', 'x', 'i', 'm', 'u', 'm', ' ', 'S', 'i', 'g', 'n', 'a', 'l', ' ', 't', 'o', ' ', 'N', 'o', 'i', 's', 'e', ' ', 'R', 'a', 't', 'i', 'o', ' ', 'i', 'n', ' ', 'B', 'i', 't', 's', '\n', ' ', ' ', ' ', ' ', ' ', ' ', ' ', ' ', ' ', ' ', ' ', ' ', ':', 'S', 'y', 'm', 'b', 'o', 'l', ':', ' ', '$', 'S', 'N', 'R', '_', '{', 'm', 'a', 'x', '.', 'b', 'i', 't', '}', '$', '\n', ' ', ' ', ' ', ' ', ' ', ' ', ' ', ' ', ' ', ' ', ' ', ' ', ':', 'U', 'n', 'i', 't', ':', ' ', 'b', 'i', 't', '\n', ' ', ' ', ' ', ' ', ' ', ' ', ' ', ' ', ' ', ' ', ' ', ' ', ':', 'L', 'a', 't', 'e', 'x', 'N', 'a', 'm', 'e', ':', ' ', 'S', 'N', 'R', 'M', 'a', 'x', 'B', 'i', 't', '\n', ' ', ' ', ' ', ' ', ' ', ' ', ' ', ' ']

/-- process/results.py lines 439-447 -/
def doc_inverse_SNR_max : Str := ['I', 'n', 'v', 'e', 'r', 's', 'e', ' ', 'M', 'a', 'x', 'i', 'm', 'u', 'm', ' ', 'S', 'i', 'g', 'n', 'a', 'l', ' ', 't', 'o', ' ', 'N', 'o', 'i', 's', 'e', ' ', 'R', 'a', 't', 'i', 'o', '.', '\n', '\n', ' ', ' ', ' ', ' ', ' ', ' ', ' ', ' ', '.', '.', ' ', 'e', 'm', 'v', 'a', '1', '2', '8', '8', ':', ':', '\n', ' ', ' ', ' ', ' ', ' ', ' ', ' ', ' ', ' ', ' ', ' ', ' ', ':', 'S', 'e', 'c', 't', 'i', 'o', 'n', ':', ' ', 's', 'e', 'n', 's', 'i', 't', 'i', 'v', 'i', 't', 'y', '\n', ' ', ' ', ' ', ' ', ' ', ' ', ' ', ' ', ' ', ' ', ' ', ' ', ':', 'S', 'h', 'o', 'r', 't', ':', ' ', 'I', 'n', 'v', 'e', 'r', 's', 'e', ' ', 'M', 'a', 'x', 'i', 'm', 'u', 'm', ' ', 'S', 'i', 'g', 'n', 'a', 'l', ' ', 't', 'o', ' ', 'N', 'o', 'i', 's', 'e', ' ', 'R', 'a', 't', 'i', 'o', '\n', ' ', ' ', ' ', ' ', ' ', ' ', ' ', ' ', ' ', ' ', ' ', ' ', ':', 'S', 'y', 'm', 'b', 'o', 'l', ':', ' ', '$', 'S', 'N', 'R', '_', '{', 'm', 'a', 'x', '}', '^', '{', '-', '1', '}', '$', '\n', ' ', ' ', ' ', ' ', ' ', ' ', ' ', ' ', ' ', ' ', ' ', ' ', ':', 'U', 'n', 'i', 't', ':', ' ', '\\', '%', '\n', ' ', ' ', ' ', ' ', ' ', ' ', ' ', ' ', ' ', ' ', ' ', ' ', ':', 'L', 'a', 't', 'e', 'x', 'N', 'a', 'm', 'e', ':', ' ', 'I', 'n', 'v', 'S', 'N', 'R', 'M', 'a', 'x', '\n', ' ', ' ', ' ', ' ', ' ', ' ', ' ', ' ']

/-- process/results.py lines 453-465 -/
def doc_DR : Str := ['D', 'y', 'n', 'a', 'm', 'i', 'c', ' ', 'R', 'a', 'n', 'g', 'e', '.', '\n', '\n', ' ', ' ', ' ', ' ', ' ', ' ', ' ', ' ', 'D', 'e', 'f', 'i', 'n', 'e', 'd', ' ', 'a', 's', ' ', 't', 'h', 'e', ' ', 's', 'a', 't', 'u', 'r', 'a', 't', 'i', 'o', 'n', ' ', 'c', 'a', 'p', 'a', 'c', 'i', 't', 'y', ' ', 'd', 'i', 'v', 'i', 'd', 'e', 'd', ' ', 'b', 'y', ' ', 't', 'h', 'e', ' ', 'a', 'b', 's', 'o', 'l', 'u', 't', 'e', ' ', 's', 'e', 'n', 's', 'i', 't', 'i', 'v', 'i', 't', 'y', '\n', ' ', ' ', ' ', ' ', ' ', ' ', ' ', ' ', 't', 'h', 'r', 'e', 's', 'h', 'o', 'l', 'd', '.', ' ', 'T', 'h', 'e', ' ', 'g', 'r', 'e', 'a', 't', 'e', 'r', ' ', 't', 'h', 'i', 's', ' ', 'n', 'u', 'm', 'b', 'e', 'r', ' ', 'i', 's', ',', ' ', 't', 'h', 'e', ' ', 'g', 'r', 'e', 'a', 't', 'e', 'r', ' ', 't', 'h', 'e', ' ', 'o', 'p', 'e', 'r', 'a', 't', 'i', 'o', 'n', 'a', 'l', '\n', ' ', ' ', ' ', ' ', ' ', ' ', ' ', ' ', 'r', 'a', 'n', 'g', 'e', ' ', 'o', 'f', ' ', 'a', ' ', 'c', 'a', 'm', 'e', 'r', 'a', ' ', '(', 'b', 'e', 't', 'w', 'e', 'e', 'n', ' ', 't', 'h', 'e', ' ', 'd', 'a', 'r', 'k', ' ', 'n', 'o', 'i', 's', 'e', ' ', 'l', 'e', 'v', 'e', 'l', ' ', 'a', 'n', 'd', ' ', 't', 'h', 'e', ' ', 's', 'a', 't', 'u', 'r', 'a', 't', 'i', 'o', 'n', '\n', ' ', ' ', ' ', ' ', ' ', ' ', ' ', ' ', 'l', 'e', 'v', 'e', 'l', ')', '.', '\n', '\n', ' ', ' ', ' ', ' ', ' ', ' ', ' ', ' ', '.', '.', ' ', 'e', 'm', 'v', 'a', '1', '2', '8', '8', ':', ':', '\n', ' ', ' ', ' ', ' ', ' ', ' ', ' ', ' ', ' ', ' ', ' ', ' ', ':', 'S', 'e', 'c', 't', 'i', 'o', 'n', ':', ' ', 's', 'e', 'n', 's', 'i', 't', 'i', 'v', 'i', 't', 'y', '\n', ' ', ' ', ' ', ' ', ' ', ' ', ' ', ' ', ' ', ' ', ' ', ' ', ':', 'S', 'h', 'o', 'r', 't', ':', ' ', 'D', 'y', 'n', 'a', 'm', 'i', 'c', ' ', 'R', 'a', 'n', 'g', 'e', '\n', ' ', ' ', ' ', ' ', ' ', ' ', ' ', ' ', ' ', ' ', ' ', ' ', ':', 'S', 'y', 'm', 'b', 'o', 'l', ':', ' ', 'D', 'R', '\n', ' ', ' ', ' ', ' ', ' ', ' ', ' ', ' ', ' ', ' ', ' ', ' ', ':', 'L', 'a', 't', 'e', 'x', 'N', 'a', 'm', 'e', ':', ' ', 'D', 'R', '\n', ' ', ' ', ' ', ' ', ' ', ' ', ' ', ' ']

/-- process/results.py lines 470-480 -/
def doc_DR_dB : Str := ['D', 'y', 'n', 'a', 'm', 'i', 'c', ' ', 'R', 'a', 'n', 'g', 'e', ' ', 'i', 'n', ' ', 'd', 'e', 'c', 'i', 'B', 'e', 'l', 's', '.', '\n', '\n', ' ', ' ', ' ', ' ', ' ', ' ', ' ', ' ', 'I', 't', ' ', 'i', 's', ' ', 'd', 'e', 'f', 'i', 'n', 'e', 'd', ' ', 'a', 's', ' ', '2', '0', ' ', '*', ' ', 'l', 'o', 'g', '_', '1', '0', ' ', '(', ' ', 'D', 'y', 'n', 'a', 'm', 'i', 'c', ' ', 'R', 'a', 'n', 'g', 'e', ' ', ')', '.', '\n', '\n', ' ', ' ', ' ', ' ', ' ', ' ', ' ', ' ', '.', '.', ' ', 'e', 'm', 'v', 'a', '1', '2', '8', '8', ':', ':', '\n', ' ', ' ', ' ', ' ', ' ', ' ', ' ', ' ', ' ', ' ', ' ', ' ', ':', 'S', 'e', 'c', 't', 'i', 'o', 'n', ':', ' ', 's', 'e', 'n', 's', 'i', 't', 'i', 'v', 'i', 't', 'y', '\n', ' ', ' ', ' ', ' ', ' ', ' ', ' ', ' ', ' ', ' ', ' ', ' ', ':', 'S', 'h', 'o', 'r', 't', ':', ' ', 'D', 'y', 'n', 'a', 'm', 'i', 'c', ' ', 'R', 'a', 'n', 'g', 'e', '\n', ' ', ' ', ' ', ' ', ' ', ' ', ' ', ' ', ' ', ' ', ' ', ' ', ':', 'S', 'y', 'm', 'b', 'o', 'l', ':', ' ', '$', 'D', 'R', '_', '{', 'd', 'B', '}', '$', '\n', ' ', ' ', ' ', ' ', ' ', ' ', ' ', ' ', ' ', ' ', ' ', ' ', ':', 'U', 'n', 'i', 't', ':', ' ', 'd', 'B', '\n', ' ', ' ', ' ', ' ', ' ', ' ', ' ', ' ', ' ', ' ', ' ', ' ', ':', 'L', 'a', 't', 'e', 'x', 'N', 'a', 'm', 'e', ':', ' ', 'D', 'R', 'D', 'B', '\n', ' ', ' ', ' ', ' ', ' ', ' ', ' ', ' ']

/-- process/results.py lines 486-493 -/
def doc_index_linearity_min : Str := ['L', 'i', 'n', 'e', 'a', 'r', 'i', 't', 'y', ' ', 'f', 'i', 't', ' ', 'm', 'i', 'n', 'i', 'm', 'u', 'n', ' ', 'i', 'n', 'd', 'e', 'x', '.', '\n', '\n', ' ', ' ', ' ', ' ', ' ', ' ', ' ', ' ', 'M', 'i', 'n', 'i', 'm', 'u', 'm', ' ', 'i', 'n', 'd', 'e', 'x', ' ', 'f', 'o', 'r', ' ', 'l', 'i', 'n', 'e', 'a', 'r', ' ', 'f', 'i', 't', ' ', '(', '5', '%', ' ', 'o', 'f', ' ', 's', 'a', 't', 'u', 'r', 'a', 't', 'i', 'o', 'n', ')', '.', '\n', '\n', ' ', ' ', ' ', ' ', ' ', ' ', ' ', ' ', '.', '.', ' ', 'e', 'm', 'v', 'a', '1', '2', '8', '8', ':', ':', '\n', ' ', ' ', ' ', ' ', ' ', ' ', ' ', ' ', ' ', ' ', ' ', ' ', ':', 'S', 'e', 'c', 't', 'i', 'o', 'n', ':', ' ', 'l', 'i', 'n', 'e', 'a', 'r', 'i', 't', 'y', '\n', ' ', ' ', ' ', ' ', ' ', ' ', ' ', ' ', ' ', ' ', ' ', ' ', ':', 'S', 'h', 'o', 'r', 't', ':', ' ', 'L', 'i', 'n', 'e', 'a', 'r', 'i', 't', 'y', ' ', 'f', 'i', 't', ' ', 'm', 'i', 'n', 'i', 'm', 'u', 'n', ' ', 'i', 'n', 'd', 'e', 'x', '\n', ' ', ' ', ' ', ' ', ' ', ' ', ' ', ' ']

/-- process/results.py lines 501-508 -/
def doc_index_linearity_max : Str := ['L', 'i', 'n', 'e', 'a', 'r', 'i', 't', 'y', ' ', 'f', 'i', 't', ' ', 'm', 'a', 'x', 'i', 'm', 'u', 'm', ' ', 'i', 'n', 'd', 'e', 'x', '.', '\n', '\n', ' ', ' ', ' ', ' ', ' ', ' ', ' ', ' ', 'M', 'a', 'x', 'i', 'm', 'u', 'm', ' ', 'i', 'n', 'd', 'e', 'x', ' ', 'f', 'o', 'r', ' ', 'l', 'i', 'n', 'e', 'a', 'r', ' ', 'f', 'i', 't', ' ', '(', '9', '5', '%', ' ', 'o', 'f', ' ', 's', 'a', 't', 'u', 'r', 'a', 't', 'i', 'o', 'n', ')', '.', '\n', '\n', ' ', ' ', ' ', ' ', ' ', ' ', ' ', ' ', '.', '.', ' ', 'e', 'm', 'v', 'a', '1', '2', '8', '8', ':', ':', '\n', ' ', ' ', ' ', ' ', ' ', ' ', ' ', ' ', ' ', ' ', ' ', ' ', ':', 'S', 'e', 'c', 't', 'i', 'o', 'n', ':', ' ', 'l', 'i', 'n', 'e', 'a', 'r', 'i', 't', 'y', '\n', ' ', ' ', ' ', ' ', ' ', ' ', ' ', ' ', ' ', ' ', ' ', ' ', ':', 'S', 'h', 'o', 'r', 't', ':', ' ', 'L', 'i', 'n', 'e', 'a', 'r', 'i', 't', 'y', ' ', 'f', 'i', 't', ' ', 'm', 'a', 'x', 'i', 'm', 'u', 'm', ' ', 'i', 'n', 'd', 'e', 'x', '\n', ' ', ' ', ' ', ' ', ' ', ' ', ' ', ' ']

/-- process/results.py lines 515-533 -/
def doc_linearity : Str := ['R', 'e', 't', 'u', 'r', 'n', 's', ' ', 'a', ' ', 'd', 'i', 'c', 't', 'i', 'o', 'n', 'a', 'r', 'y', ' ', 'c', 'o', 'n', 't', 'a', 'i', 'n', 'i', 'n', 'g', ' ', 'l', 'i', 'n', 'e', 'a', 'r', 'i', 't', 'y', ' ', 'i', 'n', 'f', 'o', 'r', 'm', 'a', 't', 'i', 'o', 'n', '.', '\n', '\n', ' ', ' ', ' ', ' ', ' ', ' ', ' ', ' ', 'I', 't', ' ', 'f', 'i', 't', 's', ' ', 't', 'h', 'e', ' ', 'm', 'e', 'a', 'n', ' ', 'd', 'i', 'g', 'i', 't', 'a', 'l', ' ', 's', 'i', 'g', 'n', 'a', 'l', ' ', 'i', 'n', ' ', 'f', 'u', 'n', 'c', 't', 'i', 'o', 'n', ' ', 'o', 'f', ' ', 't', 'h', 'e', ' ', 'm', 'e', 'a', 'n', ' ', 'p', 'h', 'o', 't', 'o', 'n', ' ', 'c', 'o', 'u', 'n', 't', '\n', ' ', ' ', ' ', ' ', ' ', ' ', ' ', ' ', '(', 'L', 'i', 'n', 'e', 'a', 'r', ' ', 'f', 'i', 't', ')', ' ', 'u', 's', 'i', 'n', 'g', ' ', 't', 'h', 'e', ' ', 'E', 'M', 'V', 'A', '1', '2', '8', '8', ' ', 's', 't', 'a', 'n', 'd', 'a', 'r', 'd', ' ', 'f', 'o', 'r', ' ', 'l', 'i', 'n', 'e', 'a', 'r', ' ', 'f', 'i', 't', '.', '\n', '\n', ' ', ' ', ' ', ' ', ' ', ' ', ' ', ' ', 'R', 'e', 't', 'u', 'r', 'n', 's', '\n', ' ', ' ', ' ', ' ', ' ', ' ', ' ', ' ', '-', '-', '-', '-', '-', '-', '-', '\n', ' ', ' ', ' ', ' ', ' ', ' ', ' ', ' ', 'd', 'i', 'c', 't', ' ', ':', ' ', 'L', 'i', 'n', 'e', 'a', 'r', 'i', 't', 'y', ' ', 'd', 'i', 'c', 't', 'i', 'o', 'n', 'a', 'r', 'y', '.', '\n', ' ', ' ', ' ', ' ', ' ', ' ', ' ', ' ', ' ', ' ', ' ', ' ', ' ', ' ', ' ', 'T', 'h', 'e', ' ', 'k', 'e', 'y', 's', ' ', 'a', 'r', 'e', ':', '\n', '\n', ' ', ' ', ' ', ' ', ' ', ' ', ' ', ' ', ' ', ' ', ' ', ' ', ' ', ' ', ' ', '-', ' ', '*', '\'', 'f', 'i', 't', '_', 's', 'l', 'o', 'p', 'e', '\'', '*', ' ', ':', ' ', 'T', 'h', 'e', ' ', 's', 'l', 'o', 'p', 'e', ' ', 'o', 'f', ' ', 't', 'h', 'e', ' ', 'l', 'i', 'n', 'e', 'a', 'r', ' ', 'f', 'i', 't', '.', '\n', ' ', ' ', ' ', ' ', ' ', ' ', ' ', ' ', ' ', ' ', ' ', ' ', ' ', ' ', ' ', '-', ' ', '*', '\'', 'f', 'i', 't', '_', 'o', 'f', 'f', 's', 'e', 't', '\'', '*', ' ', ':', ' ', 'T', 'h', 'e', ' ', 'o', 'f', 'f', 's', 'e', 't', ' ', 'o', 'f', ' ', 't', 'h', 'e', ' ', 'f', 'i', 't', '.', '\n', ' ', ' ', ' ', ' ', ' ', ' ', ' ', ' ', ' ', ' ', ' ', ' ', ' ', ' ', ' ', '-', ' ', '*', '\'', 'r', 'e', 'l', 'a', 't', 'i', 'v', 'e', '_', 'd', 'e', 'v', 'i', 'a', 't', 'i', 'o', 'n', '\'', '*', ' ', ':', ' ', 'T', 'h', 'e', ' ', 'r', 'e', 'l', 'a', 't', 'i', 'v', 'e', ' ', 'd', 'e', 'v', 'i', 'a', 't', 'i', 'o', 'n', ' ', 'o', 'f', ' ', 't', 'h', 'e', ' ', 'r', 'e', 'a', 'l', '\n', ' ', ' ', ' ', ' ', ' ', ' ', ' ', ' ', ' ', ' ', ' ', ' ', ' ', ' ', ' ', ' ', ' ', 'd', 'a', 't', 'a', ' ', 'f', 'r', 'o', 'm', ' ', 't', 'h', 'e', ' ', 'f', 'i', 't', ' ', '(', 'i', 'n', ' ', '%', ')', ' ', 'f', 'o', 'r', ' ', 't', 'h', 'e', ' ', 'w', 'h', 'o', 'l', 'e', ' ', 'a', 'r', 'r', 'a', 'y', '.', '\n', ' ', ' ', ' ', ' ', ' ', ' ', ' ', ' ', ' ', ' ', ' ', ' ', ' ', ' ', ' ', '-', ' ', '*', '\'', 'l', 'i', 'n', 'e', 'a', 'r', 'i', 't', 'y', '_', 'e', 'r', 'r', 'o', 'r', '_', 'm', 'i', 'n', '\'', '*', ' ', ':', ' ', 'T', 'h', 'e', ' ', 'm', 'i', 'n', 'i', 'm', 'a', 'l', ' ', 'v', 'a', 'l', 'u', 'e', ' ', 'o', 'f', ' ', 't', 'h', 'e', '\n', ' ', ' ', ' ', ' ', ' ', ' ', ' ', ' ', ' ', ' ', ' ', ' ', ' ', ' ', ' ', ' ', ' ', 'r', 'e', 'l', 'a', 't', 'i', 'v', 'e', ' ', 'd', 'e', 'v', 'i', 'a', 't', 'i', 'o', 'n', '.', '\n', ' ', ' ', ' ', ' ', ' ', ' ', ' ', ' ', ' ', ' ', ' ', ' ', ' ', ' ', ' ', '-', ' ', '*', '\'', 'l', 'i', 'n', 'e', 'a', 'r', 'i', 't', 'y', '_', 'e', 'r', 'r', 'o', 'r', '_', 'm', 'a', 'x', '\'', '*', ' ', ':', ' ', 'T', 'h', 'e', ' ', 'm', 'a', 'x', 'i', 'm', 'a', 'l', ' ', 'v', 'a', 'l', 'u', 'e', ' ', 'o', 'f', ' ', 't', 'h', 'e', '\n', ' ', ' ', ' ', ' ', ' ', ' ', ' ', ' ', ' ', ' ', ' ', ' ', ' ', ' ', ' ', ' ', ' ', 'r', 'e', 'l', 'a', 't', 'i', 'v', 'e', ' ', 'd', 'e', 'v', 'i', 'a', 't', 'i', 'o', 'n', '.', '\n', ' ', ' ', ' ', ' ', ' ', ' ', ' ', ' ']

/-- process/results.py lines 573-581 -/
def doc_LE_min : Str := [' ', 'M', 'i', 'n', ' ', 'L', 'i', 'n', 'e', 'a', 'r', 'i', 't', 'y', ' ', 'e', 'r', 'r', 'o', 'r', '.', '\n', '\n', ' ', ' ', ' ', ' ', ' ', ' ', ' ', ' ', '.', '.', ' ', 'e', 'm', 'v', 'a', '1', '2', '8', '8', ':', ':', '\n', ' ', ' ', ' ', ' ', ' ', ' ', ' ', ' ', ' ', ' ', ' ', ' ', ':', 'S', 'e', 'c', 't', 'i', 'o', 'n', ':', ' ', 'l', 'i', 'n', 'e', 'a', 'r', 'i', 't', 'y', '\n', ' ', ' ', ' ', ' ', ' ', ' ', ' ', ' ', ' ', ' ', ' ', ' ', ':', 'S', 'h', 'o', 'r', 't', ':', ' ', 'M', 'i', 'n', ' ', 'L', 'i', 'n', 'e', 'a', 'r', 'i', 't', 'y', ' ', 'e', 'r', 'r', 'o', 'r', '\n', ' ', ' ', ' ', ' ', ' ', ' ', ' ', ' ', ' ', ' ', ' ', ' ', ':', 'S', 'y', 'm', 'b', 'o', 'l', ':', ' ', '$', 'L', 'E', '_', '{', 'm', 'i', 'n', '}', '$', '\n', ' ', ' ', ' ', ' ', ' ', ' ', ' ', ' ', ' ', ' ', ' ', ' ', ':', 'U', 'n', 'i', 't', ':', ' ', '\\', '%', '\n', ' ', ' ', ' ', ' ', ' ', ' ', ' ', ' ', ' ', ' ', ' ', ' ', ':', 'L', 'a', 't', 'e', 'x', 'N', 'a', 'm', 'e', ':', ' ', 'L', 'E', 'M', 'i', 'n', '\n', ' ', ' ', ' ', ' ', ' ', ' ', ' ', ' ']

/-- process/results.py lines 587-595 -/
def doc_LE_max : Str := ['M', 'a', 'x', ' ', 'L', 'i', 'n', 'e', 'a', 'r', 'i', 't', 'y', ' ', 'e', 'r', 'r', 'o', 'r', '.', '\n', '\n', ' ', ' ', ' ', ' ', ' ', ' ', ' ', ' ', '.', '.', ' ', 'e', 'm', 'v', 'a', '1', '2', '8', '8', ':', ':', '\n', ' ', ' ', ' ', ' ', ' ', ' ', ' ', ' ', ' ', ' ', ' ', ' ', ':', 'S', 'e', 'c', 't', 'i', 'o', 'n', ':', ' ', 'l', 'i', 'n', 'e', 'a', 'r', 'i', 't', 'y', '\n', ' ', ' ', ' ', ' ', ' ', ' ', ' ', ' ', ' ', ' ', ' ', ' ', ':', 'S', 'h', 'o', 'r', 't', ':', ' ', 'M', 'a', 'x', ' ', 'L', 'i', 'n', 'e', 'a', 'r', 'i', 't', 'y', ' ', 'e', 'r', 'r', 'o', 'r', '\n', ' ', ' ', ' ', ' ', ' ', ' ', ' ', ' ', ' ', ' ', ' ', ' ', ':', 'S', 'y', 'm', 'b', 'o', 'l', ':', ' ', '$', 'L', 'E', '_', '{', 'm', 'a', 'x', '}', '$', '\n', ' ', ' ', ' ', ' ', ' ', ' ', ' ', ' ', ' ', ' ', ' ', ' ', ':', 'U', 'n', 'i', 't', ':', ' ', '\\', '%', '\n', ' ', ' ', ' ', ' ', ' ', ' ', ' ', ' ', ' ', ' ', ' ', ' ', ':', 'L', 'a', 't', 'e', 'x', 'N', 'a', 'm', 'e', ':', ' ', 'L', 'E', 'M', 'a', 'x', '\n', ' ', ' ', ' ', ' ', ' ', ' ', ' ', ' ']

/-- process/results.py lines 601-613 -/
def doc_u_I_var_DN : Str := ['D', 'a', 'r', 'k', ' ', 'C', 'u', 'r', 'r', 'e', 'n', 't', ' ', 'f', 'r', 'o', 'm', ' ', 'v', 'a', 'r', 'i', 'a', 'n', 'c', 'e', '.', '\n', '\n', ' ', ' ', ' ', ' ', ' ', ' ', ' ', ' ', 'T', 'h', 'e', ' ', 'd', 'a', 'r', 'k', ' ', 'c', 'u', 'r', 'r', 'e', 'n', 't', ' ', 'f', 'r', 'o', 'm', ' ', 'v', 'a', 'r', 'i', 'a', 'n', 'c', 'e', ' ', '(', 'i', 'n', ' ', 'D', 'N', '/', 's', ')', ' ', 'i', 's', ' ', 't', 'h', 'e', ' ', 's', 'l', 'o', 'p', 'e', ' ', 'o', 'f', ' ', 't', 'h', 'e', ' ', 'd', 'a', 'r', 'k', '\n', ' ', ' ', ' ', ' ', ' ', ' ', ' ', ' ', 's', 'i', 'g', 'n', 'a', 'l', ' ', 'v', 'a', 'r', 'i', 'a', 'n', 'c', 'e', ' ', 'a', 's', ' ', 'a', ' ', 'f', 'u', 'n', 'c', 't', 'i', 'o', 'n', ' ', 'o', 'f', ' ', 't', 'h', 'e', ' ', 'e', 'x', 'p', 'o', 's', 'u', 'r', 'e', ' ', 't', 'i', 'm', 'e', ' ', 'd', 'i', 'v', 'i', 'd', 'e', 'd', ' ', 'b', 'y', ' ', 't', 'h', 'e', '\n', ' ', ' ', ' ', ' ', ' ', ' ', ' ', ' ', 's', 'y', 's', 't', 'e', 'm', ' ', 'g', 'a', 'i', 'n', '.', ' ', 'R', 'e', 't', 'u', 'r', 'n', 's', ' ', 'N', 'a', 'N', ' ', 'i', 'f', ' ', 't', 'h', 'e', ' ', 's', 'l', 'o', 'p', 'e', ' ', 'i', 's', ' ', 'n', 'e', 'g', 'a', 't', 'i', 'v', 'e', '.', '\n', '\n', ' ', ' ', ' ', ' ', ' ', ' ', ' ', ' ', '.', '.', ' ', 'e', 'm', 'v', 'a', '1', '2', '8', '8', ':', ':', '\n', ' ', ' ', ' ', ' ', ' ', ' ', ' ', ' ', ' ', ' ', ' ', ' ', ':', 'S', 'e', 'c', 't', 'i', 'o', 'n', ':', ' ', 'd', 'a', 'r', 'k', '_', 'c', 'u', 'r', 'r', 'e', 'n', 't', '\n', ' ', ' ', ' ', ' ', ' ', ' ', ' ', ' ', ' ', ' ', ' ', ' ', ':', 'S', 'h', 'o', 'r', 't', ':', ' ', 'D', 'a', 'r', 'k', ' ', 'C', 'u', 'r', 'r', 'e', 'n', 't', ' ', 'f', 'r', 'o', 'm', ' ', 'v', 'a', 'r', 'i', 'a', 'n', 'c', 'e', '\n', ' ', ' ', ' ', ' ', ' ', ' ', ' ', ' ', ' ', ' ', ' ', ' ', ':', 'S', 'y', 'm', 'b', 'o', 'l', ':', ' ', '$', '\\', 'm', 'u', '_', '{', 'I', '.', 'v', 'a', 'r', '.', 'D', 'N', '}', '$', '\n', ' ', ' ', ' ', ' ', ' ', ' ', ' ', ' ', ' ', ' ', ' ', ' ', ':', 'U', 'n', 'i', 't', ':', ' ', '$', 'D', 'N', '/', 's', '$', '\n', ' ', ' ', ' ', ' ', ' ', ' ', ' ', ' ', ' ', ' ', ' ', ' ', ':', 'L', 'a', 't', 'e', 'x', 'N', 'a', 'm', 'e', ':', ' ', 'U', 'I', 'V', 'a', 'r', '\n', ' ', ' ', ' ', ' ', ' ', ' ', ' ', ' ']

/-- process/results.py lines 627-639 -/
def doc_u_I_var : Str := ['D', 'a', 'r', 'k', ' ', 'C', 'u', 'r', 'r', 'e', 'n', 't', ' ', 'f', 'r', 'o', 'm', ' ', 'v', 'a', 'r', 'i', 'a', 'n', 'c', 'e', '.', '\n', '\n', ' ', ' ', ' ', ' ', ' ', ' ', ' ', ' ', 'T', 'h', 'e', ' ', 'd', 'a', 'r', 'k', ' ', 'c', 'u', 'r', 'r', 'e', 'n', 't', ' ', 'f', 'r', 'o', 'm', ' ', 'v', 'a', 'r', 'i', 'a', 'n', 'c', 'e', ' ', '(', 'i', 'n', ' ', 'e', '-', '/', 's', ')', ' ', 'i', 's', ' ', 't', 'h', 'e', ' ', 'd', 'a', 'r', 'k', ' ', 'c', 'u', 'r', 'r', 'e', 'n', 't', ' ', 'f', 'r', 'o', 'm', '\n', ' ', ' ', ' ', ' ', ' ', ' ', ' ', ' ', 'v', 'a', 'r', 'i', 'a', 'n', 'c', 'e', ' ', '(', 'i', 'n', ' ', 'D', 'N', '/', 's', ')', ' ', 'd', 'i', 'v', 'i', 'd', 'e', 'd', ' ', 'b', 'y', ' ', 't', 'h', 'e', ' ', 's', 'y', 's', 't', 'e', 'm', ' ', 'g', 'a', 'i', 'n', '.', '\n', ' ', ' ', ' ', ' ', ' ', ' ', ' ', ' ', 'R', 'e', 't', 'u', 'r', 'n', 's', ' ', 'N', 'a', 'N', ' ', 'i', 'f', ' ', 't', 'h', 'e', ' ', 'f', 'i', 't', ' ', 's', 'l', 'o', 'p', 'e', ' ', 'i', 's', ' ', 'n', 'e', 'g', 'a', 't', 'i', 'v', 'e', '.', '\n', '\n', ' ', ' ', ' ', ' ', ' ', ' ', ' ', ' ', '.', '.', ' ', 'e', 'm', 'v', 'a', '1', '2', '8', '8', ':', ':', '\n', ' ', ' ', ' ', ' ', ' ', ' ', ' ', ' ', ' ', ' ', ' ', ' ', ':', 'S', 'e', 'c', 't', 'i', 'o', 'n', ':', ' ', 'd', 'a', 'r', 'k', '_', 'c', 'u', 'r', 'r', 'e', 'n', 't', '\n', ' ', ' ', ' ', ' ', ' ', ' ', ' ', ' ', ' ', ' ', ' ', ' ', ':', 'S', 'h', 'o', 'r', 't', ':', ' ', 'D', 'a', 'r', 'k', ' ', 'C', 'u', 'r', 'r', 'e', 'n', 't', ' ', 'f', 'r', 'o', 'm', ' ', 'v', 'a', 'r', 'i', 'a', 'n', 'c', 'e', '\n', ' ', ' ', ' ', ' ', ' ', ' ', ' ', ' ', ' ', ' ', ' ', ' ', ':', 'S', 'y', 'm', 'b', 'o', 'l', ':', ' ', '$', '\\', 'm', 'u', '_', '{', 'I', '.', 'v', 'a', 'r', '}', '$', '\n', ' ', ' ', ' ', ' ', ' ', ' ', ' ', ' ', ' ', ' ', ' ', ' ', ':', 'U', 'n', 'i', 't', ':', ' ', '$', 'e', '^', '-', '/', 's', '$', '\n', ' ', ' ', ' ', ' ', ' ', ' ', ' ', ' ', ' ', ' ', ' ', ' ', ':', 'L', 'a', 't', 'e', 'x', 'N', 'a', 'm', 'e', ':', ' ', 'U', 'I', 'V', 'a', 'r', '\n', ' ', ' ', ' ', ' ', ' ', ' ', ' ', ' ']

/-- process/results.py lines 648-659 -/
def doc_u_I_mean_DN : Str := ['D', 'a', 'r', 'k', ' ', 'C', 'u', 'r', 'r', 'e', 'n', 't', ' ', 'f', 'r', 'o', 'm', ' ', 'm', 'e', 'a', 'n', '.', '\n', '\n', ' ', ' ', ' ', ' ', ' ', ' ', ' ', ' ', 'T', 'h', 'e', ' ', 'd', 'a', 'r', 'k', ' ', 'c', 'u', 'r', 'r', 'e', 'n', 't', ' ', 'f', 'r', 'o', 'm', ' ', 'm', 'e', 'a', 'n', ' ', 'i', 's', ' ', 't', 'h', 'e', ' ', 's', 'l', 'o', 'p', 'e', ' ', 'o', 'f', ' ', 't', 'h', 'e', ' ', 'd', 'a', 'r', 'k', ' ', 's', 'i', 'g', 'n', 'a', 'l', ' ', 'm', 'e', 'a', 'n', ' ', 'i', 'n', '\n', ' ', ' ', ' ', ' ', ' ', ' ', ' ', ' ', 'f', 'u', 'n', 'c', 't', 'i', 'o', 'n', ' ', 'o', 'f', ' ', 't', 'h', 'e', ' ', 'e', 'x', 'p', 'o', 's', 'u', 'r', 'e', ' ', 't', 'i', 'm', 'e', '.', '\n', ' ', ' ', ' ', ' ', ' ', ' ', ' ', ' ', 'R', 'e', 't', 'u', 'r', 'n', 's', ' ', 'N', 'a', 'N', ' ', 'i', 'f', ' ', 't', 'h', 'e', ' ', 'n', 'u', 'm', 'b', 'e', 'r', ' ', 'o', 'f', ' ', 'd', 'i', 'f', 'f', 'e', 'r', 'e', 'n', 't', ' ', 'e', 'x', 'p', 'o', 's', 'u', 'r', 'e', ' ', 't', 'i', 'm', 'e', 's', ' ', 'i', 's', ' ', 'l', 'e', 's', 's', ' ', 't', 'h', 'a', 'n', ' ', '3', '.', '\n', '\n', ' ', ' ', ' ', ' ', ' ', ' ', ' ', ' ', '.', '.', ' ', 'e', 'm', 'v', 'a', '1', '2', '8', '8', ':', ':', '\n', ' ', ' ', ' ', ' ', ' ', ' ', ' ', ' ', ' ', ' ', ' ', ' ', ':', 'S', 'e', 'c', 't', 'i', 'o', 'n', ':', ' ', 'd', 'a', 'r', 'k', '_', 'c', 'u', 'r', 'r', 'e', 'n', 't', '\n', ' ', ' ', ' ', ' ', ' ', ' ', ' ', ' ', ' ', ' ', ' ', ' ', ':', 'S', 'h', 'o', 'r', 't', ':', ' ', 'D', 'a', 'r', 'k', ' ', 'C', 'u', 'r', 'r', 'e', 'n', 't', ' ', 'f', 'r', 'o', 'm', ' ', 'm', 'e', 'a', 'n', '\n', ' ', ' ', ' ', ' ', ' ', ' ', ' ', ' ', ' ', ' ', ' ', ' ', ':', 'S', 'y', 'm', 'b', 'o', 'l', ':', ' ', '$', '\\', 'm', 'u', '_', '{', 'I', '.', 'm', 'e', 'a', 'n', '.', 'D', 'N', '}', '$', '\n', ' ', ' ', ' ', ' ', ' ', ' ', ' ', ' ', ' ', ' ', ' ', ' ', ':', 'U', 'n', 'i', 't', ':', ' ', '$', 'D', 'N', '/', 's', '$', '\n', ' ', ' ', ' ', ' ', ' ', ' ', ' ', ' ']

/-- process/results.py lines 671-682 -/
def doc_u_I_mean : Str := ['D', 'a', 'r', 'k', ' ', 'C', 'u', 'r', 'r', 'e', 'n', 't', ' ', 'f', 'r', 'o', 'm', ' ', 'm', 'e', 'a', 'n', '.', '\n', '\n', ' ', ' ', ' ', ' ', ' ', ' ', ' ', ' ', 'T', 'h', 'e', ' ', 'd', 'a', 'r', 'k', ' ', 'c', 'u', 'r', 'r', 'e', 'n', 't', ' ', 'f', 'r', 'o', 'm', ' ', 'm', 'e', 'a', 'n', ' ', 'i', 's', ' ', 't', 'h', 'e', ' ', 's', 'l', 'o', 'p', 'e', ' ', 'o', 'f', ' ', 't', 'h', 'e', ' ', 'd', 'a', 'r', 'k', ' ', 's', 'i', 'g', 'n', 'a', 'l', ' ', 'm', 'e', 'a', 'n', ' ', 'i', 'n', '\n', ' ', ' ', ' ', ' ', ' ', ' ', ' ', ' ', 'f', 'u', 'n', 'c', 't', 'i', 'o', 'n', ' ', 'o', 'f', ' ', 't', 'h', 'e', ' ', 'e', 'x', 'p', 'o', 's', 'u', 'r', 'e', ' ', 't', 'i', 'm', 'e', 's', ' ', 'd', 'i', 'v', 'i', 'd', 'e', 'd', ' ', 'b', 'y', ' ', 't', 'h', 'e', ' ', 'o', 'v', 'e', 'r', 'a', 'l', 'l', ' ', 's', 'y', 's', 't', 'e', 'm', ' ', 'g', 'a', 'i', 'n', '.', '\n', ' ', ' ', ' ', ' ', ' ', ' ', ' ', ' ', 'R', 'e', 't', 'u', 'r', 'n', 's', ' ', 'N', 'a', 'N', ' ', 'i', 'f', ' ', 't', 'h', 'e', ' ', 'n', 'u', 'm', 'b', 'e', 'r', ' ', 'o', 'f', ' ', 'd', 'i', 'f', 'f', 'e', 'r', 'e', 'n', 't', ' ', 'e', 'x', 'p', 'o', 's', 'u', 'r', 'e', ' ', 't', 'i', 'm', 'e', 's', ' ', 'i', 's', ' ', 'l', 'e', 's', 's', ' ', 't', 'h', 'a', 'n', ' ', '3', '.', '\n', '\n', ' ', ' ', ' ', ' ', ' ', ' ', ' ', ' ', '.', '.', ' ', 'e', 'm', 'v', 'a', '1', '2', '8', '8', ':', ':', '\n', ' ', ' ', ' ', ' ', ' ', ' ', ' ', ' ', ' ', ' ', ' ', ' ', ':', 'S', 'e', 'c', 't', 'i', 'o', 'n', ':', ' ', 'd', 'a', 'r', 'k', '_', 'c', 'u', 'r', 'r', 'e', 'n', 't', '\n', ' ', ' ', ' ', ' ', ' ', ' ', ' ', ' ', ' ', ' ', ' ', ' ', ':', 'S', 'h', 'o', 'r', 't', ':', ' ', 'D', 'a', 'r', 'k', ' ', 'C', 'u', 'r', 'r', 'e', 'n', 't', ' ', 'f', 'r', 'o', 'm', ' ', 'm', 'e', 'a', 'n', '\n', ' ', ' ', ' ', ' ', ' ', ' ', ' ', ' ', ' ', ' ', ' ', ' ', ':', 'S', 'y', 'm', 'b', 'o', 'l', ':', ' ', '$', '\\', 'm', 'u', '_', '{', 'I', '.', 'm', 'e', 'a', 'n', '}', '$', '\n', ' ', ' ', ' ', ' ', ' ', ' ', ' ', ' ', ' ', ' ', ' ', ' ', ':', 'U', 'n', 'i', 't', ':', ' ', '$', 'e', '^', '-', '/', 's', '$', '\n', ' ', ' ', ' ', ' ', ' ', ' ', ' ', ' ']

/-- process/results.py lines 690-699 -/
def doc_sigma_2_y_stack : Str := ['T', 'e', 'm', 'p', 'o', 'r', 'a', 'l', ' ', 'v', 'a', 'r', 'i', 'a', 'n', 'c', 'e', ' ', 's', 't', 'a', 'c', 'k', '.', '\n', '\n', ' ', ' ', ' ', ' ', ' ', ' ', ' ', ' ', 'M', 'e', 'a', 'n', ' ', 'v', 'a', 'l', 'u', 'e', ' ', 'o', 'f', ' ', 't', 'h', 'e', ' ', 'b', 'r', 'i', 'g', 'h', 't', ' ', 'v', 'a', 'r', 'i', 'a', 'n', 'c', 'e', ' ', 'i', 'm', 'a', 'g', 'e', '.', '\n', '\n', ' ', ' ', ' ', ' ', ' ', ' ', ' ', ' ', '.', '.', ' ', 'e', 'm', 'v', 'a', '1', '2', '8', '8', ':', ':', '\n', ' ', ' ', ' ', ' ', ' ', ' ', ' ', ' ', ' ', ' ', ' ', ' ', ':', 'S', 'e', 'c', 't', 'i', 'o', 'n', ':', ' ', 's', 'p', 'a', 't', 'i', 'a', 'l', '\n', ' ', ' ', ' ', ' ', ' ', ' ', ' ', ' ', ' ', ' ', ' ', ' ', ':', 'S', 'h', 'o', 'r', 't', ':', ' ', 'T', 'e', 'm', 'p', 'o', 'r', 'a', 'l', ' ', 'v', 'a', 'r', 'i', 'a', 'n', 'c', 'e', ' ', 's', 't', 'a', 'c', 'k', '\n', ' ', ' ', ' ', ' ', ' ', ' ', ' ', ' ', ' ', ' ', ' ', ' ', ':', 'S', 'y', 'm', 'b', 'o', 'l', ':', ' ', '$', '\\', 's', 'i', 'g', 'm', 'a', '^', '2', '_', '{', 'y', '.', 's', 't', 'a', 'c', 'k', '}', '$', '\n', ' ', ' ', ' ', ' ', ' ', ' ', ' ', ' ', ' ', ' ', ' ', ' ', ':', 'U', 'n', 'i', 't', ':', ' ', 'D', 'N', '2', '\n', ' ', ' ', ' ', ' ', ' ', ' ', ' ', ' ']

/-- process/results.py lines 705-714 -/
def doc_sigma_2_y_stack_dark : Str := ['T', 'e', 'm', 'p', 'o', 'r', 'a', 'l', ' ', 'v', 'a', 'r', 'i', 'a', 'n', 'c', 'e', ' ', 's', 't', 'a', 'c', 'k', ' ', 'd', 'a', 'r', 'k', '.', '\n', '\n', ' ', ' ', ' ', ' ', ' ', ' ', ' ', ' ', 'M', 'e', 'a', 'n', ' ', 'v', 'a', 'l', 'u', 'e', ' ', 'o', 'f', ' ', 't', 'h', 'e', ' ', 'd', 'a', 'r', 'k', ' ', 'v', 'a', 'r', 'i', 'a', 'n', 'c', 'e', ' ', 'i', 'm', 'a', 'g', 'e', '.', '\n', '\n', ' ', ' ', ' ', ' ', ' ', ' ', ' ', ' ', '.', '.', ' ', 'e', 'm', 'v', 'a', '1', '2', '8', '8', ':', ':', '\n', ' ', ' ', ' ', ' ', ' ', ' ', ' ', ' ', ' ', ' ', ' ', ' ', ':', 'S', 'e', 'c', 't', 'i', 'o', 'n', ':', ' ', 's', 'p', 'a', 't', 'i', 'a', 'l', '\n', ' ', ' ', ' ', ' ', ' ', ' ', ' ', ' ', ' ', ' ', ' ', ' ', ':', 'S', 'h', 'o', 'r', 't', ':', ' ', 'T', 'e', 'm', 'p', 'o', 'r', 'a', 'l', ' ', 'v', 'a', 'r', 'i', 'a', 'n', 'c', 'e', ' ', 's', 't', 'a', 'c', 'k', ' ', 'd', 'a', 'r', 'k', '\n', ' ', ' ', ' ', ' ', ' ', ' ', ' ', ' ', ' ', ' ', ' ', ' ', ':', 'S', 'y', 'm', 'b', 'o', 'l', ':', ' ', '$', '\\', 's', 'i', 'g', 'm', 'a', '^', '2', '_', '{', 'y', '.', 's', 't', 'a', 'c', 'k', '.', 'd', 'a', 'r', 'k', '}', '$', '\n', ' ', ' ', ' ', ' ', ' ', ' ', ' ', ' ', ' ', ' ', ' ', ' ', ':', 'U', 'n', 'i', 't', ':', ' ', 'D', 'N', '2', '\n', ' ', ' ', ' ', ' ', ' ', ' ', ' ', ' ']

/-- process/results.py lines 720-729 -/
def doc_s_2_y_measured : Str := ['S', 'p', 'a', 't', 'i', 'a', 'l', ' ', 'v', 'a', 'r', 'i', 'a', 'n', 'c', 'e', ' ', 'm', 'e', 'a', 's', 'u', 'r', 'e', '.', '\n', '\n', ' ', ' ', ' ', ' ', ' ', ' ', ' ', ' ', 'V', 'a', 'r', 'i', 'a', 'n', 'c', 'e', ' ', 'v', 'a', 'l', 'u', 'e', ' ', 'o', 'f', ' ', 't', 'h', 'e', ' ', 'b', 'r', 'i', 'g', 'h', 't', ' ', 'v', 'a', 'r', 'i', 'a', 'n', 'c', 'e', ' ', 'i', 'm', 'a', 'g', 'e', '.', '\n', '\n', ' ', ' ', ' ', ' ', ' ', ' ', ' ', ' ', '.', '.', ' ', 'e', 'm', 'v', 'a', '1', '2', '8', '8', ':', ':', '\n', ' ', ' ', ' ', ' ', ' ', ' ', ' ', ' ', ' ', ' ', ' ', ' ', ':', 'S', 'e', 'c', 't', 'i', 'o', 'n', ':', ' ', 's', 'p', 'a', 't', 'i', 'a', 'l', '\n', ' ', ' ', ' ', ' ', ' ', ' ', ' ', ' ', ' ', ' ', ' ', ' ', ':', 'S', 'h', 'o', 'r', 't', ':', ' ', 'S', 'p', 'a', 't', 'i', 'a', 'l', ' ', 'v', 'a', 'r', 'i', 'a', 'n', 'c', 'e', ' ', 'm', 'e', 'a', 's', 'u', 'r', 'e', '\n', ' ', ' ', ' ', ' ', ' ', ' ', ' ', ' ', ' ', ' ', ' ', ' ', ':', 'S', 'y', 'm', 'b', 'o', 'l', ':', ' ', '$', 's', '^', '2', '_', '{', 'y', '.', 'm', 'e', 'a', 's', 'u', 'r', 'e', 'd', '}', '$', '\n', ' ', ' ', ' ', ' ', ' ', ' ', ' ', ' ', ' ', ' ', ' ', ' ', ':', 'U', 'n', 'i', 't', ':', ' ', 'D', 'N', '2', '\n', ' ', ' ', ' ', ' ', ' ', ' ', ' ', ' ']

/-- process/results.py lines 736-745 -/
def doc_s_2_y_measured_dark : Str := ['S', 'p', 'a', 't', 'i', 'a', 'l', ' ', 'v', 'a', 'r', 'i', 'a', 'n', 'c', 'e', ' ', 'm', 'e', 'a', 's', 'u', 'r', 'e', 'd', ' ', 'd', 'a', 'r', 'k', '.', '\n', '\n', ' ', ' ', ' ', ' ', ' ', ' ', ' ', ' ', 'V', 'a', 'r', 'i', 'a', 'n', 'c', 'e', ' ', 'v', 'a', 'l', 'u', 'e', ' ', 'o', 'f', ' ', 't', 'h', 'e', ' ', 'd', 'a', 'r', 'k', ' ', 'v', 'a', 'r', 'i', 'a', 'n', 'c', 'e', ' ', 'i', 'm', 'a', 'g', 'e', '.', '\n', '\n', ' ', ' ', ' ', ' ', ' ', ' ', ' ', ' ', '.', '.', ' ', 'e', 'm', 'v', 'a', '1', '2', '8', '8', ':', ':', '\n', ' ', ' ', ' ', ' ', ' ', ' ', ' ', ' ', ' ', ' ', ' ', ' ', ':', 'S', 'e', 'c', 't', 'i', 'o', 'n', ':', ' ', 's', 'p', 'a', 't', 'i', 'a', 'l', '\n', ' ', ' ', ' ', ' ', ' ', ' ', ' ', ' ', ' ', ' ', ' ', ' ', ':', 'S', 'h', 'o', 'r', 't', ':', ' ', 'S', 'p', 'a', 't', 'i', 'a', 'l', ' ', 'v', 'a', 'r', 'i', 'a', 'n', 'c', 'e', ' ', 'm', 'e', 'a', 's', 'u', 'r', 'e', 'd', ' ', 'd', 'a', 'r', 'k', '\n', ' ', ' ', ' ', ' ', ' ', ' ', ' ', ' ', ' ', ' ', ' ', ' ', ':', 'S', 'y', 'm', 'b', 'o', 'l', ':', ' ', '$', 's', '^', '2', '_', '{', 'y', '.', 'm', 'e', 'a', 's', 'u', 'r', 'e', 'd', '.', 'd', 'a', 'r', 'k', '}', '$', '\n', ' ', ' ', ' ', ' ', ' ', ' ', ' ', ' ', ' ', ' ', ' ', ' ', ':', 'U', 'n', 'i', 't', ':', ' ', 'D', 'N', '2', '\n', ' ', ' ', ' ', ' ', ' ', ' ', ' ', ' ']

/-- process/results.py lines 750-757 -/
def doc_s_2_y : Str := ['S', 'p', 'a', 't', 'i', 'a', 'l', ' ', 'v', 'a', 'r', 'i', 'a', 'n', 'c', 'e', ' ', 'f', 'r', 'o', 'm', ' ', 'i', 'm', 'a', 'g', 'e', '.', '\n', '\n', ' ', ' ', ' ', ' ', ' ', ' ', ' ', ' ', '.', '.', ' ', 'e', 'm', 'v', 'a', '1', '2', '8', '8', ':', ':', '\n', ' ', ' ', ' ', ' ', ' ', ' ', ' ', ' ', ' ', ' ', ' ', ' ', ':', 'S', 'e', 'c', 't', 'i', 'o', 'n', ':', ' ', 's', 'p', 'a', 't', 'i', 'a', 'l', '\n', ' ', ' ', ' ', ' ', ' ', ' ', ' ', ' ', ' ', ' ', ' ', ' ', ':', 'S', 'h', 'o', 'r', 't', ':', ' ', 'S', 'p', 'a', 't', 'i', 'a', 'l', ' ', 'v', 'a', 'r', 'i', 'a', 'n', 'c', 'e', ' ', 'f', 'r', 'o', 'm', ' ', 'i', 'm', 'a', 'g', 'e', '\n', ' ', ' ', ' ', ' ', ' ', ' ', ' ', ' ', ' ', ' ', ' ', ' ', ':', 'S', 'y', 'm', 'b', 'o', 'l', ':', ' ', '$', 's', '^', '2', '_', '{', 'y', '}', '$', '\n', ' ', ' ', ' ', ' ', ' ', ' ', ' ', ' ', ' ', ' ', ' ', ' ', ':', 'U', 'n', 'i', 't', ':', ' ', 'D', 'N', '2', '\n', ' ', ' ', ' ', ' ', ' ', ' ', ' ', ' ']

/-- process/results.py lines 763-770 -/
def doc_s_2_y_dark : Str := ['S', 'p', 'a', 't', 'i', 'a', 'l', ' ', 'v', 'a', 'r', 'i', 'a', 'n', 'c', 'e', ' ', 'f', 'r', 'o', 'm', ' ', 'i', 'm', 'a', 'g', 'e', ',', '\n', '\n', ' ', ' ', ' ', ' ', ' ', ' ', ' ', ' ', '.', '.', ' ', 'e', 'm', 'v', 'a', '1', '2', '8', '8', ':', ':', '\n', ' ', ' ', ' ', ' ', ' ', ' ', ' ', ' ', ' ', ' ', ' ', ' ', ':', 'S', 'e', 'c', 't', 'i', 'o', 'n', ':', ' ', 's', 'p', 'a', 't', 'i', 'a', 'l', '\n', ' ', ' ', ' ', ' ', ' ', ' ', ' ', ' ', ' ', ' ', ' ', ' ', ':', 'S', 'h', 'o', 'r', 't', ':', ' ', 'S', 'p', 'a', 't', 'i', 'a', 'l', ' ', 'v', 'a', 'r', 'i', 'a', 'n', 'c', 'e', ' ', 'f', 'r', 'o', 'm', ' ', 'i', 'm', 'a', 'g', 'e', '\n', ' ', ' ', ' ', ' ', ' ', ' ', ' ', ' ', ' ', ' ', ' ', ' ', ':', 'S', 'y', 'm', 'b', 'o', 'l', ':', ' ', '$', 's', '^', '2', '_', '{', 'y', '}', '$', '\n', ' ', ' ', ' ', ' ', ' ', ' ', ' ', ' ', ' ', ' ', ' ', ' ', ':', 'U', 'n', 'i', 't', ':', ' ', 'D', 'N', '2', '\n', ' ', ' ', ' ', ' ', ' ', ' ', ' ', ' ']

/-- process/results.py lines 776-783 -/
def doc_s_2_y_cav : Str := ['A', 'v', 'e', 'r', 'a', 'g', 'e', ' ', 'o', 'f', ' ', 'c', 'o', 'l', 'u', 'm', 'n', ' ', 's', 'p', 'a', 't', 'i', 'a', 'l', ' ', 'v', 'a', 'r', 'i', 'a', 'n', 'c', 'e', ' ', 'f', 'r', 'o', 'm', ' ', 'i', 'm', 'a', 'g', 'e', '.', '\n', '\n', ' ', ' ', ' ', ' ', ' ', ' ', ' ', ' ', '.', '.', ' ', 'e', 'm', 'v', 'a', '1', '2', '8', '8', ':', ':', '\n', ' ', ' ', ' ', ' ', ' ', ' ', ' ', ' ', ' ', ' ', ' ', ' ', ':', 'S', 'e', 'c', 't', 'i', 'o', 'n', ':', ' ', 's', 'p', 'a', 't', 'i', 'a', 'l', '\n', ' ', ' ', ' ', ' ', ' ', ' ', ' ', ' ', ' ', ' ', ' ', ' ', ':', 'S', 'h', 'o', 'r', 't', ':', ' ', 'S', 'p', 'a', 't', 'i', 'a', 'l', ' ', 'v', 'a', 'r', 'i', 'a', 'n', 'c', 'e', ' ', 'f', 'r', 'o', 'm', ' ', 'i', 'm', 'a', 'g', 'e', '\n', ' ', ' ', ' ', ' ', ' ', ' ', ' ', ' ', ' ', ' ', ' ', ' ', ':', 'S', 'y', 'm', 'b', 'o', 'l', ':', ' ', '$', 's', '^', '2', '_', '{', 'y', '.', 'c', 'a', 'v', '}', '$', '\n', ' ', ' ', ' ', ' ', ' ', ' ', ' ', ' ', ' ', ' ', ' ', ' ', ':', 'U', 'n', 'i', 't', ':', ' ', 'D', 'N', '2', '\n', ' ', ' ', ' ', ' ', ' ', ' ', ' ', ' ']

/-- process/results.py lines 788-795 -/
def doc_s_2_y_cav_dark : Str := ['A', 'v', 'e', 'r', 'a', 'g', 'e', ' ', 'o', 'f', ' ', 'c', 'o', 'l', 'u', 'm', 'n', ' ', 's', 'p', 'a', 't', 'i', 'a', 'l', ' ', 'v', 'a', 'r', 'i', 'a', 'n', 'c', 'e', ' ', 'f', 'r', 'o', 'm', ' ', 'i', 'm', 'a', 'g', 'e', '.', '\n', '\n', ' ', ' ', ' ', ' ', ' ', ' ', ' ', ' ', '.', '.', ' ', 'e', 'm', 'v', 'a', '1', '2', '8', '8', ':', ':', '\n', ' ', ' ', ' ', ' ', ' ', ' ', ' ', ' ', ' ', ' ', ' ', ' ', ':', 'S', 'e', 'c', 't', 'i', 'o', 'n', ':', ' ', 's', 'p', 'a', 't', 'i', 'a', 'l', '\n', ' ', ' ', ' ', ' ', ' ', ' ', ' ', ' ', ' ', ' ', ' ', ' ', ':', 'S', 'h', 'o', 'r', 't', ':', ' ', 'S', 'p', 'a', 't', 'i', 'a', 'l', ' ', 'v', 'a', 'r', 'i', 'a', 'n', 'c', 'e', ' ', 'f', 'r', 'o', 'm', ' ', 'i', 'm', 'a', 'g', 'e', '\n', ' ', ' ', ' ', ' ', ' ', ' ', ' ', ' ', ' ', ' ', ' ', ' ', ':', 'S', 'y', 'm', 'b', 'o', 'l', ':', ' ', '$', 's', '^', '2', '_', '{', 'y', '.', 'c', 'a', 'v', '.', 'd', 'a', 'r', 'k', '}', '$', '\n', ' ', ' ', ' ', ' ', ' ', ' ', ' ', ' ', ' ', ' ', ' ', ' ', ':', 'U', 'n', 'i', 't', ':', ' ', 'D', 'N', '2', '\n', ' ', ' ', ' ', ' ', ' ', ' ', ' ', ' ']

/-- process/results.py lines 800-807 -/
def doc_s_2_y_rav : Str := ['A', 'v', 'e', 'r', 'a', 'g', 'e', ' ', 'o', 'f', ' ', 'r', 'o', 'w', ' ', 's', 'p', 'a', 't', 'i', 'a', 'l', ' ', 'v', 'a', 'r', 'i', 'a', 'n', 'c', 'e', ' ', 'f', 'r', 'o', 'm', ' ', 'i', 'm', 'a', 'g', 'e', '.', '\n', '\n', ' ', ' ', ' ', ' ', ' ', ' ', ' ', ' ', '.', '.', ' ', 'e', 'm', 'v', 'a', '1', '2', '8', '8', ':', ':', '\n', ' ', ' ', ' ', ' ', ' ', ' ', ' ', ' ', ' ', ' ', ' ', ' ', ':', 'S', 'e', 'c', 't', 'i', 'o', 'n', ':', ' ', 's', 'p', 'a', 't', 'i', 'a', 'l', '\n', ' ', ' ', ' ', ' ', ' ', ' ', ' ', ' ', ' ', ' ', ' ', ' ', ':', 'S', 'h', 'o', 'r', 't', ':', ' ', 'S', 'p', 'a', 't', 'i', 'a', 'l', ' ', 'v', 'a', 'r', 'i', 'a', 'n', 'c', 'e', ' ', 'f', 'r', 'o', 'm', ' ', 'i', 'm', 'a', 'g', 'e', '\n', ' ', ' ', ' ', ' ', ' ', ' ', ' ', ' ', ' ', ' ', ' ', ' ', ':', 'S', 'y', 'm', 'b', 'o', 'l', ':', ' ', '$', 's', '^', '2', '_', '{', 'y', '.', 'r', 'a', 'v', '}', '$', '\n', ' ', ' ', ' ', ' ', ' ', ' ', ' ', ' ', ' ', ' ', ' ', ' ', ':', 'U', 'n', 'i', 't', ':', ' ', 'D', 'N', '2', '\n', ' ', ' ', ' ', ' ', ' ', ' ', ' ', ' ']

/-- process/results.py lines 812-819 -/
def doc_s_2_y_rav_dark : Str := ['A', 'v', 'e', 'r', 'a', 'g', 'e', ' ', 'o', 'f', ' ', 'r', 'o', 'w', ' ', 's', 'p', 'a', 't', 'i', 'a', 'l', ' ', 'v', 'a', 'r', 'i', 'a', 'n', 'c', 'e', ' ', 'f', 'r', 'o', 'm', ' ', 'i', 'm', 'a', 'g', 'e', '.', '\n', '\n', ' ', ' ', ' ', ' ', ' ', ' ', ' ', ' ', '.', '.', ' ', 'e', 'm', 'v', 'a', '1', '2', '8', '8', ':', ':', '\n', ' ', ' ', ' ', ' ', ' ', ' ', ' ', ' ', ' ', ' ', ' ', ' ', ':', 'S', 'e', 'c', 't', 'i', 'o', 'n', ':', ' ', 's', 'p', 'a', 't', 'i', 'a', 'l', '\n', ' ', ' ', ' ', ' ', ' ', ' ', ' ', ' ', ' ', ' ', ' ', ' ', ':', 'S', 'h', 'o', 'r', 't', ':', ' ', 'S', 'p', 'a', 't', 'i', 'a', 'l', ' ', 'v', 'a', 'r', 'i', 'a', 'n', 'c', 'e', ' ', 'f', 'r', 'o', 'm', ' ', 'i', 'm', 'a', 'g', 'e', '\n', ' ', ' ', ' ', ' ', ' ', ' ', ' ', ' ', ' ', ' ', ' ', ' ', ':', 'S', 'y', 'm', 'b', 'o', 'l', ':', ' ', '$', 's', '^', '2', '_', '{', 'y', '.', 'r', 'a', 'v', '.', 'd', 'a', 'r', 'k', '}', '$', '\n', ' ', ' ', ' ', ' ', ' ', ' ', ' ', ' ', ' ', ' ', ' ', ' ', ':', 'U', 'n', 'i', 't', ':', ' ', 'D', 'N', '2', '\n', ' ', ' ', ' ', ' ', ' ', ' ', ' ', ' ']

/-- process/results.py lines 824-831 -/
def doc_s_2_y_col : Str := ['C', 'o', 'l', 'u', 'm', 'n', ' ', 's', 'p', 'a', 't', 'i', 'a', 'l', ' ', 'v', 'a', 'r', 'i', 'a', 'n', 'c', 'e', ' ', 'f', 'r', 'o', 'm', ' ', 'i', 'm', 'a', 'g', 'e', '.', '\n', '\n', ' ', ' ', ' ', ' ', ' ', ' ', ' ', ' ', '.', '.', ' ', 'e', 'm', 'v', 'a', '1', '2', '8', '8', ':', ':', '\n', ' ', ' ', ' ', ' ', ' ', ' ', ' ', ' ', ' ', ' ', ' ', ' ', ':', 'S', 'e', 'c', 't', 'i', 'o', 'n', ':', ' ', 's', 'p', 'a', 't', 'i', 'a', 'l', '\n', ' ', ' ', ' ', ' ', ' ', ' ', ' ', ' ', ' ', ' ', ' ', ' ', ':', 'S', 'h', 'o', 'r', 't', ':', ' ', 'S', 'p', 'a', 't', 'i', 'a', 'l', ' ', 'v', 'a', 'r', 'i', 'a', 'n', 'c', 'e', ' ', 'f', 'r', 'o', 'm', ' ', 'i', 'm', 'a', 'g', 'e', '\n', ' ', ' ', ' ', ' ', ' ', ' ', ' ', ' ', ' ', ' ', ' ', ' ', ':', 'S', 'y', 'm', 'b', 'o', 'l', ':', ' ', '$', 's', '^', '2', '_', '{', 'y', '.', 'c', 'o', 'l', '}', '$', '\n', ' ', ' ', ' ', ' ', ' ', ' ', ' ', ' ', ' ', ' ', ' ', ' ', ':', 'U', 'n', 'i', 't', ':', ' ', 'D', 'N', '2', '\n', ' ', ' ', ' ', ' ', ' ', ' ', ' ', ' ']

/-- process/results.py lines 841-848 -/
def doc_s_2_y_col_dark : Str := ['C', 'o', 'l', 'u', 'm', 'n', ' ', 's', 'p', 'a', 't', 'i', 'a', 'l', ' ', 'v', 'a', 'r', 'i', 'a', 'n', 'c', 'e', ' ', 'f', 'r', 'o', 'm', ' ', 'd', 'a', 'r', 'k', ' ', 'i', 'm', 'a', 'g', 'e', '.', '\n', '\n', ' ', ' ', ' ', ' ', ' ', ' ', ' ', ' ', '.', '.', ' ', 'e', 'm', 'v', 'a', '1', '2', '8', '8', ':', ':', '\n', ' ', ' ', ' ', ' ', ' ', ' ', ' ', ' ', ' ', ' ', ' ', ' ', ':', 'S', 'e', 'c', 't', 'i', 'o', 'n', ':', ' ', 's', 'p', 'a', 't', 'i', 'a', 'l', '\n', ' ', ' ', ' ', ' ', ' ', ' ', ' ', ' ', ' ', ' ', ' ', ' ', ':', 'S', 'h', 'o', 'r', 't', ':', ' ', 'S', 'p', 'a', 't', 'i', 'a', 'l', ' ', 'v', 'a', 'r', 'i', 'a', 'n', 'c', 'e', ' ', 'f', 'r', 'o', 'm', ' ', 'i', 'm', 'a', 'g', 'e', '\n', ' ', ' ', ' ', ' ', ' ', ' ', ' ', ' ', ' ', ' ', ' ', ' ', ':', 'S', 'y', 'm', 'b', 'o', 'l', ':', ' ', '$', 's', '^', '2', '_', '{', 'y', '.', 'c', 'o', 'l', '.', 'd', 'a', 'r', 'k', '}', '$', '\n', ' ', ' ', ' ', ' ', ' ', ' ', ' ', ' ', ' ', ' ', ' ', ' ', ':', 'U', 'n', 'i', 't', ':', ' ', 'D', 'N', '2', '\n', ' ', ' ', ' ', ' ', ' ', ' ', ' ', ' ']

/-- process/results.py lines 858-865 -/
def doc_s_2_y_row : Str := ['R', 'o', 'w', ' ', 's', 'p', 'a', 't', 'i', 'a', 'l', ' ', 'v', 'a', 'r', 'i', 'a', 'n', 'c', 'e', ' ', 'f', 'r', 'o', 'm', ' ', 'i', 'm', 'a', 'g', 'e', '.', '\n', '\n', ' ', ' ', ' ', ' ', ' ', ' ', ' ', ' ', '.', '.', ' ', 'e', 'm', 'v', 'a', '1', '2', '8', '8', ':', ':', '\n', ' ', ' ', ' ', ' ', ' ', ' ', ' ', ' ', ' ', ' ', ' ', ' ', ':', 'S', 'e', 'c', 't', 'i', 'o', 'n', ':', ' ', 's', 'p', 'a', 't', 'i', 'a', 'l', '\n', ' ', ' ', ' ', ' ', ' ', ' ', ' ', ' ', ' ', ' ', ' ', ' ', ':', 'S', 'h', 'o', 'r', 't', ':', ' ', 'S', 'p', 'a', 't', 'i', 'a', 'l', ' ', 'v', 'a', 'r', 'i', 'a', 'n', 'c', 'e', ' ', 'f', 'r', 'o', 'm', ' ', 'i', 'm', 'a', 'g', 'e', '\n', ' ', ' ', ' ', ' ', ' ', ' ', ' ', ' ', ' ', ' ', ' ', ' ', ':', 'S', 'y', 'm', 'b', 'o', 'l', ':', ' ', '$', 's', '^', '2', '_', '{', 'y', '.', 'r', 'o', 'w', '}', '$', '\n', ' ', ' ', ' ', ' ', ' ', ' ', ' ', ' ', ' ', ' ', ' ', ' ', ':', 'U', 'n', 'i', 't', ':', ' ', 'D', 'N', '2', '\n', ' ', ' ', ' ', ' ', ' ', ' ', ' ', ' ']

/-- process/results.py lines 875-882 -/
def doc_s_2_y_row_dark : Str := ['R', 'o', 'w', ' ', 's', 'p', 'a', 't', 'i', 'a', 'l', ' ', 'v', 'a', 'r', 'i', 'a', 'n', 'c', 'e', ' ', 'f', 'r', 'o', 'm', ' ', 'd', 'a', 'r', 'k', ' ', 'i', 'm', 'a', 'g', 'e', '.', '\n', '\n', ' ', ' ', ' ', ' ', ' ', ' ', ' ', ' ', '.', '.', ' ', 'e', 'm', 'v', 'a', '1', '2', '8', '8', ':', ':', '\n', ' ', ' ', ' ', ' ', ' ', ' ', ' ', ' ', ' ', ' ', ' ', ' ', ':', 'S', 'e', 'c', 't', 'i', 'o', 'n', ':', ' ', 's', 'p', 'a', 't', 'i', 'a', 'l', '\n', ' ', ' ', ' ', ' ', ' ', ' ', ' ', ' ', ' ', ' ', ' ', ' ', ':', 'S', 'h', 'o', 'r', 't', ':', ' ', 'S', 'p', 'a', 't', 'i', 'a', 'l', ' ', 'v', 'a', 'r', 'i', 'a', 'n', 'c', 'e', ' ', 'f', 'r', 'o', 'm', ' ', 'i', 'm', 'a', 'g', 'e', '\n', ' ', ' ', ' ', ' ', ' ', ' ', ' ', ' ', ' ', ' ', ' ', ' ', ':', 'S', 'y', 'm', 'b', 'o', 'l', ':', ' ', '$', 's', '^', '2', '_', '{', 'y', '.', 'r', 'o', 'w', '.', 'd', 'a', 'r', 'k', '}', '$', '\n', ' ', ' ', ' ', ' ', ' ', ' ', ' ', ' ', ' ', ' ', ' ', ' ', ':', 'U', 'n', 'i', 't', ':', ' ', 'D', 'N', '2', '\n', ' ', ' ', ' ', ' ', ' ', ' ', ' ', ' ']

/-- process/results.py lines 892-899 -/
def doc_s_2_y_pixel : Str := ['P', 'i', 'x', 'e', 'l', ' ', 's', 'p', 'a', 't', 'i', 'a', 'l', ' ', 'v', 'a', 'r', 'i', 'a', 'n', 'c', 'e', ' ', 'f', 'r', 'o', 'm', ' ', 'i', 'm', 'a', 'g', 'e', '.', '\n', '\n', ' ', ' ', ' ', ' ', ' ', ' ', ' ', ' ', '.', '.', ' ', 'e', 'm', 'v', 'a', '1', '2', '8', '8', ':', ':', '\n', ' ', ' ', ' ', ' ', ' ', ' ', ' ', ' ', ' ', ' ', ' ', ' ', ':', 'S', 'e', 'c', 't', 'i', 'o', 'n', ':', ' ', 's', 'p', 'a', 't', 'i', 'a', 'l', '\n', ' ', ' ', ' ', ' ', ' ', ' ', ' ', ' ', ' ', ' ', ' ', ' ', ':', 'S', 'h', 'o', 'r', 't', ':', ' ', 'S', 'p', 'a', 't', 'i', 'a', 'l', ' ', 'v', 'a', 'r', 'i', 'a', 'n', 'c', 'e', ' ', 'f', 'r', 'o', 'm', ' ', 'i', 'm', 'a', 'g', 'e', '\n', ' ', ' ', ' ', ' ', ' ', ' ', ' ', ' ', ' ', ' ', ' ', ' ', ':', 'S', 'y', 'm', 'b', 'o', 'l', ':', ' ', '$', 's', '^', '2', '_', '{', 'y', '.', 'p', 'i', 'x', 'e', 'l', '}', '$', '\n', ' ', ' ', ' ', ' ', ' ', ' ', ' ', ' ', ' ', ' ', ' ', ' ', ':', 'U', 'n', 'i', 't', ':', ' ', 'D', 'N', '2', '\n', ' ', ' ', ' ', ' ', ' ', ' ', ' ', ' ']

/-- process/results.py lines 908-915 -/
def doc_s_2_y_pixel_dark : Str := ['P', 'i', 'x', 'e', 'l', ' ', 's', 'p', 'a', 't', 'i', 'a', 'l', ' ', 'v', 'a', 'r', 'i', 'a', 'n', 'c', 'e', ' ', 'f', 'r', 'o', 'm', ' ', 'd', 'a', 'r', 'k', ' ', 'i', 'm', 'a', 'g', 'e', '.', '\n', '\n', ' ', ' ', ' ', ' ', ' ', ' ', ' ', ' ', '.', '.', ' ', 'e', 'm', 'v', 'a', '1', '2', '8', '8', ':', ':', '\n', ' ', ' ', ' ', ' ', ' ', ' ', ' ', ' ', ' ', ' ', ' ', ' ', ':', 'S', 'e', 'c', 't', 'i', 'o', 'n', ':', ' ', 's', 'p', 'a', 't', 'i', 'a', 'l', '\n', ' ', ' ', ' ', ' ', ' ', ' ', ' ', ' ', ' ', ' ', ' ', ' ', ':', 'S', 'h', 'o', 'r', 't', ':', ' ', 'S', 'p', 'a', 't', 'i', 'a', 'l', ' ', 'v', 'a', 'r', 'i', 'a', 'n', 'c', 'e', ' ', 'f', 'r', 'o', 'm', ' ', 'i', 'm', 'a', 'g', 'e', '\n', ' ', ' ', ' ', ' ', ' ', ' ', ' ', ' ', ' ', ' ', ' ', ' ', ':', 'S', 'y', 'm', 'b', 'o', 'l', ':', ' ', '$', 's', '^', '2', '_', '{', 'y', '.', 'p', 'i', 'x', 'e', 'l', '.', 'd', 'a', 'r', 'k', '}', '$', '\n', ' ', ' ', ' ', ' ', ' ', ' ', ' ', ' ', ' ', ' ', ' ', ' ', ':', 'U', 'n', 'i', 't', ':', ' ', 'D', 'N', '2', '\n', ' ', ' ', ' ', ' ', ' ', ' ', ' ', ' ']

/-- process/results.py lines 924-937 -/
def doc_DSNU1288 : Str := ['D', 'S', 'N', 'U', ' ', 'o', 'v', 'e', 'r', 'a', 'l', 'l', '.', '\n', '\n', ' ', ' ', ' ', ' ', ' ', ' ', ' ', ' ', 'D', 'a', 'r', 'k', ' ', 'S', 'i', 'g', 'n', 'a', 'l', ' ', 'N', 'o', 'n', 'U', 'n', 'i', 'f', 'o', 'r', 'm', 'i', 't', 'y', ' ', '(', 'i', 'n', ' ', 'e', '^', '-', ')', ' ', 'i', 's', ' ', 'd', 'e', 'f', 'i', 'n', 'e', 'd', ' ', 'a', 's', ' ', 't', 'h', 'e', ' ', 's', 't', 'a', 'n', 'd', 'a', 'r', 'd', '\n', ' ', ' ', ' ', ' ', ' ', ' ', ' ', ' ', 'd', 'e', 'v', 'i', 'a', 't', 'i', 'o', 'n', ' ', 'o', 'f', ' ', 't', 'h', 'e', ' ', 'd', 'a', 'r', 'k', ' ', 's', 'i', 'g', 'n', 'a', 'l', ' ', 'd', 'i', 'v', 'i', 'd', 'e', 'd', ' ', 'b', 'y', ' ', 't', 'h', 'e', ' ', 'o', 'v', 'e', 'r', 'a', 'l', 'l', ' ', 's', 'y', 's', 't', 'e', 'm', ' ', 'g', 'a', 'i', 'n', '.', '\n', ' ', ' ', ' ', ' ', ' ', ' ', ' ', ' ', 'I', 'f', ' ', 't', 'h', 'e', ' ', 'v', 'a', 'r', 'i', 'a', 'n', 'c', 'e', ' ', 'i', 's', ' ', 'n', 'e', 'g', 'a', 't', 'i', 'v', 'e', ',', ' ', 'i', 't', ' ', 'w', 'i', 'l', 'l', ' ', 'r', 'e', 't', 'u', 'r', 'n', ' ', 'N', 'a', 'N', ' ', 'i', 'n', 's', 't', 'e', 'a', 'd', ' ', 'o', 'f', ' ', 'a', 'n', '\n', ' ', ' ', ' ', ' ', ' ', ' ', ' ', ' ', 'i', 'm', 'a', 'g', 'i', 'n', 'a', 'r', 'y', ' ', 'n', 'u', 'm', 'b', 'e', 'r', '.', '\n', '\n', ' ', ' ', ' ', ' ', ' ', ' ', ' ', ' ', '.', '.', ' ', 'e', 'm', 'v', 'a', '1', '2', '8', '8', ':', ':', '\n', ' ', ' ', ' ', ' ', ' ', ' ', ' ', ' ', ' ', ' ', ' ', ' ', ':', 'S', 'e', 'c', 't', 'i', 'o', 'n', ':', ' ', 's', 'p', 'a', 't', 'i', 'a', 'l', '\n', ' ', ' ', ' ', ' ', ' ', ' ', ' ', ' ', ' ', ' ', ' ', ' ', ':', 'S', 'h', 'o', 'r', 't', ':', ' ', 'D', 'S', 'N', 'U', '\n', ' ', ' ', ' ', ' ', ' ', ' ', ' ', ' ', ' ', ' ', ' ', ' ', ':', 'S', 'y', 'm', 'b', 'o', 'l', ':', ' ', '$', 'D', 'S', 'N', 'U', '_', '{', '1', '2', '8', '8', '}', '$', '\n', ' ', ' ', ' ', ' ', ' ', ' ', ' ', ' ', ' ', ' ', ' ', ' ', ':', 'U', 'n', 'i', 't', ':', ' ', '$', 'e', '^', '-', '$', '\n', ' ', ' ', ' ', ' ', ' ', ' ', ' ', ' ', ' ', ' ', ' ', ' ', ':', 'L', 'a', 't', 'e', 'x', 'N', 'a', 'm', 'e', ':', ' ', 'D', 'S', 'N', 'U', '\n', ' ', ' ', ' ', ' ', ' ', ' ', ' ', ' ']

/-- process/results.py lines 944-960 -/
def doc_DSNU1288_DN : Str := ['D', 'S', 'N', 'U', ' ', 'i', 'n', ' ', 'D', 'N', '.', '\n', '\n', ' ', ' ', ' ', ' ', ' ', ' ', ' ', ' ', 'D', 'e', 'f', 'i', 'n', 'e', 'd', ' ', 'a', 's', ' ', 't', 'h', 'e', ' ', 'D', 'S', 'N', 'U', ' ', 'i', 'n', ' ', 'e', '^', '-', ' ', 'm', 'u', 'l', 't', 'i', 'p', 'l', 'i', 'e', 'd', ' ', 'b', 'y', ' ', 't', 'h', 'e', ' ', 'o', 'v', 'e', 'r', 'a', 'l', 'l', ' ', 's', 'y', 's', 't', 'e', 'm', ' ', 'g', 'a', 'i', 'n', '.', '\n', ' ', ' ', ' ', ' ', ' ', ' ', ' ', ' ', 'R', 'e', 't', 'u', 'r', 'n', 's', ' ', 'N', 'a', 'N', ' ', 'i', 'f', ' ', 't', 'h', 'e', ' ', 'd', 'a', 'r', 'k', ' ', 's', 'i', 'g', 'n', 'a', 'l', ' ', 'v', 'a', 'r', 'i', 'a', 'n', 'c', 'e', ' ', 'i', 's', ' ', 'n', 'e', 'g', 'a', 't', 'i', 'v', 'e', '.', '\n', '\n', ' ', ' ', ' ', ' ', ' ', ' ', ' ', ' ', 'R', 'e', 't', 'u', 'r', 'n', 's', '\n', ' ', ' ', ' ', ' ', ' ', ' ', ' ', ' ', '-', '-', '-', '-', '-', '-', '-', '\n', ' ', ' ', ' ', ' ', ' ', ' ', ' ', ' ', 'f', 'l', 'o', 'a', 't', ' ', ':', ' ', 'T', 'h', 'e', ' ', 'D', 'S', 'N', 'U', ' ', 'i', 'n', ' ', 'D', 'N', '.', '\n', '\n', '\n', ' ', ' ', ' ', ' ', ' ', ' ', ' ', ' ', '.', '.', ' ', 'e', 'm', 'v', 'a', '1', '2', '8', '8', ':', ':', '\n', ' ', ' ', ' ', ' ', ' ', ' ', ' ', ' ', ' ', ' ', ' ', ' ', ':', 'S', 'e', 'c', 't', 'i', 'o', 'n', ':', ' ', 's', 'p', 'a', 't', 'i', 'a', 'l', '\n', ' ', ' ', ' ', ' ', ' ', ' ', ' ', ' ', ' ', ' ', ' ', ' ', ':', 'S', 'h', 'o', 'r', 't', ':', ' ', 'D', 'S', 'N', 'U', ' ', 'i', 'n', ' ', 'D', 'N', '\n', ' ', ' ', ' ', ' ', ' ', ' ', ' ', ' ', ' ', ' ', ' ', ' ', ':', 'S', 'y', 'm', 'b', 'o', 'l', ':', ' ', '$', 'D', 'S', 'N', 'U', '_', '{', '1', '2', '8', '8', '.', 'D', 'N', '}', '$', '\n', ' ', ' ', ' ', ' ', ' ', ' ', ' ', ' ', ' ', ' ', ' ', ' ', ':', 'U', 'n', 'i', 't', ':', ' ', 'D', 'N', '\n', ' ', ' ', ' ', ' ', ' ', ' ', ' ', ' ', ' ', ' ', ' ', ' ', ':', 'L', 'a', 't', 'e', 'x', 'N', 'a', 'm', 'e', ':', ' ', 'D', 'S', 'N', 'U', 'D', 'N', '\n', ' ', ' ', ' ', ' ', ' ', ' ', ' ', ' ']

/-- process/results.py lines 968-981 -/
def doc_DSNU1288_row : Str := ['D', 'S', 'N', 'U', ' ', 'i', 'n', ' ', 'r', 'o', 'w', 's', '.', '\n', '\n', ' ', ' ', ' ', ' ', ' ', ' ', ' ', ' ', 'D', 'a', 'r', 'k', ' ', 'S', 'i', 'g', 'n', 'a', 'l', ' ', 'N', 'o', 'n', 'U', 'n', 'i', 'f', 'o', 'r', 'm', 'i', 't', 'y', ' ', '(', 'i', 'n', ' ', 'e', '^', '-', ')', ' ', 'i', 's', ' ', 'd', 'e', 'f', 'i', 'n', 'e', 'd', ' ', 'a', 's', ' ', 't', 'h', 'e', ' ', 's', 't', 'a', 'n', 'd', 'a', 'r', 'd', '\n', ' ', ' ', ' ', ' ', ' ', ' ', ' ', ' ', 'd', 'e', 'v', 'i', 'a', 't', 'i', 'o', 'n', ' ', 'o', 'f', ' ', 't', 'h', 'e', ' ', 'd', 'a', 'r', 'k', ' ', 's', 'i', 'g', 'n', 'a', 'l', ' ', 'd', 'i', 'v', 'i', 'd', 'e', 'd', ' ', 'b', 'y', ' ', 't', 'h', 'e', ' ', 'o', 'v', 'e', 'r', 'a', 'l', 'l', ' ', 's', 'y', 's', 't', 'e', 'm', ' ', 'g', 'a', 'i', 'n', '.', '\n', ' ', ' ', ' ', ' ', ' ', ' ', ' ', ' ', 'I', 'f', ' ', 't', 'h', 'e', ' ', 'v', 'a', 'r', 'i', 'a', 'n', 'c', 'e', ' ', 'i', 's', ' ', 'n', 'e', 'g', 'a', 't', 'i', 'v', 'e', ',', ' ', 'i', 't', ' ', 'w', 'i', 'l', 'l', ' ', 'r', 'e', 't', 'u', 'r', 'n', ' ', 'N', 'a', 'N', ' ', 'i', 'n', 's', 't', 'e', 'a', 'd', ' ', 'o', 'f', ' ', 'a', 'n', '\n', ' ', ' ', ' ', ' ', ' ', ' ', ' ', ' ', 'i', 'm', 'a', 'g', 'i', 'n', 'a', 'r', 'y', ' ', 'n', 'u', 'm', 'b', 'e', 'r', '.', '\n', '\n', ' ', ' ', ' ', ' ', ' ', ' ', ' ', ' ', '.', '.', ' ', 'e', 'm', 'v', 'a', '1', '2', '8', '8', ':', ':', '\n', ' ', ' ', ' ', ' ', ' ', ' ', ' ', ' ', ' ', ' ', ' ', ' ', ':', 'S', 'e', 'c', 't', 'i', 'o', 'n', ':', ' ', 's', 'p', 'a', 't', 'i', 'a', 'l', '\n', ' ', ' ', ' ', ' ', ' ', ' ', ' ', ' ', ' ', ' ', ' ', ' ', ':', 'S', 'h', 'o', 'r', 't', ':', ' ', 'D', 'S', 'N', 'U', 'r', 'o', 'w', '\n', ' ', ' ', ' ', ' ', ' ', ' ', ' ', ' ', ' ', ' ', ' ', ' ', ':', 'S', 'y', 'm', 'b', 'o', 'l', ':', ' ', '$', 'D', 'S', 'N', 'U', '_', '{', '1', '2', '8', '8', '.', 'r', 'o', 'w', '}', '$', '\n', ' ', ' ', ' ', ' ', ' ', ' ', ' ', ' ', ' ', ' ', ' ', ' ', ':', 'U', 'n', 'i', 't', ':', ' ', '$', 'e', '^', '-', '$', '\n', ' ', ' ', ' ', ' ', ' ', ' ', ' ', ' ', ' ', ' ', ' ', ' ', ':', 'L', 'a', 't', 'e', 'x', 'N', 'a', 'm', 'e', ':', ' ', 'D', 'S', 'N', 'U', 'r', 'o', 'w', '\n', ' ', ' ', ' ', ' ', ' ', ' ', ' ', ' ']

/-- process/results.py lines 989-1002 -/
def doc_DSNU1288_col : Str := ['D', 'S', 'N', 'U', ' ', 'i', 'n', ' ', 'c', 'o', 'l', 'u', 'm', 'n', 's', '.', '\n', '\n', ' ', ' ', ' ', ' ', ' ', ' ', ' ', ' ', 'D', 'a', 'r', 'k', ' ', 'S', 'i', 'g', 'n', 'a', 'l', ' ', 'N', 'o', 'n', 'U', 'n', 'i', 'f', 'o', 'r', 'm', 'i', 't', 'y', ' ', '(', 'i', 'n', ' ', 'e', '^', '-', ')', ' ', 'i', 's', ' ', 'd', 'e', 'f', 'i', 'n', 'e', 'd', ' ', 'a', 's', ' ', 't', 'h', 'e', ' ', 's', 't', 'a', 'n', 'd', 'a', 'r', 'd', '\n', ' ', ' ', ' ', ' ', ' ', ' ', ' ', ' ', 'd', 'e', 'v', 'i', 'a', 't', 'i', 'o', 'n', ' ', 'o', 'f', ' ', 't', 'h', 'e', ' ', 'd', 'a', 'r', 'k', ' ', 's', 'i', 'g', 'n', 'a', 'l', ' ', 'd', 'i', 'v', 'i', 'd', 'e', 'd', ' ', 'b', 'y', ' ', 't', 'h', 'e', ' ', 'o', 'v', 'e', 'r', 'a', 'l', 'l', ' ', 's', 'y', 's', 't', 'e', 'm', ' ', 'g', 'a', 'i', 'n', '.', '\n', ' ', ' ', ' ', ' ', ' ', ' ', ' ', ' ', 'I', 'f', ' ', 't', 'h', 'e', ' ', 'v', 'a', 'r', 'i', 'a', 'n', 'c', 'e', ' ', 'i', 's', ' ', 'n', 'e', 'g', 'a', 't', 'i', 'v', 'e', ',', ' ', 'i', 't', ' ', 'w', 'i', 'l', 'l', ' ', 'r', 'e', 't', 'u', 'r', 'n', ' ', 'N', 'a', 'N', ' ', 'i', 'n', 's', 't', 'e', 'a', 'd', ' ', 'o', 'f', ' ', 'a', 'n', '\n', ' ', ' ', ' ', ' ', ' ', ' ', ' ', ' ', 'i', 'm', 'a', 'g', 'i', 'n', 'a', 'r', 'y', ' ', 'n', 'u', 'm', 'b', 'e', 'r', '.', '\n', '\n', ' ', ' ', ' ', ' ', ' ', ' ', ' ', ' ', '.', '.', ' ', 'e', 'm', 'v', 'a', '1', '2', '8', '8', ':', ':', '\n', ' ', ' ', ' ', ' ', ' ', ' ', ' ', ' ', ' ', ' ', ' ', ' ', ':', 'S', 'e', 'c', 't', 'i', 'o', 'n', ':', ' ', 's', 'p', 'a', 't', 'i', 'a', 'l', '\n', ' ', ' ', ' ', ' ', ' ', ' ', ' ', ' ', ' ', ' ', ' ', ' ', ':', 'S', 'h', 'o', 'r', 't', ':', ' ', 'D', 'S', 'N', 'U', 'c', 'o', 'l', '\n', ' ', ' ', ' ', ' ', ' ', ' ', ' ', ' ', ' ', ' ', ' ', ' ', ':', 'S', 'y', 'm', 'b', 'o', 'l', ':', ' ', '$', 'D', 'S', 'N', 'U', '_', '{', '1', '2', '8', '8', '.', 'c', 'o', 'l', '}', '$', '\n', ' ', ' ', ' ', ' ', ' ', ' ', ' ', ' ', ' ', ' ', ' ', ' ', ':', 'U', 'n', 'i', 't', ':', ' ', '$', 'e', '^', '-', '$', '\n', ' ', ' ', ' ', ' ', ' ', ' ', ' ', ' ', ' ', ' ', ' ', ' ', ':', 'L', 'a', 't', 'e', 'x', 'N', 'a', 'm', 'e', ':', ' ', 'D', 'S', 'N', 'U', 'c', 'o', 'l', '\n', ' ', ' ', ' ', ' ', ' ', ' ', ' ', ' ']

/-- process/results.py lines 1010-1023 -/
def doc_DSNU1288_pixel : Str := ['D', 'S', 'N', 'U', ' ', 'i', 'n', ' ', 'p', 'i', 'x', 'e', 'l', '.', '\n', '\n', ' ', ' ', ' ', ' ', ' ', ' ', ' ', ' ', 'D', 'a', 'r', 'k', ' ', 'S', 'i', 'g', 'n', 'a', 'l', ' ', 'N', 'o', 'n', 'U', 'n', 'i', 'f', 'o', 'r', 'm', 'i', 't', 'y', ' ', '(', 'i', 'n', ' ', 'e', '^', '-', ')', ' ', 'i', 's', ' ', 'd', 'e', 'f', 'i', 'n', 'e', 'd', ' ', 'a', 's', ' ', 't', 'h', 'e', ' ', 's', 't', 'a', 'n', 'd', 'a', 'r', 'd', '\n', ' ', ' ', ' ', ' ', ' ', ' ', ' ', ' ', 'd', 'e', 'v', 'i', 'a', 't', 'i', 'o', 'n', ' ', 'o', 'f', ' ', 't', 'h', 'e', ' ', 'd', 'a', 'r', 'k', ' ', 's', 'i', 'g', 'n', 'a', 'l', ' ', 'd', 'i', 'v', 'i', 'd', 'e', 'd', ' ', 'b', 'y', ' ', 't', 'h', 'e', ' ', 'o', 'v', 'e', 'r', 'a', 'l', 'l', ' ', 's', 'y', 's', 't', 'e', 'm', ' ', 'g', 'a', 'i', 'n', '.', '\n', ' ', ' ', ' ', ' ', ' ', ' ', ' ', ' ', 'I', 'f', ' ', 't', 'h', 'e', ' ', 'v', 'a', 'r', 'i', 'a', 'n', 'c', 'e', ' ', 'i', 's', ' ', 'n', 'e', 'g', 'a', 't', 'i', 'v', 'e', ',', ' ', 'i', 't', ' ', 'w', 'i', 'l', 'l', ' ', 'r', 'e', 't', 'u', 'r', 'n', ' ', 'N', 'a', 'N', ' ', 'i', 'n', 's', 't', 'e', 'a', 'd', ' ', 'o', 'f', ' ', 'a', 'n', '\n', ' ', ' ', ' ', ' ', ' ', ' ', ' ', ' ', 'i', 'm', 'a', 'g', 'i', 'n', 'a', 'r', 'y', ' ', 'n', 'u', 'm', 'b', 'e', 'r', '.', '\n', '\n', ' ', ' ', ' ', ' ', ' ', ' ', ' ', ' ', '.', '.', ' ', 'e', 'm', 'v', 'a', '1', '2', '8', '8', ':', ':', '\n', ' ', ' ', ' ', ' ', ' ', ' ', ' ', ' ', ' ', ' ', ' ', ' ', ':', 'S', 'e', 'c', 't', 'i', 'o', 'n', ':', ' ', 's', 'p', 'a', 't', 'i', 'a', 'l', '\n', ' ', ' ', ' ', ' ', ' ', ' ', ' ', ' ', ' ', ' ', ' ', ' ', ':', 'S', 'h', 'o', 'r', 't', ':', ' ', 'D', 'S', 'N', 'U', 'p', 'i', 'x', 'e', 'l', '\n', ' ', ' ', ' ', ' ', ' ', ' ', ' ', ' ', ' ', ' ', ' ', ' ', ':', 'S', 'y', 'm', 'b', 'o', 'l', ':', ' ', '$', 'D', 'S', 'N', 'U', '_', '{', '1', '2', '8', '8', '.', 'p', 'i', 'x', 'e', 'l', '}', '$', '\n', ' ', ' ', ' ', ' ', ' ', ' ', ' ', ' ', ' ', ' ', ' ', ' ', ':', 'U', 'n', 'i', 't', ':', ' ', '$', 'e', '^', '-', '$', '\n', ' ', ' ', ' ', ' ', ' ', ' ', ' ', ' ', ' ', ' ', ' ', ' ', ':', 'L', 'a', 't', 'e', 'x', 'N', 'a', 'm', 'e', ':', ' ', 'D', 'S', 'N', 'U', 'p', 'i', 'x', 'e', 'l', '\n', ' ', ' ', ' ', ' ', ' ', ' ', ' ', ' ']

/-- process/results.py lines 1031-1045 -/
def doc_PRNU1288 : Str := ['P', 'R', 'N', 'U', ' ', 'o', 'v', 'e', 'r', 'a', 'l', 'l', '.', '\n', '\n', ' ', ' ', ' ', ' ', ' ', ' ', ' ', ' ', 'P', 'h', 'o', 't', 'o', ' ', 'R', 'e', 's', 'p', 'o', 'n', 's', 'e', ' ', 'N', 'o', 'n', 'U', 'n', 'i', 'f', 'o', 'r', 'm', 'i', 't', 'y', ' ', '(', 'i', 'n', ' ', '%', ')', ' ', 'i', 's', ' ', 'd', 'e', 'f', 'i', 'n', 'e', 'd', ' ', 'a', 's', ' ', 't', 'h', 'e', ' ', 's', 'q', 'u', 'a', 'r', 'e', ' ', 'r', 'o', 'o', 't', ' ', 'o', 'f', '\n', ' ', ' ', ' ', ' ', ' ', ' ', ' ', ' ', 't', 'h', 'e', ' ', 'd', 'i', 'f', 'f', 'e', 'r', 'e', 'n', 'c', 'e', ' ', 'b', 'e', 't', 'w', 'e', 'e', 'n', ' ', 't', 'h', 'e', ' ', 's', 'p', 'a', 't', 'i', 'a', 'l', ' ', 'v', 'a', 'r', 'i', 'a', 'n', 'c', 'e', ' ', 'o', 'f', ' ', 'a', ' ', 'b', 'r', 'i', 'g', 'h', 't', ' ', 'i', 'm', 'a', 'g', 'e', ' ', '(', 'o', 'r', ' ', 'f', 'r', 'o', 'm', '\n', ' ', ' ', ' ', ' ', ' ', ' ', ' ', ' ', 'a', 'n', ' ', 'a', 'v', 'e', 'r', 'a', 'g', 'e', ' ', 'o', 'f', ' ', 'b', 'r', 'i', 'g', 'h', 't', ' ', 'i', 'm', 'a', 'g', 'e', 's', ' ', 't', 'o', ' ', 'r', 'e', 'm', 'o', 'v', 'e', ' ', 't', 'e', 'm', 'p', 'o', 'r', 'a', 'l', ' ', 'd', 'i', 'f', 'f', 'o', 'r', 'm', 'i', 't', 'i', 'e', 's', ')', ' ', 'a', 'n', 'd', ' ', 't', 'h', 'e', '\n', ' ', ' ', ' ', ' ', ' ', ' ', ' ', ' ', 's', 'p', 'a', 't', 'i', 'a', 'l', ' ', 'v', 'a', 'r', 'i', 'a', 'n', 'c', 'e', ' ', 'o', 'f', ' ', 'd', 'a', 'r', 'k', ' ', 's', 'i', 'g', 'n', 'a', 'l', ',', ' ', 'd', 'i', 'v', 'i', 'd', 'e', 'd', ' ', 'b', 'y', ' ', 't', 'h', 'e', ' ', 'd', 'i', 'f', 'f', 'e', 'r', 'e', 'n', 'c', 'e', ' ', 'b', 'e', 't', 'w', 'e', 'e', 'n', ' ', 't', 'h', 'e', '\n', ' ', ' ', ' ', ' ', ' ', ' ', ' ', ' ', 'm', 'e', 'a', 'n', ' ', 'o', 'f', ' ', 'a', ' ', 'b', 'r', 'i', 'g', 'h', 't', ' ', 'i', 'm', 'a', 'g', 'e', ' ', 'a', 'n', 'd', ' ', 't', 'h', 'e', ' ', 'm', 'e', 'a', 'n', ' ', 'o', 'f', ' ', 'a', ' ', 'd', 'a', 'r', 'k', ' ', 'i', 'm', 'a', 'g', 'e', '.', '\n', '\n', ' ', ' ', ' ', ' ', ' ', ' ', ' ', ' ', '.', '.', ' ', 'e', 'm', 'v', 'a', '1', '2', '8', '8', ':', ':', '\n', ' ', ' ', ' ', ' ', ' ', ' ', ' ', ' ', ' ', ' ', ' ', ' ', ':', 'S', 'e', 'c', 't', 'i', 'o', 'n', ':', ' ', 's', 'p', 'a', 't', 'i', 'a', 'l', '\n', ' ', ' ', ' ', ' ', ' ', ' ', ' ', ' ', ' ', ' ', ' ', ' ', ':', 'S', 'h', 'o', 'r', 't', ':', ' ', 'P', 'R', 'N', 'U', '\n', ' ', ' ', ' ', ' ', ' ', ' ', ' ', ' ', ' ', ' ', ' ', ' ', ':', 'S', 'y', 'm', 'b', 'o', 'l', ':', ' ', '$', 'P', 'R', 'N', 'U', '_', '{', '1', '2', '8', '8', '}', '$', '\n', ' ', ' ', ' ', ' ', ' ', ' ', ' ', ' ', ' ', ' ', ' ', ' ', ':', 'U', 'n', 'i', 't', ':', ' ', '\\', '%', '\n', ' ', ' ', ' ', ' ', ' ', ' ', ' ', ' ', ' ', ' ', ' ', ' ', ':', 'L', 'a', 't', 'e', 'x', 'N', 'a', 'm', 'e', ':', ' ', 'P', 'R', 'N', 'U', '\n', ' ', ' ', ' ', ' ', ' ', ' ', ' ', ' ']

/-- process/results.py lines 1052-1066 -/
def doc_PRNU1288_row : Str := ['P', 'R', 'N', 'U', ' ', 'i', 'n', ' ', 'r', 'o', 'w', '.', '\n', '\n', ' ', ' ', ' ', ' ', ' ', ' ', ' ', ' ', 'P', 'h', 'o', 't', 'o', ' ', 'R', 'e', 's', 'p', 'o', 'n', 's', 'e', ' ', 'N', 'o', 'n', 'U', 'n', 'i', 'f', 'o', 'r', 'm', 'i', 't', 'y', ' ', '(', 'i', 'n', ' ', '%', ')', ' ', 'i', 's', ' ', 'd', 'e', 'f', 'i', 'n', 'e', 'd', ' ', 'a', 's', ' ', 't', 'h', 'e', ' ', 's', 'q', 'u', 'a', 'r', 'e', ' ', 'r', 'o', 'o', 't', ' ', 'o', 'f', '\n', ' ', ' ', ' ', ' ', ' ', ' ', ' ', ' ', 't', 'h', 'e', ' ', 'd', 'i', 'f', 'f', 'e', 'r', 'e', 'n', 'c', 'e', ' ', 'b', 'e', 't', 'w', 'e', 'e', 'n', ' ', 't', 'h', 'e', ' ', 's', 'p', 'a', 't', 'i', 'a', 'l', ' ', 'v', 'a', 'r', 'i', 'a', 'n', 'c', 'e', ' ', 'o', 'f', ' ', 'a', ' ', 'b', 'r', 'i', 'g', 'h', 't', ' ', 'i', 'm', 'a', 'g', 'e', ' ', '(', 'o', 'r', ' ', 'f', 'r', 'o', 'm', '\n', ' ', ' ', ' ', ' ', ' ', ' ', ' ', ' ', 'a', 'n', ' ', 'a', 'v', 'e', 'r', 'a', 'g', 'e', ' ', 'o', 'f', ' ', 'b', 'r', 'i', 'g', 'h', 't', ' ', 'i', 'm', 'a', 'g', 'e', 's', ' ', 't', 'o', ' ', 'r', 'e', 'm', 'o', 'v', 'e', ' ', 't', 'e', 'm', 'p', 'o', 'r', 'a', 'l', ' ', 'd', 'i', 'f', 'f', 'o', 'r', 'm', 'i', 't', 'i', 'e', 's', ')', ' ', 'a', 'n', 'd', ' ', 't', 'h', 'e', '\n', ' ', ' ', ' ', ' ', ' ', ' ', ' ', ' ', 's', 'p', 'a', 't', 'i', 'a', 'l', ' ', 'v', 'a', 'r', 'i', 'a', 'n', 'c', 'e', ' ', 'o', 'f', ' ', 'd', 'a', 'r', 'k', ' ', 's', 'i', 'g', 'n', 'a', 'l', ',', ' ', 'd', 'i', 'v', 'i', 'd', 'e', 'd', ' ', 'b', 'y', ' ', 't', 'h', 'e', ' ', 'd', 'i', 'f', 'f', 'e', 'r', 'e', 'n', 'c', 'e', ' ', 'b', 'e', 't', 'w', 'e', 'e', 'n', ' ', 't', 'h', 'e', '\n', ' ', ' ', ' ', ' ', ' ', ' ', ' ', ' ', 'm', 'e', 'a', 'n', ' ', 'o', 'f', ' ', 'a', ' ', 'b', 'r', 'i', 'g', 'h', 't', ' ', 'i', 'm', 'a', 'g', 'e', ' ', 'a', 'n', 'd', ' ', 't', 'h', 'e', ' ', 'm', 'e', 'a', 'n', ' ', 'o', 'f', ' ', 'a', ' ', 'd', 'a', 'r', 'k', ' ', 'i', 'm', 'a', 'g', 'e', '.', '\n', '\n', ' ', ' ', ' ', ' ', ' ', ' ', ' ', ' ', '.', '.', ' ', 'e', 'm', 'v', 'a', '1', '2', '8', '8', ':', ':', '\n', ' ', ' ', ' ', ' ', ' ', ' ', ' ', ' ', ' ', ' ', ' ', ' ', ':', 'S', 'e', 'c', 't', 'i', 'o', 'n', ':', ' ', 's', 'p', 'a', 't', 'i', 'a', 'l', '\n', ' ', ' ', ' ', ' ', ' ', ' ', ' ', ' ', ' ', ' ', ' ', ' ', ':', 'S', 'h', 'o', 'r', 't', ':', ' ', 'P', 'R', 'N', 'U', 'r', 'o', 'w', '\n', ' ', ' ', ' ', ' ', ' ', ' ', ' ', ' ', ' ', ' ', ' ', ' ', ':', 'S', 'y', 'm', 'b', 'o', 'l', ':', ' ', '$', 'P', 'R', 'N', 'U', '_', '{', '1', '2', '8', '8', '.', 'r', 'o', 'w', '}', '$', '\n', ' ', ' ', ' ', ' ', ' ', ' ', ' ', ' ', ' ', ' ', ' ', ' ', ':', 'U', 'n', 'i', 't', ':', ' ', '\\', '%', '\n', ' ', ' ', ' ', ' ', ' ', ' ', ' ', ' ', ' ', ' ', ' ', ' ', ':', 'L', 'a', 't', 'e', 'x', 'N', 'a', 'm', 'e', ':', ' ', 'P', 'R', 'N', 'U', 'r', 'o', 'w', '\n', ' ', ' ', ' ', ' ', ' ', ' ', ' ', ' ']

/-- process/results.py lines 1073-1087 -/
def doc_PRNU1288_col : Str := ['P', 'R', 'N', 'U', ' ', 'i', 'n', ' ', 'c', 'o', 'l', 'u', 'm', 'n', '.', '\n', '\n', ' ', ' ', ' ', ' ', ' ', ' ', ' ', ' ', 'P', 'h', 'o', 't', 'o', ' ', 'R', 'e', 's', 'p', 'o', 'n', 's', 'e', ' ', 'N', 'o', 'n', 'U', 'n', 'i', 'f', 'o', 'r', 'm', 'i', 't', 'y', ' ', '(', 'i', 'n', ' ', '%', ')', ' ', 'i', 's', ' ', 'd', 'e', 'f', 'i', 'n', 'e', 'd', ' ', 'a', 's', ' ', 't', 'h', 'e', ' ', 's', 'q', 'u', 'a', 'r', 'e', ' ', 'r', 'o', 'o', 't', ' ', 'o', 'f', '\n', ' ', ' ', ' ', ' ', ' ', ' ', ' ', ' ', 't', 'h', 'e', ' ', 'd', 'i', 'f', 'f', 'e', 'r', 'e', 'n', 'c', 'e', ' ', 'b', 'e', 't', 'w', 'e', 'e', 'n', ' ', 't', 'h', 'e', ' ', 's', 'p', 'a', 't', 'i', 'a', 'l', ' ', 'v', 'a', 'r', 'i', 'a', 'n', 'c', 'e', ' ', 'o', 'f', ' ', 'a', ' ', 'b', 'r', 'i', 'g', 'h', 't', ' ', 'i', 'm', 'a', 'g', 'e', ' ', '(', 'o', 'r', ' ', 'f', 'r', 'o', 'm', '\n', ' ', ' ', ' ', ' ', ' ', ' ', ' ', ' ', 'a', 'n', ' ', 'a', 'v', 'e', 'r', 'a', 'g', 'e', ' ', 'o', 'f', ' ', 'b', 'r', 'i', 'g', 'h', 't', ' ', 'i', 'm', 'a', 'g', 'e', 's', ' ', 't', 'o', ' ', 'r', 'e', 'm', 'o', 'v', 'e', ' ', 't', 'e', 'm', 'p', 'o', 'r', 'a', 'l', ' ', 'd', 'i', 'f', 'f', 'o', 'r', 'm', 'i', 't', 'i', 'e', 's', ')', ' ', 'a', 'n', 'd', ' ', 't', 'h', 'e', '\n', ' ', ' ', ' ', ' ', ' ', ' ', ' ', ' ', 's', 'p', 'a', 't', 'i', 'a', 'l', ' ', 'v', 'a', 'r', 'i', 'a', 'n', 'c', 'e', ' ', 'o', 'f', ' ', 'd', 'a', 'r', 'k', ' ', 's', 'i', 'g', 'n', 'a', 'l', ',', ' ', 'd', 'i', 'v', 'i', 'd', 'e', 'd', ' ', 'b', 'y', ' ', 't', 'h', 'e', ' ', 'd', 'i', 'f', 'f', 'e', 'r', 'e', 'n', 'c', 'e', ' ', 'b', 'e', 't', 'w', 'e', 'e', 'n', ' ', 't', 'h', 'e', '\n', ' ', ' ', ' ', ' ', ' ', ' ', ' ', ' ', 'm', 'e', 'a', 'n', ' ', 'o', 'f', ' ', 'a', ' ', 'b', 'r', 'i', 'g', 'h', 't', ' ', 'i', 'm', 'a', 'g', 'e', ' ', 'a', 'n', 'd', ' ', 't', 'h', 'e', ' ', 'm', 'e', 'a', 'n', ' ', 'o', 'f', ' ', 'a', ' ', 'd', 'a', 'r', 'k', ' ', 'i', 'm', 'a', 'g', 'e', '.', '\n', '\n', ' ', ' ', ' ', ' ', ' ', ' ', ' ', ' ', '.', '.', ' ', 'e', 'm', 'v', 'a', '1', '2', '8', '8', ':', ':', '\n', ' ', ' ', ' ', ' ', ' ', ' ', ' ', ' ', ' ', ' ', ' ', ' ', ':', 'S', 'e', 'c', 't', 'i', 'o', 'n', ':', ' ', 's', 'p', 'a', 't', 'i', 'a', 'l', '\n', ' ', ' ', ' ', ' ', ' ', ' ', ' ', ' ', ' ', ' ', ' ', ' ', ':', 'S', 'h', 'o', 'r', 't', ':', ' ', 'P', 'R', 'N', 'U', 'c', 'o', 'l', '\n', ' ', ' ', ' ', ' ', ' ', ' ', ' ', ' ', ' ', ' ', ' ', ' ', ':', 'S', 'y', 'm', 'b', 'o', 'l', ':', ' ', '$', 'P', 'R', 'N', 'U', '_', '{', '1', '2', '8', '8', '.', 'c', 'o', 'l', '}', '$', '\n', ' ', ' ', ' ', ' ', ' ', ' ', ' ', ' ', ' ', ' ', ' ', ' ', ':', 'U', 'n', 'i', 't', ':', ' ', '\\', '%', '\n', ' ', ' ', ' ', ' ', ' ', ' ', ' ', ' ', ' ', ' ', ' ', ' ', ':', 'L', 'a', 't', 'e', 'x', 'N', 'a', 'm', 'e', ':', ' ', 'P', 'R', 'N', 'U', 'c', 'o', 'l', '\n', ' ', ' ', ' ', ' ', ' ', ' ', ' ', ' ']

/-- process/results.py lines 1094-1108 -/
def doc_PRNU1288_pixel : Str := ['P', 'R', 'N', 'U', ' ', 'i', 'n', ' ', 'p', 'i', 'x', 'e', 'l', '.', '\n', '\n', ' ', ' ', ' ', ' ', ' ', ' ', ' ', ' ', 'P', 'h', 'o', 't', 'o', ' ', 'R', 'e', 's', 'p', 'o', 'n', 's', 'e', ' ', 'N', 'o', 'n', 'U', 'n', 'i', 'f', 'o', 'r', 'm', 'i', 't', 'y', ' ', '(', 'i', 'n', ' ', '%', ')', ' ', 'i', 's', ' ', 'd', 'e', 'f', 'i', 'n', 'e', 'd', ' ', 'a', 's', ' ', 't', 'h', 'e', ' ', 's', 'q', 'u', 'a', 'r', 'e', ' ', 'r', 'o', 'o', 't', ' ', 'o', 'f', '\n', ' ', ' ', ' ', ' ', ' ', ' ', ' ', ' ', 't', 'h', 'e', ' ', 'd', 'i', 'f', 'f', 'e', 'r', 'e', 'n', 'c', 'e', ' ', 'b', 'e', 't', 'w', 'e', 'e', 'n', ' ', 't', 'h', 'e', ' ', 's', 'p', 'a', 't', 'i', 'a', 'l', ' ', 'v', 'a', 'r', 'i', 'a', 'n', 'c', 'e', ' ', 'o', 'f', ' ', 'a', ' ', 'b', 'r', 'i', 'g', 'h', 't', ' ', 'i', 'm', 'a', 'g', 'e', ' ', '(', 'o', 'r', ' ', 'f', 'r', 'o', 'm', '\n', ' ', ' ', ' ', ' ', ' ', ' ', ' ', ' ', 'a', 'n', ' ', 'a', 'v', 'e', 'r', 'a', 'g', 'e', ' ', 'o', 'f', ' ', 'b', 'r', 'i', 'g', 'h', 't', ' ', 'i', 'm', 'a', 'g', 'e', 's', ' ', 't', 'o', ' ', 'r', 'e', 'm', 'o', 'v', 'e', ' ', 't', 'e', 'm', 'p', 'o', 'r', 'a', 'l', ' ', 'd', 'i', 'f', 'f', 'o', 'r', 'm', 'i', 't', 'i', 'e', 's', ')', ' ', 'a', 'n', 'd', ' ', 't', 'h', 'e', '\n', ' ', ' ', ' ', ' ', ' ', ' ', ' ', ' ', 's', 'p', 'a', 't', 'i', 'a', 'l', ' ', 'v', 'a', 'r', 'i', 'a', 'n', 'c', 'e', ' ', 'o', 'f', ' ', 'd', 'a', 'r', 'k', ' ', 's', 'i', 'g', 'n', 'a', 'l', ',', ' ', 'd', 'i', 'v', 'i', 'd', 'e', 'd', ' ', 'b', 'y', ' ', 't', 'h', 'e', ' ', 'd', 'i', 'f', 'f', 'e', 'r', 'e', 'n', 'c', 'e', ' ', 'b', 'e', 't', 'w', 'e', 'e', 'n', ' ', 't', 'h', 'e', '\n', ' ', ' ', ' ', ' ', ' ', ' ', ' ', ' ', 'm', 'e', 'a', 'n', ' ', 'o', 'f', ' ', 'a', ' ', 'b', 'r', 'i', 'g', 'h', 't', ' ', 'i', 'm', 'a', 'g', 'e', ' ', 'a', 'n', 'd', ' ', 't', 'h', 'e', ' ', 'm', 'e', 'a', 'n', ' ', 'o', 'f', ' ', 'a', ' ', 'd', 'a', 'r', 'k', ' ', 'i', 'm', 'a', 'g', 'e', '.', '\n', '\n', ' ', ' ', ' ', ' ', ' ', ' ', ' ', ' ', '.', '.', ' ', 'e', 'm', 'v', 'a', '1', '2', '8', '8', ':', ':', '\n', ' ', ' ', ' ', ' ', ' ', ' ', ' ', ' ', ' ', ' ', ' ', ' ', ':', 'S', 'e', 'c', 't', 'i', 'o', 'n', ':', ' ', 's', 'p', 'a', 't', 'i', 'a', 'l', '\n', ' ', ' ', ' ', ' ', ' ', ' ', ' ', ' ', ' ', ' ', ' ', ' ', ':', 'S', 'h', 'o', 'r', 't', ':', ' ', 'P', 'R', 'N', 'U', 'p', 'i', 'x', 'e', 'l', '\n', ' ', ' ', ' ', ' ', ' ', ' ', ' ', ' ', ' ', ' ', ' ', ' ', ':', 'S', 'y', 'm', 'b', 'o', 'l', ':', ' ', '$', 'P', 'R', 'N', 'U', '_', '{', '1', '2', '8', '8', '.', 'p', 'i', 'x', 'e', 'l', '}', '$', '\n', ' ', ' ', ' ', ' ', ' ', ' ', ' ', ' ', ' ', ' ', ' ', ' ', ':', 'U', 'n', 'i', 't', ':', ' ', '\\', '%', '\n', ' ', ' ', ' ', ' ', ' ', ' ', ' ', ' ', ' ', ' ', ' ', ' ', ':', 'L', 'a', 't', 'e', 'x', 'N', 'a', 'm', 'e', ':', ' ', 'P', 'R', 'N', 'U', 'p', 'i', 'x', 'e', 'l', '\n', ' ', ' ', ' ', ' ', ' ', ' ', ' ', ' ']

/-- process/results.py lines 1115-1125 -/
def doc_histogram_PRNU : Str := ['P', 'R', 'N', 'U', ' ', 'h', 'i', 's', 't', 'o', 'g', 'r', 'a', 'm', '.', '\n', '\n', ' ', ' ', ' ', ' ', ' ', ' ', ' ', ' ', 'U', 's', 'e', 's', ' ', 't', 'h', 'e', ' ', ':', 'f', 'u', 'n', 'c', ':', '`', '~', 'e', 'm', 'v', 'a', '1', '2', '8', '8', '.', 'p', 'r', 'o', 'c', 'e', 's', 's', '.', 'r', 'o', 'u', 't', 'i', 'n', 'e', 's', '.', 'h', 'i', 'g', 'h', '_', 'p', 'a', 's', 's', '_', 'f', 'i', 'l', 't', 'e', 'r', '`', ' ', 'f', 'u', 'n', 'c', 't', 'i', 'o', 'n', '\n', ' ', ' ', ' ', ' ', ' ', ' ', ' ', ' ', 't', 'o', ' ', 'f', 'i', 'l', 't', 'e', 'r', ' ', 't', 'h', 'e', ' ', 'i', 'm', 'a', 'g', 'e', ' ', 'a', 'n', 'd', ' ', 't', 'h', 'e', 'n', ' ', 'u', 's', 'e', 's', ' ', 't', 'h', 'e', '\n', ' ', ' ', ' ', ' ', ' ', ' ', ' ', ' ', ':', 'f', 'u', 'n', 'c', ':', '`', '~', 'e', 'm', 'v', 'a', '1', '2', '8', '8', '.', 'p', 'r', 'o', 'c', 'e', 's', 's', '.', 'r', 'o', 'u', 't', 'i', 'n', 'e', 's', '.', 'H', 'i', 's', 't', 'o', 'g', 'r', 'a', 'm', '1', '2', '8', '8', '`', ' ', 'f', 'u', 'n', 'c', 't', 'i', 'o', 'n', '\n', ' ', ' ', ' ', ' ', ' ', ' ', ' ', ' ', 't', 'o', ' ', 'm', 'a', 'k', 'e', ' ', 't', 'h', 'e', ' ', 'h', 'i', 's', 't', 'o', 'g', 'r', 'a', 'm', '.', '\n', '\n', ' ', ' ', ' ', ' ', ' ', ' ', ' ', ' ', '.', '.', ' ', 'e', 'm', 'v', 'a', '1', '2', '8', '8', ':', ':', '\n', ' ', ' ', ' ', ' ', ' ', ' ', ' ', ' ', ' ', ' ', ' ', ' ', ':', 'S', 'e', 'c', 't', 'i', 'o', 'n', ':', ' ', 'd', 'e', 'f', 'e', 'c', 't', '_', 'p', 'i', 'x', 'e', 'l', '\n', ' ', ' ', ' ', ' ', ' ', ' ', ' ', ' ', ' ', ' ', ' ', ' ', ':', 'S', 'h', 'o', 'r', 't', ':', ' ', 'P', 'R', 'N', 'U', ' ', 'h', 'i', 's', 't', 'o', 'g', 'r', 'a', 'm', '\n', ' ', ' ', ' ', ' ', ' ', ' ', ' ', ' ']

/-- process/results.py lines 1141-1151 -/
def doc_histogram_PRNU_accumulated : Str := ['A', 'c', 'c', 'u', 'm', 'u', 'l', 'a', 't', 'e', 'd', ' ', 'P', 'R', 'N', 'U', ' ', 'h', 'i', 's', 't', 'o', 'g', 'r', 'a', 'm', '.', '\n', '\n', ' ', ' ', ' ', ' ', ' ', ' ', ' ', ' ', 'U', 's', 'e', 's', ' ', 't', 'h', 'e', ' ', ':', 'f', 'u', 'n', 'c', ':', '`', '~', 'e', 'm', 'v', 'a', '1', '2', '8', '8', '.', 'p', 'r', 'o', 'c', 'e', 's', 's', '.', 'r', 'o', 'u', 't', 'i', 'n', 'e', 's', '.', 'h', 'i', 'g', 'h', '_', 'p', 'a', 's', 's', '_', 'f', 'i', 'l', 't', 'e', 'r', '`', ' ', 'f', 'u', 'n', 'c', 't', 'i', 'o', 'n', '\n', ' ', ' ', ' ', ' ', ' ', ' ', ' ', ' ', 't', 'o', ' ', 'f', 'i', 'l', 't', 'e', 'r', ' ', 't', 'h', 'e', ' ', 'i', 'm', 'a', 'g', 'e', ' ', 'a', 'n', 'd', ' ', 't', 'h', 'e', 'n', ' ', 'u', 's', 'e', 's', ' ', 't', 'h', 'e', '\n', ' ', ' ', ' ', ' ', ' ', ' ', ' ', ' ', ':', 'f', 'u', 'n', 'c', ':', '`', '~', 'e', 'm', 'v', 'a', '1', '2', '8', '8', '.', 'p', 'r', 'o', 'c', 'e', 's', 's', '.', 'r', 'o', 'u', 't', 'i', 'n', 'e', 's', '.', 'H', 'i', 's', 't', 'o', 'g', 'r', 'a', 'm', '1', '2', '8', '8', '`', ' ', 'f', 'u', 'n', 'c', 't', 'i', 'o', 'n', '\n', ' ', ' ', ' ', ' ', ' ', ' ', ' ', ' ', 't', 'o', ' ', 'm', 'a', 'k', 'e', ' ', 't', 'h', 'e', ' ', 'h', 'i', 's', 't', 'o', 'g', 'r', 'a', 'm', '.', '\n', '\n', ' ', ' ', ' ', ' ', ' ', ' ', ' ', ' ', '.', '.', ' ', 'e', 'm', 'v', 'a', '1', '2', '8', '8', ':', ':', '\n', ' ', ' ', ' ', ' ', ' ', ' ', ' ', ' ', ' ', ' ', ' ', ' ', ':', 'S', 'e', 'c', 't', 'i', 'o', 'n', ':', ' ', 'd', 'e', 'f', 'e', 'c', 't', '_', 'p', 'i', 'x', 'e', 'l', '\n', ' ', ' ', ' ', ' ', ' ', ' ', ' ', ' ', ' ', ' ', ' ', ' ', ':', 'S', 'h', 'o', 'r', 't', ':', ' ', 'a', 'c', 'c', 'u', 'm', 'u', 'l', 'a', 't', 'e', 'd', ' ', 'P', 'R', 'N', 'U', ' ', 'h', 'i', 's', 't', 'o', 'g', 'r', 'a', 'm', '\n', ' ', ' ', ' ', ' ', ' ', ' ', ' ', ' ']

/-- process/results.py lines 1173-1181 -/
def doc_histogram_DSNU : Str := ['D', 'S', 'N', 'U', ' ', 'h', 'i', 's', 't', 'o', 'g', 'r', 'a', 'm', '.', '\n', '\n', ' ', ' ', ' ', ' ', ' ', ' ', ' ', ' ', 'U', 's', 'e', 's', ' ', 't', 'h', 'e', ' ', ':', 'f', 'u', 'n', 'c', ':', '`', '~', 'e', 'm', 'v', 'a', '1', '2', '8', '8', '.', 'p', 'r', 'o', 'c', 'e', 's', 's', '.', 'r', 'o', 'u', 't', 'i', 'n', 'e', 's', '.', 'H', 'i', 's', 't', 'o', 'g', 'r', 'a', 'm', '1', '2', '8', '8', '`', ' ', 'f', 'u', 'n', 'c', 't', 'i', 'o', 'n', '\n', ' ', ' ', ' ', ' ', ' ', ' ', ' ', ' ', 't', 'o', ' ', 'm', 'a', 'k', 'e', ' ', 't', 'h', 'e', ' ', 'h', 'i', 's', 't', 'o', 'g', 'r', 'a', 'm', '.', '\n', '\n', ' ', ' ', ' ', ' ', ' ', ' ', ' ', ' ', '.', '.', ' ', 'e', 'm', 'v', 'a', '1', '2', '8', '8', ':', ':', '\n', ' ', ' ', ' ', ' ', ' ', ' ', ' ', ' ', ' ', ' ', ' ', ' ', ':', 'S', 'e', 'c', 't', 'i', 'o', 'n', ':', ' ', 'd', 'e', 'f', 'e', 'c', 't', '_', 'p', 'i', 'x', 'e', 'l', '\n', ' ', ' ', ' ', ' ', ' ', ' ', ' ', ' ', ' ', ' ', ' ', ' ', ':', 'S', 'h', 'o', 'r', 't', ':', ' ', 'D', 'S', 'N', 'U', ' ', 'h', 'i', 's', 't', 'o', 'g', 'r', 'a', 'm', '\n', ' ', ' ', ' ', ' ', ' ', ' ', ' ', ' ']

/-- process/results.py lines 1198-1206 -/
def doc_histogram_DSNU_accumulated : Str := ['A', 'c', 'c', 'u', 'm', 'u', 'l', 'a', 't', 'e', 'd', ' ', 'D', 'S', 'N', 'U', ' ', 'h', 'i', 's', 't', 'o', 'g', 'r', 'a', 'm', '.', '\n', '\n', ' ', ' ', ' ', ' ', ' ', ' ', ' ', ' ', 'U', 's', 'e', 's', ' ', 't', 'h', 'e', ' ', ':', 'f', 'u', 'n', 'c', ':', '`', '~', 'e', 'm', 'v', 'a', '1', '2', '8', '8', '.', 'p', 'r', 'o', 'c', 'e', 's', 's', '.', 'r', 'o', 'u', 't', 'i', 'n', 'e', 's', '.', 'H', 'i', 's', 't', 'o', 'g', 'r', 'a', 'm', '1', '2', '8', '8', '`', ' ', 'f', 'u', 'n', 'c', 't', 'i', 'o', 'n', '\n', ' ', ' ', ' ', ' ', ' ', ' ', ' ', ' ', 't', 'o', ' ', 'm', 'a', 'k', 'e', ' ', 't', 'h', 'e', ' ', 'h', 'i', 's', 't', 'o', 'g', 'r', 'a', 'm', '.', '\n', '\n', ' ', ' ', ' ', ' ', ' ', ' ', ' ', ' ', '.', '.', ' ', 'e', 'm', 'v', 'a', '1', '2', '8', '8', ':', ':', '\n', ' ', ' ', ' ', ' ', ' ', ' ', ' ', ' ', ' ', ' ', ' ', ' ', ':', 'S', 'e', 'c', 't', 'i', 'o', 'n', ':', ' ', 'd', 'e', 'f', 'e', 'c', 't', '_', 'p', 'i', 'x', 'e', 'l', '\n', ' ', ' ', ' ', ' ', ' ', ' ', ' ', ' ', ' ', ' ', ' ', ' ', ':', 'S', 'h', 'o', 'r', 't', ':', ' ', 'a', 'c', 'c', 'u', 'm', 'u', 'l', 'a', 't', 'e', 'd', ' ', 'D', 'S', 'N', 'U', ' ', 'h', 'i', 's', 't', 'o', 'g', 'r', 'a', 'm', '\n', ' ', ' ', ' ', ' ', ' ', ' ', ' ', ' ']

/-- process/results.py lines 1227-1238 -/
def doc_xml : Str := ['M', 'e', 't', 'h', 'o', 'd', ' ', 't', 'h', 'a', 't', ' ', 'w', 'r', 'i', 't', 'e', 's', ' ', 't', 'h', 'e', ' ', 'r', 'e', 's', 'u', 'l', 't', 's', ' ', 'i', 'n', ' ', 'x', 'm', 'l', ' ', 'f', 'o', 'r', 'm', 'a', 't', ' ', 't', 'o', ' ', 'a', ' ', 'f', 'i', 'l', 'e', '.', '\n', '\n', ' ', ' ', ' ', ' ', ' ', ' ', ' ', ' ', 'P', 'a', 'r', 'a', 'm', 'e', 't', 'e', 'r', 's', '\n', ' ', ' ', ' ', ' ', ' ', ' ', ' ', ' ', '-', '-', '-', '-', '-', '-', '-', '-', '-', '-', '\n', ' ', ' ', ' ', ' ', ' ', ' ', ' ', ' ', 'f', 'i', 'l', 'e', 'n', 'a', 'm', 'e', ' ', ':', ' ', 's', 't', 'r', ',', ' ', 'o', 'p', 't', 'i', 'o', 'n', 'a', 'l', '\n', ' ', ' ', ' ', ' ', ' ', ' ', ' ', ' ', ' ', ' ', ' ', ' ', ' ', ' ', ' ', ' ', ' ', ' ', ' ', 'T', 'h', 'e', ' ', 'f', 'i', 'l', 'e', ' ', 't', 'o', ' ', 'w', 'r', 'i', 't', 'e', ' ', 't', 'h', 'e', ' ', 'r', 'e', 's', 'u', 'l', 't', 's', '.', ' ', 'I', 'f', ' ', 'N', 'o', 'n', 'e', ',', ' ', 't', 'h', 'e', ' ', 'x', 'm', 'l', ' ', 's', 't', 'r', 'i', 'n', 'g', '\n', ' ', ' ', ' ', ' ', ' ', ' ', ' ', ' ', ' ', ' ', ' ', ' ', ' ', ' ', ' ', ' ', ' ', ' ', ' ', 'w', 'o', 'n', '\'', 't', ' ', 'b', 'e', ' ', 'w', 'r', 'i', 't', 't', 'e', 'n', ' ', 'b', 'u', 't', ' ', 'w', 'i', 'l', 'l', ' ', 'b', 'e', ' ', 'r', 'e', 't', 'u', 'r', 'n', 'e', 'd', ' ', 'i', 'n', 's', 't', 'e', 'a', 'd', '.', '\n', '\n', ' ', ' ', ' ', ' ', ' ', ' ', ' ', ' ', 'R', 'e', 't', 'u', 'r', 'n', 's', '\n', ' ', ' ', ' ', ' ', ' ', ' ', ' ', ' ', '-', '-', '-', '-', '-', '-', '-', '\n', ' ', ' ', ' ', ' ', ' ', ' ', ' ', ' ', 's', 't', 'r', ' ', ':', ' ', 'I', 'f', ' ', 't', 'h', 'e', ' ', 'x', 'm', 'l', ' ', 's', 't', 'r', 'i', 'n', 'g', ' ', 'i', 's', ' ', 'n', 'o', 't', ' ', 'w', 'r', 'i', 't', 't', 'e', 'n', ' ', 'i', 'n', 't', 'o', ' ', 'a', ' ', 'f', 'i', 'l', 'e', ',', ' ', 'i', 't', ' ', 'i', 's', ' ', 'r', 'e', 't', 'u', 'r', 'n', 'e', 'd', '.', '\n', ' ', ' ', ' ', ' ', ' ', ' ', ' ', ' ']

/-- process/results.py lines 1246-1250 -/
def doc_results : Str := ['D', 'i', 'c', 't', 'i', 'o', 'n', 'n', 'a', 'r', 'y', ' ', 'w', 'i', 't', 'h', ' ', 'a', 'l', 'l', ' ', 't', 'h', 'e', ' ', 'v', 'a', 'l', 'u', 'e', 's', ' ', 'a', 'n', 'd', ' ', 'm', 'e', 't', 'a', 'd', 'a', 't', 'a', ' ', 'f', 'o', 'r', ' ', 'E', 'M', 'V', 'A', '1', '2', '8', '8', ' ', 'v', 'a', 'l', 'u', 'e', 's', '.', '\n', '\n', ' ', ' ', ' ', ' ', ' ', ' ', ' ', ' ', 'I', 't', ' ', 'u', 's', 'e', 's', ' ', 't', 'h', 'e', ' ', ':', 'f', 'u', 'n', 'c', ':', '`', '~', 'e', 'm', 'v', 'a', '1', '2', '8', '8', '.', 'p', 'r', 'o', 'c', 'e', 's', 's', '.', 'r', 'o', 'u', 't', 'i', 'n', 'e', 's', '.', 'o', 'b', 'j', '_', 't', 'o', '_', 'd', 'i', 'c', 't', '`', ' ', 't', 'o', ' ', 'c', 'o', 'm', 'p', 'u', 't', 'e', '\n', ' ', ' ', ' ', ' ', ' ', ' ', ' ', ' ', 'a', 'l', 'l', ' ', 't', 'h', 'e', ' ', 'r', 'e', 's', 'u', 'l', 't', 's', ' ', 'a', 't', ' ', 'o', 'n', 'c', 'e', '.', '\n', ' ', ' ', ' ', ' ', ' ', ' ', ' ', ' ']

/-- process/results.py lines 1255-1255 -/
def doc_results_by_section : Str := ['R', 'e', 's', 'u', 'l', 't', 's', ' ', 'o', 'r', 'd', 'e', 'r', 'e', 'd', ' ', 'b', 'y', ' ', 's', 'e', 'c', 't', 'i', 'o', 'n', '.']

/-- process/results.py lines 1259-1259 -/
def doc_print_results : Str := ['P', 'r', 'i', 'n', 't', ' ', 'r', 'e', 's', 'u', 'l', 't', 's', ' ', 't', 'o', ' ', 't', 'h', 'e', ' ', 's', 'c', 'r', 'e', 'e', 'n', '.']

/-- The attributes of the class with their docstrings.
process/results.py lines 70-1224, the docstrings. -/
def resultsDocs : List (Str × Option Str) := [
  (['_', '_', 'i', 'n', 'i', 't', '_', '_'], some doc_init),
  (['s', '2', 'q'], some doc_s2q),
  (['i', 'n', 'd', 'e', 'x', '_', 's', 't', 'a', 'r', 't'], some doc_index_start),
  (['i', 'n', 'd', 'e', 'x', '_', 'u', '_', 'y', 's', 'a', 't'], some doc_index_u_ysat),
  (['i', 'n', 'd', 'e', 'x', '_', 's', 'e', 'n', 's', 'i', 't', 'i', 'v', 'i', 't', 'y', '_', 'm', 'a', 'x'], some doc_index_sensitivity_max),
  (['i', 'n', 'd', 'e', 'x', '_', 's', 'e', 'n', 's', 'i', 't', 'i', 'v', 'i', 't', 'y', '_', 'm', 'i', 'n'], some doc_index_sensitivity_min),
  (['R'], some doc_R),
  (['K'], some doc_K),
  (['i', 'n', 'v', 'e', 'r', 's', 'e', '_', 'K'], some doc_inverse_K),
  (['Q', 'E'], some doc_QE),
  (['s', 'i', 'g', 'm', 'a', '_', 'y', '_', 'd', 'a', 'r', 'k'], some doc_sigma_y_dark),
  (['s', 'i', 'g', 'm', 'a', '_', 'd'], some doc_sigma_d),
  (['u', '_', 'p', '_', 'm', 'i', 'n'], some doc_u_p_min),
  (['u', '_', 'p', '_', 'm', 'i', 'n', '_', 'a', 'r', 'e', 'a'], some doc_u_p_min_area),
  (['u', '_', 'e', '_', 'm', 'i', 'n'], some doc_u_e_min),
  (['u', '_', 'e', '_', 'm', 'i', 'n', '_', 'a', 'r', 'e', 'a'], some doc_u_e_min_area),
  (['u', '_', 'p', '_', 's', 'a', 't'], some doc_u_p_sat),
  (['u', '_', 'p', '_', 's', 'a', 't', '_', 'a', 'r', 'e', 'a'], some doc_u_p_sat_area),
  (['u', '_', 'e', '_', 's', 'a', 't'], some doc_u_e_sat),
  (['u', '_', 'e', '_', 's', 'a', 't', '_', 'a', 'r', 'e', 'a'], some doc_u_e_sat_area),
  (['S', 'N', 'R', '_', 'm', 'a', 'x'], some doc_SNR_max),
  (['S', 'N', 'R', '_', 'm', 'a', 'x', '_', 'd', 'B'], some doc_SNR_max_dB),
  (['S', 'N', 'R', '_', 'm', 'a', 'x', '_', 'b', 'i', 't'], some doc_SNR_max_bit),
  (['i', 'n', 'v', 'e', 'r', 's', 'e', '_', 'S', 'N', 'R', '_', 'm', 'a', 'x'], some doc_inverse_SNR_max),
  (['D', 'R'], some doc_DR),
  (['D', 'R', '_', 'd', 'B'], some doc_DR_dB),
  (['i', 'n', 'd', 'e', 'x', '_', 'l', 'i', 'n', 'e', 'a', 'r', 'i', 't', 'y', '_', 'm', 'i', 'n'], some doc_index_linearity_min),
  (['i', 'n', 'd', 'e', 'x', '_', 'l', 'i', 'n', 'e', 'a', 'r', 'i', 't', 'y', '_', 'm', 'a', 'x'], some doc_index_linearity_max),
  (['l', 'i', 'n', 'e', 'a', 'r', 'i', 't', 'y'], some doc_linearity),
  (['L', 'E', '_', 'm', 'i', 'n'], some doc_LE_min),
  (['L', 'E', '_', 'm', 'a', 'x'], some doc_LE_max),
  (['u', '_', 'I', '_', 'v', 'a', 'r', '_', 'D', 'N'], some doc_u_I_var_DN),
  (['u', '_', 'I', '_', 'v', 'a', 'r'], some doc_u_I_var),
  (['u', '_', 'I', '_', 'm', 'e', 'a', 'n', '_', 'D', 'N'], some doc_u_I_mean_DN),
  (['u', '_', 'I', '_', 'm', 'e', 'a', 'n'], some doc_u_I_mean),
  (['s', 'i', 'g', 'm', 'a', '_', '2', '_', 'y', '_', 's', 't', 'a', 'c', 'k'], some doc_sigma_2_y_stack),
  (['s', 'i', 'g', 'm', 'a', '_', '2', '_', 'y', '_', 's', 't', 'a', 'c', 'k', '_', 'd', 'a', 'r', 'k'], some doc_sigma_2_y_stack_dark),
  (['s', '_', '2', '_', 'y', '_', 'm', 'e', 'a', 's', 'u', 'r', 'e', 'd'], some doc_s_2_y_measured),
  (['s', '_', '2', '_', 'y', '_', 'm', 'e', 'a', 's', 'u', 'r', 'e', 'd', '_', 'd', 'a', 'r', 'k'], some doc_s_2_y_measured_dark),
  (['s', '_', '2', '_', 'y'], some doc_s_2_y),
  (['s', '_', '2', '_', 'y', '_', 'd', 'a', 'r', 'k'], some doc_s_2_y_dark),
  (['s', '_', '2', '_', 'y', '_', 'c', 'a', 'v'], some doc_s_2_y_cav),
  (['s', '_', '2', '_', 'y', '_', 'c', 'a', 'v', '_', 'd', 'a', 'r', 'k'], some doc_s_2_y_cav_dark),
  (['s', '_', '2', '_', 'y', '_', 'r', 'a', 'v'], some doc_s_2_y_rav),
  (['s', '_', '2', '_', 'y', '_', 'r', 'a', 'v', '_', 'd', 'a', 'r', 'k'], some doc_s_2_y_rav_dark),
  (['s', '_', '2', '_', 'y', '_', 'c', 'o', 'l'], some doc_s_2_y_col),
  (['s', '_', '2', '_', 'y', '_', 'c', 'o', 'l', '_', 'd', 'a', 'r', 'k'], some doc_s_2_y_col_dark),
  (['s', '_', '2', '_', 'y', '_', 'r', 'o', 'w'], some doc_s_2_y_row),
  (['s', '_', '2', '_', 'y', '_', 'r', 'o', 'w', '_', 'd', 'a', 'r', 'k'], some doc_s_2_y_row_dark),
  (['s', '_', '2', '_', 'y', '_', 'p', 'i', 'x', 'e', 'l'], some doc_s_2_y_pixel),
  (['s', '_', '2', '_', 'y', '_', 'p', 'i', 'x', 'e', 'l', '_', 'd', 'a', 'r', 'k'], some doc_s_2_y_pixel_dark),
  (['D', 'S', 'N', 'U', '1', '2', '8', '8'], some doc_DSNU1288),
  (['D', 'S', 'N', 'U', '1', '2', '8', '8', '_', 'D', 'N'], some doc_DSNU1288_DN),
  (['D', 'S', 'N', 'U', '1', '2', '8', '8', '_', 'r', 'o', 'w'], some doc_DSNU1288_row),
  (['D', 'S', 'N', 'U', '1', '2', '8', '8', '_', 'c', 'o', 'l'], some doc_DSNU1288_col),
  (['D', 'S', 'N', 'U', '1', '2', '8', '8', '_', 'p', 'i', 'x', 'e', 'l'], some doc_DSNU1288_pixel),
  (['P', 'R', 'N', 'U', '1', '2', '8', '8'], some doc_PRNU1288),
  (['P', 'R', 'N', 'U', '1', '2', '8', '8', '_', 'r', 'o', 'w'], some doc_PRNU1288_row),
  (['P', 'R', 'N', 'U', '1', '2', '8', '8', '_', 'c', 'o', 'l'], some doc_PRNU1288_col),
  (['P', 'R', 'N', 'U', '1', '2', '8', '8', '_', 'p', 'i', 'x', 'e', 'l'], some doc_PRNU1288_pixel),
  (['h', 'i', 's', 't', 'o', 'g', 'r', 'a', 'm', '_', 'P', 'R', 'N', 'U'], some doc_histogram_PRNU),
  (['h', 'i', 's', 't', 'o', 'g', 'r', 'a', 'm', '_', 'P', 'R', 'N', 'U', '_', 'a', 'c', 'c', 'u', 'm', 'u', 'l', 'a', 't', 'e', 'd'], some doc_histogram_PRNU_accumulated),
  (['h', 'i', 's', 't', 'o', 'g', 'r', 'a', 'm', '_', 'D', 'S', 'N', 'U'], some doc_histogram_DSNU),
  (['h', 'i', 's', 't', 'o', 'g', 'r', 'a', 'm', '_', 'D', 'S', 'N', 'U', '_', 'a', 'c', 'c', 'u', 'm', 'u', 'l', 'a', 't', 'e', 'd'], some doc_histogram_DSNU_accumulated),
  (['x', 'm', 'l'], some doc_xml),
  (['r', 'e', 's', 'u', 'l', 't', 's'], some doc_results),
  (['r', 'e', 's', 'u', 'l', 't', 's', '_', 'b', 'y', '_', 's', 'e', 'c', 't', 'i', 'o', 'n'], some doc_results_by_section),
  (['p', 'r', 'i', 'n', 't', '_', 'r', 'e', 's', 'u', 'l', 't', 's'], some doc_print_results)]

end Report
end Emva
