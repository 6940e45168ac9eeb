/-!
Python exceptions as values.  Every function of the modelled code that can raise returns
`Except PyErr α`; only the exception class is kept, not the message.
-/
set_option autoImplicit false
namespace Emva

/-- The exception classes the modelled code can raise (explicit `raise` statements and the implicit
ones of python / numpy: indexing, `dict` access, unpacking, division).
E.g. process/parser.py line 78, process/loader.py lines 86, 137, process/data.py line 116. -/
inductive PyErr
  | syntaxError
  | valueError
  | ioError
  | indexError
  | keyError
  | typeError
  | zeroDivisionError
  | attributeError
  | unboundLocalError
  | fileNotFoundError
  | fileExistsError
  | overflowError
  | nameError
  | undefinedError
  deriving DecidableEq, Repr

/-- `true` when the computation returned normally. E.g. process/loader.py lines 86, 137. -/
def succeeds {ε α} : Except ε α → Bool
  | .ok _ => true
  | .error _ => false

@[simp] theorem succeeds_ok {ε α} (a : α) : succeeds (.ok a : Except ε α) = true := rfl
@[simp] theorem succeeds_error {ε α} (e : ε) : succeeds (.error e : Except ε α) = false := rfl

theorem succeeds_iff {ε α} (x : Except ε α) : succeeds x = true ↔ ∃ a, x = .ok a := by
  cases x <;> simp [succeeds]

/-- the exception class of a computation, if it raised. E.g. process/loader.py lines 86, 137. -/
def raised {ε α} : Except ε α → Option ε
  | .error e => some e
  | .ok _ => none

end Emva
