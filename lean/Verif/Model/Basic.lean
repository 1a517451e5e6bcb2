/-!
# Shared model vocabulary

Python exceptions are modelled as values of `Err`.
-/

namespace Verif

/-- The Python exception classes raised by the modelled code. -/
inductive Err where
  | keyError | typeError | valueError | attributeError | zeroDivision | indexError
  | notImplemented | warning | exception
  deriving DecidableEq, Repr

end Verif
