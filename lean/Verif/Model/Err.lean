/-!
# Exceptions as values

Python exceptions raised by the modelled code, as an enumeration carried by `Except`.
-/

set_option autoImplicit false

namespace Verif

/-- The exception classes raised by the modelled functions. `keyError` carries the key,
`parameterMismatch` the list of keys (`/repo/sequence/errors.py:64-73`); `missingVariable` is
`MissingRequiredVariable` (53-61). Messages are not modelled. -/
inductive Err where
  | valueError
  | typeError
  | keyError (key : String)
  | indexError
  | attributeError
  | zeroDivision
  | assertion
  | stopIteration
  | runtimeError
  | shorelineError
  | shelfEdgeError
  | invalidRow
  | parameterMismatch (keys : List String)
  | missingVariable
  | abort
  | osError
  deriving DecidableEq, Repr

end Verif
