import Verif.Model.Messages

/-!
# The texts of the errors

`/repo/sequence/errors.py`.
-/

set_option autoImplicit false

namespace Verif

/-- One character of python's `repr` of a text between quotes `q` (external). Characters that cannot
be printed, other than the three here, are left as they are; python writes their codes. -/
def escChar (q c : Char) : Text :=
  if c = q ∨ c = '\\' then ['\\', c]
  else if c = '\n' then ['\\', 'n']
  else if c = '\r' then ['\\', 'r']
  else if c = '\t' then ['\\', 't']
  else [c]

/-- The quotes that `repr` uses: double ones if there are single ones and no double ones in the
text. -/
def quoteOf (s : Text) : Char := if '\'' ∈ s ∧ '"' ∉ s then '"' else '\''

/-- Python's `repr` of a text (external). -/
def pyRepr (s : Text) : Text := quoteOf s :: (s.flatMap (escChar (quoteOf s)) ++ [quoteOf s])

/-- `", ".join`. -/
def joinComma : List Text → Text
  | [] => []
  | [s] => s
  | s :: t :: rest => s ++ ',' :: ' ' :: joinComma (t :: rest)

/-- `ParameterMismatchError.__str__` (`/repo/sequence/errors.py:70-73`). -/
def mismatchMessage (keys : List Text) : Text :=
  "mismatch in parameter".toList ++ (if 1 < keys.length then ['s'] else []) ++ ": ".toList ++
    joinComma (keys.map pyRepr)

/-- `MissingRequiredVariable.__str__` (`/repo/sequence/errors.py:59-61`). -/
def missingMessage (name : Text) : Text :=
  "requireed variable (".toList ++ pyRepr name ++ ") is missing from output file".toList

/-- What `plot_file` says of a variable that is missing (`/repo/sequence/plot.py:267-268`): `str` of
the `KeyError` of xarray, which is the `repr` of its argument `arg`. The argument is the name of the
variable or, in some versions of xarray, a sentence with the name in it (external). -/
def plotFileMessage (arg : Text) : Text := missingMessage (pyRepr arg)

end Verif
