import Verif.Model.Output

/-! # The names of variables in the files of `to_netcdf` -/

set_option autoImplicit false

namespace Verif

/-- `_netcdf_var_name` (`/repo/sequence/netcdf.py:34-36`). In `Model/Output` a variable is known by
the pair of its location and name; see `var_names_distinct`. -/
def netcdfVarName (name at_ : String) : String := "at_" ++ at_ ++ ":" ++ name

/-- The names of the variables that are not fields or layers
(`/repo/sequence/netcdf.py:91-92, 330`). -/
def coordinateNames : List String :=
  "time" :: (knownLocations.map ("x_of_" ++ ·) ++ knownLocations.map ("y_of_" ++ ·))

end Verif
