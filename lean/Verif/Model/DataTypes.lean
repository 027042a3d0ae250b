import Mathlib.Data.Rat.Defs
import Verif.Model.Err

/-!
# The data types of the variables in a file

`/repo/sequence/netcdf.py:20-41, 123-145`. In `Model/Output` all values are numbers; here is which type they are
stored as.
-/

set_option autoImplicit false

namespace Verif

/-- The kinds of numbers of numpy (external). `f128` and `c256` are the long ones, by the name that
they have on most machines. -/
inductive NumType where
  | i8 | i16 | i32 | i64 | u8 | u16 | u32 | u64 | bool | f16 | f32 | f64 | f128 | c64 | c128 | c256
  deriving DecidableEq, Repr

/-- The type of a numpy array: numbers, in the byte order of the machine or the other one; texts of
`n` characters; `n` bytes; python objects. Dates and records are left out. -/
inductive DType where
  | num (t : NumType) (swapped : Bool)
  | text (n : ℕ)
  | bytes (n : ℕ)
  | object
  deriving DecidableEq, Repr

/-- `str` of a type of numbers in the byte order of the machine (numpy, external). -/
def NumType.name : NumType → String
  | .i8 => "int8" | .i16 => "int16" | .i32 => "int32" | .i64 => "int64"
  | .u8 => "uint8" | .u16 => "uint16" | .u32 => "uint32" | .u64 => "uint64"
  | .bool => "bool"
  | .f16 => "float16" | .f32 => "float32" | .f64 => "float64" | .f128 => "float128"
  | .c64 => "complex64" | .c128 => "complex128" | .c256 => "complex256"

/-- `str` of a type of numbers in the other byte order, on a machine that is little-endian (numpy,
external). Types of one byte have no order. -/
def NumType.swappedName : NumType → String
  | .i8 => "int8" | .i16 => ">i2" | .i32 => ">i4" | .i64 => ">i8"
  | .u8 => "uint8" | .u16 => ">u2" | .u32 => ">u4" | .u64 => ">u8"
  | .bool => "bool"
  | .f16 => ">f2" | .f32 => ">f4" | .f64 => ">f8" | .f128 => ">f16"
  | .c64 => ">c8" | .c128 => ">c16" | .c256 => ">c32"

/-- `str(arr.dtype)` (numpy, external). -/
def DType.str : DType → String
  | .num t false => t.name
  | .num t true => t.swappedName
  | .text n => "<U" ++ toString n
  | .bytes n => "|S" ++ toString n
  | .object => "object"

/-- `_NUMPY_TO_NETCDF_TYPE` (`/repo/sequence/netcdf.py:19-31`). -/
def numpyToNetcdfType : List (String × String) :=
  [("float32", "f4"), ("float64", "f8"), ("int8", "i1"), ("int16", "i2"), ("int32", "i4"),
   ("int64", "i8"), ("uint8", "u1"), ("uint16", "u2"), ("uint32", "u4"), ("uint64", "u8"),
   ("bool", "i1")]

/-- `_netcdf_type` (`/repo/sequence/netcdf.py:39-41`). -/
def netcdfType (d : DType) : Except Err String :=
  match numpyToNetcdfType.lookup d.str with
  | some t => .ok t
  | none => .error (.keyError d.str)

/-- The types of variables that a format has (netCDF4, external). -/
def formatTypes (format : String) : List String :=
  if format = "NETCDF4" then ["i1", "i2", "i4", "i8", "u1", "u2", "u4", "u8", "f4", "f8"]
  else ["i1", "i2", "i4", "f4", "f8"]

/-- `_create_field` (`/repo/sequence/netcdf.py:123-142`) for one field, of type `d`, in a file with
variables of the types `vars`: a variable that exists stays as it is. A type that the format does not
have raises (netCDF4, external; the class of the exception is not modelled). -/
def createTyped (format : String) (vars : List (String × String)) (name : String) (d : DType) :
    Except Err (List (String × String)) :=
  if (vars.lookup name).isSome then .ok vars
  else
    match netcdfType d with
    | .error e => .error e
    | .ok t => if t ∈ formatTypes format then .ok (vars ++ [(name, t)]) else .error .typeError

/-- A series of writes (`to_netcdf` with `mode="a"`) of fields with their types. -/
def createAllTyped (format : String) (vars : List (String × String)) :
    List (String × DType) → Except Err (List (String × String))
  | [] => .ok vars
  | (name, d) :: ws =>
    match createTyped format vars name d with
    | .error e => .error e
    | .ok vars' => createAllTyped format vars' ws

end Verif
