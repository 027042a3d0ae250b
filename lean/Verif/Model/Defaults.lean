import Verif.Model.Cli
import Verif.Model.Interp

/-!
# The files that `sequence setup` and `sequence generate` write

The texts themselves (`toml.dumps`, `yaml.dump`, `np.savetxt`) are external; modelled are the
dictionaries that they are made from and the dictionaries that reading the texts gives.
-/

set_option autoImplicit false

namespace Verif

/-- `SequenceModel.ALL_PROCESSES` (`/repo/sequence/sequence_model.py:38-45`). -/
def allProcessNames : List String :=
  ["sea_level", "subsidence", "compaction", "submarine_diffusion", "fluvial", "flexure"]

/-- `SequenceModel.DEFAULT_PARAMS` (`/repo/sequence/sequence_model.py:46-90`). `True` is 1. -/
def defaultParams : Doc :=
  .sub "grid" (.leaf "shape" (.tup [.num 1, .num 100]) <|
    .leaf "spacing" (.tup [.num 1, .num 1000]) .nil) <|
  .sub "clock" (.leaf "start" (.num 0) <| .leaf "stop" (.num 600000) <|
    .leaf "step" (.num 100) .nil) <|
  .sub "output" (.leaf "interval" (.num 10) <| .leaf "filepath" (.str "sequence.nc") <|
    .leaf "clobber" (.num 1) <|
    .leaf "fields" (.list [.str "sediment_deposit__thickness", .str "bedrock_surface__elevation"])
      .nil) <|
  .sub "submarine_diffusion" (.leaf "plain_slope" (.num (8 / 10000)) <|
    .leaf "wave_base" (.num 60) <| .leaf "shoreface_height" (.num 15) <|
    .leaf "alpha" (.num (5 / 10000)) <| .leaf "shelf_slope" (.num (1 / 1000)) <|
    .leaf "sediment_load" (.num 3) <| .leaf "load_sealevel" (.num 0) <|
    .leaf "basin_width" (.num 500000) .nil) <|
  .sub "sea_level" (.leaf "amplitude" (.num 10) <| .leaf "wave_length" (.num 200000) <|
    .leaf "phase" (.num 0) <| .leaf "linear" (.num 0) .nil) <|
  .sub "subsidence" (.leaf "filepath" (.str "subsidence.csv") .nil) <|
  .sub "flexure" (.leaf "method" (.str "flexure") <| .leaf "rho_mantle" (.num 3300) <|
    .leaf "isostasytime" (.num 0) .nil) <|
  .sub "sediments" (.leaf "layers" (.num 2) <| .leaf "sand" (.num 1) <|
    .leaf "mud" (.num (6 / 1000)) <| .leaf "sand_density" (.num 2650) <|
    .leaf "mud_density" (.num 2720) <| .leaf "sand_frac" (.num (1 / 2)) <|
    .leaf "hemipelagic" (.num 0) .nil) <|
  .sub "bathymetry" (.leaf "filepath" (.str "bathymetry.csv") <|
    .leaf "kind" (.str "linear") .nil) <|
  .sub "compaction" (.leaf "c" (.num (5 / 100000000)) <| .leaf "porosity_max" (.num (1 / 2)) <|
    .leaf "porosity_min" (.num (1 / 100)) <| .leaf "rho_grain" (.num 2650) <|
    .leaf "rho_void" (.num 1000) .nil) .nil

/-- The dictionary under `sequence` in the file `sequence.toml`
(`/repo/sequence/cli.py:99-107`). -/
def freshToml (params : Doc) : Doc :=
  (Doc.leaf "_time" (.num 0) (.leaf "processes" (.tup (allProcessNames.map .str)) .nil)).updateWith
    params

mutual
/-- A value after it has been written as toml and read again: arrays are lists. -/
def Leaf.tomlBack : Leaf → Leaf
  | .list xs => .list (Leaf.tomlBackAll xs)
  | .tup xs => .list (Leaf.tomlBackAll xs)
  | v => v

@[inherit_doc Leaf.tomlBack]
def Leaf.tomlBackAll : List Leaf → List Leaf
  | [] => []
  | v :: vs => v.tomlBack :: Leaf.tomlBackAll vs
end

/-- A dictionary after it has been written as toml and read again (tomlkit, external;
`/repo/sequence/input_reader.py:283-313` for the conversion to python objects). Python's `None`,
which toml does not have, is left as it is here. -/
def Doc.tomlBack : Doc → Doc
  | .nil => .nil
  | .leaf k v r => .leaf k v.tomlBack r.tomlBack
  | .sub k d r => .sub k d.tomlBack r.tomlBack

mutual
/-- There is a tuple in a value. -/
def Leaf.hasTuple : Leaf → Bool
  | .tup _ => true
  | .list xs => Leaf.anyTuple xs
  | _ => false

@[inherit_doc Leaf.hasTuple]
def Leaf.anyTuple : List Leaf → Bool
  | [] => false
  | v :: vs => v.hasTuple || Leaf.anyTuple vs
end

/-- There is a tuple in a dictionary. -/
def Doc.hasTuple : Doc → Bool
  | .nil => false
  | .leaf _ v r => v.hasTuple || r.hasTuple
  | .sub _ d r => d.hasTuple || r.hasTuple

/-- A dictionary after it has been written by `yaml.dump` and read by `yaml.safe_load` (external):
tuples are written with a tag that `safe_load` does not accept (`ConstructorError`). The keys of a
dictionary come back in alphabetical order, which is not modelled. -/
def Doc.yamlBack (d : Doc) : Except Err Doc :=
  if d.hasTuple then .error .valueError else .ok d

/-- The table in `bathymetry.csv` (`/repo/sequence/cli.py:108-110`). -/
def bathymetryTable {K : Type*} [Field K] : List (K × K) := [(0, 20), (100000, -80)]

/-- The table in `subsidence.csv` (`/repo/sequence/cli.py:114-123`). -/
def subsidenceTable {K : Type*} [Field K] : List (K × K) :=
  [(0, 0), (30000, 0), (35000, 0), (50000, 0), (100000, 0)]

end Verif
