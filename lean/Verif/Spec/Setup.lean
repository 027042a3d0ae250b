import Verif.Spec.RunCommand
import Verif.Spec.Params
import Mathlib.Data.Rat.Floor

/-! # The model that a configuration describes -/

set_option autoImplicit false

namespace Verif.Spec

variable {K : Type} [Field K] [LinearOrder K]

/-- An entry of a section; subsections without any value do not count. -/
def entry (d : Doc) (sec key : String) : Option PyValue :=
  match d.find? sec with
  | some (.inr s) => (prune s).find? key
  | _ => none

/-- `x` is the number given, or the default if none is given. -/
def IsNumber (v : Option PyValue) (default x : K) : Prop :=
  (v = none ∧ x = default) ∨ ∃ q : ℚ, v = some (.inl (.num q)) ∧ x = q

/-- The same for a number that may be `None`. -/
def IsOptNumber (v : Option PyValue) (default x : Option K) : Prop :=
  (v = none ∧ x = default) ∨ (v = some (.inl .none) ∧ x = none) ∨
    ∃ q : ℚ, v = some (.inl (.num q)) ∧ x = some (q : K)

/-- `s` is the text given, or the default if none is given. -/
def IsText (v : Option PyValue) (default s : String) : Prop :=
  (v = none ∧ s = default) ∨ v = some (.inl (.str s))

/-- A value that python takes for true. -/
def Truthy : PyValue → Prop
  | .inl v => ¬ Falsy v
  | .inr d => d.keys ≠ []

/-- A number, or a list of numbers. -/
def IsNumbers (v : Option PyValue) (qs : List ℚ) : Prop :=
  (∃ q, v = some (.inl (.num q)) ∧ qs = [q]) ∨ v = some (.inl (.list (qs.map Leaf.num))) ∨
    v = some (.inl (.tup (qs.map Leaf.num)))

/-- The number of active rows and of columns and the width of a column, from a list of sizes and a list of spacings: one of each
for a single row, else rows before columns. -/
def IsGrid (sizes gaps : List ℚ) (rows cols : ℕ) (dx : K) : Prop :=
  (∃ c x, sizes = [c] ∧ gaps = [x] ∧ rows = 1 ∧ cols = ⌊c⌋₊ ∧ dx = (x : K)) ∨
  ∃ r c y x, sizes = [r, c] ∧ gaps = [y, x] ∧ rows = ⌊r⌋₊ ∧ cols = ⌊c⌋₊ ∧ dx = (x : K)

/-- The sections that share parameters, either way round. -/
def sharing : List (String × String × List String) :=
  sharedParameters ++ sharedParameters.map fun m => (m.2.1, m.1, m.2.2)

/-- Two sections give no key of a list different values. -/
def Agree (d : Doc) (sec other : String) (keys : List String) : Prop :=
  ∀ k ∈ keys, ∀ v w, entry d sec k = some v → entry d other k = some w → v = w

/-- The value of a parameter of a process can be borrowed: from a process that is turned on,
that shares the parameter, and whose shared parameters agree. -/
def Borrows (d : Doc) (sec key other : String) : Prop :=
  ∃ keys, (sec, other, keys) ∈ sharing ∧ key ∈ keys ∧ Enabled d other ∧ Agree d sec other keys

/-- The value for a parameter of a process: that of its own section, else a borrowed one. -/
def IsSetting (d : Doc) (sec key : String) (v : Option PyValue) : Prop :=
  (entry d sec key ≠ none ∧ v = entry d sec key) ∨
  (entry d sec key = none ∧ ∃ other, Borrows d sec key other ∧ v = entry d other key) ∨
  (entry d sec key = none ∧ (¬ ∃ other, Borrows d sec key other) ∧ v = none)

/-- The numerical parameters of the components with the defaults of their constructors. -/
def numericDefaults : List (String × String × ℚ) :=
  [("sea_level", "start", 0),
    ("submarine_diffusion", "sea_level", 0), ("submarine_diffusion", "plain_slope", 0.0008),
    ("submarine_diffusion", "wave_base", 60), ("submarine_diffusion", "shoreface_height", 15),
    ("submarine_diffusion", "alpha", 0.0005), ("submarine_diffusion", "shelf_slope", 0.001),
    ("submarine_diffusion", "sediment_load", 3), ("submarine_diffusion", "load_sealevel", 0),
    ("submarine_diffusion", "basin_width", 500000),
    ("fluvial", "sand_frac", 0.5), ("fluvial", "wave_base", 60), ("fluvial", "sediment_load", 3),
    ("fluvial", "sand_density", 2650), ("fluvial", "plain_slope", 0.0008),
    ("fluvial", "hemipelagic", 0),
    ("shoreline", "alpha", 0.0005)]

/-- The numerical parameters of a component, by name. -/
def numericParameters : Process K → List (String × K)
  | .seaLevel _ start => [("start", start)]
  | .subsidence _ => []
  | .compaction => []
  | .diffusion P =>
    [("sea_level", P.seaLevel), ("plain_slope", P.plainSlope), ("wave_base", P.waveBase),
      ("shoreface_height", P.shorefaceHeight), ("alpha", P.alpha), ("shelf_slope", P.shelfSlope),
      ("sediment_load", P.sedimentLoad), ("load_sealevel", P.loadSeaLevel),
      ("basin_width", P.basinWidth)]
  | .fluvial P =>
    [("sand_frac", P.sandFrac), ("wave_base", P.waveBase), ("sediment_load", P.load),
      ("sand_density", P.sandDensity), ("plain_slope", P.plainSlope), ("hemipelagic", P.hemi)]
  | .flexure _ => []
  | .waterFlexure _ => []
  | .shoreline alpha => [("alpha", alpha)]

/-- The time scale of isostasy of a flexure component. -/
def isostasyTimeOf : Process K → Option (Option K)
  | .flexure t => some t
  | .waterFlexure t => some t
  | _ => none

/-- A curve is read from the file that a section names, with the kind of interpolation it names. -/
def ReadFrom (ext : Externals K) (d : Doc) (sec : String) (curve : Curve K) : Prop :=
  ∃ path kind, entry d sec "filepath" = some (.inl (.str path)) ∧
    IsText (entry d sec "kind") "linear" kind ∧ ext.readCurve path kind = .ok curve

/-- `sequence run` gets as far as the loop, starting from a configuration whose first section is
`d`. -/
structure SetsUp (ext : Externals K) (times : List ℕ) (files : List (List Doc))
    (fs : FileSystem K (Option K)) (d : Doc) (fs' : FileSystem K (Option K)) (m : Ready K) :
    Prop where
  first : files.flatten.head? = some d
  distinct : DistinctKeys d
  noTuples : NoTuples d
  ok : runSetup ext times files fs = (fs', .ok m)

/-- The keys of a configuration that `sequence run` looks at, besides the enabled processes. -/
def usedSections : List String :=
  ["_time", "grid", "bathymetry", "clock", "output", "processes"]

end Verif.Spec
