import Verif.Spec.Nulls
import Verif.Spec.Setup

/-! # Configurations that `sequence run` accepts -/

set_option autoImplicit false

namespace Verif.Spec

variable {K : Type} [Field K] [LinearOrder K]

/-- The processes in the order in which they are created: those listed, else the usual six, and
then the two that are required if they are not among them. -/
def creationOrder (d : Doc) : List String :=
  let listed := match (prune d).find? "processes" with
    | some (.inl (.list xs)) => xs.filterMap fun | .str s => some s | _ => none
    | _ => ["sea_level", "subsidence", "compaction", "submarine_diffusion", "fluvial", "flexure"]
  listed ++ ["fluvial", "shoreline"].filter fun n => n ∉ listed

/-- A parameter that a component takes. A sea level that is read from a file does not take the
parameters of a sine, nor the other way round. -/
def TakesParameter (passedOn : String → List String) (d : Doc) (name key : String) : Prop :=
  HasParameter passedOn name key ∧
  (name = "sea_level" → entry d name "filepath" = none → key ≠ "kind") ∧
  (name = "sea_level" → entry d name "filepath" ≠ none → key ∈ ["filepath", "kind", "start"])

/-- The parameters of processes that have to be numbers. -/
def numberKeys : List (String × String) :=
  (numericDefaults.map fun q => (q.1, q.2.1)) ++
  [("sea_level", "wave_length"), ("sea_level", "amplitude"), ("sea_level", "phase"),
    ("sea_level", "mean"), ("sea_level", "linear"), ("flexure", "water_density"),
    ("flexure", "sand_density"), ("flexure", "mud_density"), ("compaction", "porosity_max")]

/-- The sizes and the spacings that a configuration gives. -/
def GivesGrid (d : Doc) (sizes gaps : List ℚ) : Prop :=
  (IsNumbers (entry d "grid" "shape") sizes ∨
    (entry d "grid" "shape" = none ∧ IsNumbers (entry d "grid" "n_cols") sizes)) ∧
  (IsNumbers (entry d "grid" "spacing") gaps ∨
    (entry d "grid" "spacing" = none ∧ IsNumbers (entry d "grid" "xy_spacing") gaps.reverse))

/-- The values of a configuration are of the right kind: numbers where numbers are needed, names of
processes in a list, and so on; and the grid has an active row and at least two columns. -/
structure RightKind (d : Doc) : Prop where
  grid : ∀ key ∈ ["shape", "n_cols", "spacing", "xy_spacing"],
    ∀ v, entry d "grid" key = some v → ∃ qs, IsNumbers (some v) qs
  size : ∀ sizes gaps rows cols (dx : ℚ), GivesGrid d sizes gaps → IsGrid sizes gaps rows cols dx →
    1 ≤ rows ∧ 2 ≤ cols
  processes : ∀ v, (prune d).find? "processes" = some v →
    ∃ names : List String, v = .inl (.list (names.map Leaf.str))
  numbers : ∀ p ∈ numberKeys, Enabled d p.1 → ∀ v, IsSetting d p.1 p.2 (some v) →
    ∃ q : ℚ, v = .inl (.num q)
  isostasy : ∀ name ∈ ["flexure", "water_flexure"], Enabled d name →
    ∀ v, IsSetting d name "isostasytime" (some v) → v = .inl .none ∨ ∃ q : ℚ, v = .inl (.num q)
  clock : ∀ key ∈ ["start", "step"], ∀ v, entry d "clock" key = some v → ∃ q : ℚ, v = .inl (.num q)
  stop : ∀ v, entry d "clock" "stop" = some v → v = .inl .none ∨ ∃ q : ℚ, v = .inl (.num q)
  fields : ∀ v, entry d "output" "fields" = some v → v = .inl .none ∨
    ∃ names : List String, v = .inl (.list (names.map Leaf.str))
  rows : ∀ v, entry d "output" "rows" = some v → v = .inl .none ∨ ∃ qs, IsNumbers (some v) qs

/-- A component can be created on a grid of `cols` columns that are `dx` apart. -/
structure ComponentFine (ext : Externals K) (d : Doc) (cols : ℕ) (dx : K) (name : String) :
    Prop where
  known : name ∈ knownProcesses
  keys : ∀ key v, IsSetting d name key (some v) → TakesParameter ext.passedOn d name key
  seaLevel : name = "sea_level" → entry d name "filepath" ≠ none →
    ∃ curve, ReadFrom ext d name curve
  subsidence : name = "subsidence" → ∃ curve, ReadFrom ext d name curve ∧
    ∀ c < cols, ∃ v, curve (c * dx) = .ok v
  slope : name = "submarine_diffusion" → ¬ IsSetting d name "plain_slope" (some (.inl (.num 0)))
  alpha : name = "shoreline" → ¬ IsSetting d name "alpha" (some (.inl (.num 0)))
  density : name = "flexure" → ∀ key ∈ ["water_density", "sand_density", "mud_density"], ∀ q : ℚ,
    IsSetting d name key (some (.inl (.num q))) → 0 < q
  isostasy : name ∈ ["flexure", "water_flexure"] → ∀ q : ℚ,
    IsSetting d name "isostasytime" (some (.inl (.num q))) → -(1 / 10 ^ 8) ≤ q

/-- The output file can be written: the section has known keys only, the interval is a whole number
that is not negative, and the path is free or may be replaced. -/
structure OutputFine (d : Doc) (fs : FileSystem K (Option K)) : Prop where
  keys : ∀ key v, entry d "output" key = some v →
    key ∈ ["filepath", "interval", "fields", "clobber", "rows"]
  interval : ∀ v, entry d "output" "interval" = some v → ∃ n : ℕ, v = .inl (.num n)
  path : ∃ path, entry d "output" "filepath" = some (.inl (.str path)) ∧ fs path ≠ .dir ∧
    ((fs path).isFile = true → ∃ v, entry d "output" "clobber" = some v ∧ Truthy v)

/-- A value with a null somewhere. -/
def Null : PyValue → Prop
  | .inl v => NullIn v
  | .inr d => NullInDoc d

/-- What a configuration needs to be accepted, besides values of the right kind. `zs` are the
elevations of the initial surface; where the shore is found is left to `find_shoreline`. -/
structure Fine (ext : Externals K) (kind : InterpKind K) (xtol rtol : K) (d : Doc)
    (fs : FileSystem K (Option K)) (cols : ℕ) (dx : K) (zs : List K) : Prop where
  sections : ∀ sec ∈ ["grid", "bathymetry", "clock", "output"], ∃ s, (prune d).find? sec = some (.inr s)
  grid : ∃ sizes gaps rows, GivesGrid d sizes gaps ∧ IsGrid sizes gaps rows cols dx
  bathymetryKeys : ∀ key v, entry d "bathymetry" key = some v → key ∈ ["filepath", "kind"]
  surface : ∃ curve, ReadFrom ext d "bathymetry" curve ∧ zs.length = cols ∧
    ∀ (c : ℕ) (h : c < zs.length), curve (c * dx) = .ok zs[c]
  clockKeys : ∀ key v, entry d "clock" key = some v → key ∈ ["start", "stop", "step"]
  components : ∀ name, Enabled d name → ComponentFine ext d cols dx name
  nulls : ∀ name, Enabled d name → ∀ key v, entry d name key = some v → ¬ Null v
  output : OutputFine d fs
  shore : ∀ before after, creationOrder d = before ++ "shoreline" :: after → ∀ level : K,
    ("submarine_diffusion" ∉ before → level = 0) →
    ("submarine_diffusion" ∈ before → ∀ v, IsSetting d "submarine_diffusion" "sea_level" v →
      IsNumber v 0 level) →
    ∃ shore, shorelineRow kind xtol rtol (List.ofFn fun c : Fin cols => (c.val : K) * dx) zs level =
      .ok shore

end Verif.Spec
