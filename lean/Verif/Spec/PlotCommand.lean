import Verif.Spec.Cli
import Verif.Spec.Config
import Verif.Model.PlotCommand

/-! # What `sequence plot` should do with its options -/

set_option autoImplicit false

namespace Verif.Spec

/-- An option of the form `key=value`. -/
def SetOption.Keyword (o : SetOption) (k : String) : Prop :=
  o.path = [k] ∧ '.' ∉ k.toList ∧ '=' ∉ k.toList ∧ '=' ∉ o.text

/-- A dictionary without dictionaries inside. -/
def OnlyValues : Doc → Prop
  | .nil => True
  | .leaf _ _ r => OnlyValues r
  | .sub _ _ _ => False

/-- The keywords of `plot_layers` with their defaults, as its documentation lists them. -/
def plotDefaults : List (String × Leaf) :=
  [("color_water", .tup [.num (4/5), .num 1, .num 1]),
    ("color_land", .tup [.num (4/5), .num 1, .num (4/5)]),
    ("color_shoreface", .tup [.num (4/5), .num (4/5), .num 0]),
    ("color_shelf", .tup [.num (3/4), .num (1/2), .num (1/2)]),
    ("layer_line_width", .num (1/2)), ("layer_line_color", .str "k"), ("layer_start", .num 0),
    ("layer_stop", .num (-1)), ("n_layers", .num 5), ("title", .str ""),
    ("x_label", .str "Distance (m)"), ("y_label", .str "Elevation (m)"),
    ("legend_location", .str "lower left")]

/-- The default of a keyword. -/
def plotDefault (k : String) : Option Leaf := (plotDefaults.find? fun p => p.1 = k).map (·.2)

/-- The value of a keyword: from the last option for it, else from the section `plot` of the first
document of the configuration file, else the default. -/
def plotSetting (options : List (String × Leaf)) (doc : Option Doc) (k : String) : Option Leaf :=
  match (options.reverse.find? fun o => o.1 = k), doc.bind fun d => valueAt d ["plot", k] with
  | some o, _ => some o.2
  | none, some v => some v
  | none, none => plotDefault k

/-- The name of something that can be set: a keyword of `plot_layers` or the row. -/
def PlotName (k : String) : Prop := k = "row" ∨ k ∈ plotDefaults.map (·.1)

instance (k : String) : Decidable (PlotName k) := by unfold PlotName; infer_instance

end Verif.Spec
