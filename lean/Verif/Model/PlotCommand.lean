import Verif.Model.Cli
import Verif.Model.PlotFile

/-!
# The command `sequence plot` (`/repo/sequence/cli.py`)

Options of the command and what reaches `plot_layers`.
-/

set_option autoImplicit false

namespace Verif

/-- A colour given by three numbers. -/
def rgb (r g b : ℚ) : Leaf := .tup [.num r, .num g, .num b]

/-- `PLOT_KEYWORDS` (`/repo/sequence/cli.py:47-57`): the keywords of `plot_layers` with their
defaults (`/repo/sequence/plot.py:25-38`), without the data. -/
def plotKeywords : Doc :=
  .leaf "color_water" (rgb (4/5) 1 1) <|
  .leaf "color_land" (rgb (4/5) 1 (4/5)) <|
  .leaf "color_shoreface" (rgb (4/5) (4/5) 0) <|
  .leaf "color_shelf" (rgb (3/4) (1/2) (1/2)) <|
  .leaf "layer_line_width" (.num (1/2)) <|
  .leaf "layer_line_color" (.str "k") <|
  .leaf "layer_start" (.num 0) <|
  .leaf "layer_stop" (.num (-1)) <|
  .leaf "n_layers" (.num 5) <|
  .leaf "title" (.str "") <|
  .leaf "x_label" (.str "Distance (m)") <|
  .leaf "y_label" (.str "Elevation (m)") <|
  .leaf "legend_location" (.str "lower left") .nil

/-- The configuration from `sequence.toml`, `toml` being its documents, if the file is there
(`/repo/sequence/cli.py:402-409`). -/
def plotFromFile (toml : Option (List Doc)) : Except Err Doc :=
  match toml with
  | none => .ok plotKeywords
  | some docs =>
    match Cfg.fromFile docs with
    | .error e => .error e
    | .ok cfg =>
      match cfg.asDict with
      | .error e => .error e
      | .ok d => updateGroup plotKeywords (d.find? "plot")

/-- The keywords that `sequence plot` hands to `plot_file` (`/repo/sequence/cli.py:402-411`). -/
def plotConfig (parse : List Char → Except Err (Leaf ⊕ Doc)) (toml : Option (List Doc))
    (opts : List (List Char)) : Except Err Doc :=
  match plotFromFile toml with
  | .error e => .error e
  | .ok config =>
    match loadParamsFromStrings parse .nil opts with
    | .error e => .error e
    | .ok cl => .ok (config.updateWith cl)

/-- The argument `row` of `plot_file`: python compares it with the number of rows
(`/repo/sequence/plot.py:249-252`). Numbers that are not integers, which fail somewhere as an
index, are reported as `TypeError`. -/
def plotRowArgument : Option (Leaf ⊕ Doc) → Except Err (Option ℤ)
  | none => .ok none
  | some (.inl .none) => .ok none
  | some (.inl (.num q)) => if q.den = 1 then .ok (some q.num) else .error .typeError
  | some _ => .error .typeError

/-- `kwds.setdefault(k, v)` -/
def Doc.setDefault (d : Doc) (k : String) (v : Leaf) : Doc :=
  match d.find? k with
  | some _ => d
  | none => d.setItem k (.inl v)

/-- What is drawn: the data and the keywords. -/
structure PlotCall (K : Type*) where
  args : PlotArgs K
  kwds : Doc

variable {K : Type*} [Field K] [LinearOrder K]

/-- `plot_file(filename, **config)` (`/repo/sequence/plot.py:227-292`) with the binding of
its keywords: `filename` twice is a `TypeError`; what `plot_layers` does not accept as a keyword,
or is given already, is one too, when it is called. The row is taken to be looked at first. -/
def plotFileWith (d : Dataset K (Option K)) (filename : String) (config : Doc) :
    Except Err (PlotCall K) :=
  if "filename" ∈ config.keys then .error .typeError
  else
    let kwds := (config.erase "row").setDefault "title" (.str filename)
    match plotRowArgument (config.find? "row") with
    | .error e => .error e
    | .ok row =>
      match plotFile d row with
      | .error e => .error e
      | .ok args =>
        if ∀ k ∈ kwds.keys, k ∈ plotKeywords.keys then .ok ⟨args, kwds⟩ else .error .typeError

/-- `sequence plot` (`/repo/sequence/cli.py:386-427`): output that is not valid aborts. The file
is there, as `click` has checked. With `--verbose` the keywords are first shown as toml, which has no
`None` (412-420; tomlkit, external). -/
def plotCommand (verbose : Bool) (parse : List Char → Except Err (Leaf ⊕ Doc)) (toml : Option (List Doc))
    (d : Dataset K (Option K)) (filename : String) (opts : List (List Char)) :
    Except Err (PlotCall K) :=
  match plotConfig parse toml opts with
  | .error e => .error e
  | .ok config =>
    if verbose && config.hasNull then .error .valueError
    else
      match plotFileWith d filename config with
      | .error .missingVariable => .error .abort
      | .error .invalidRow => .error .abort
      | r => r

end Verif
