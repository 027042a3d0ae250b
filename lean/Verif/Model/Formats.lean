import Verif.Model.Cli

/-!
# File formats and chained commands

`load_config` and the loaders of `TimeVaryingConfig` (`/repo/sequence/input_reader.py`), and several
commands in one call of `sequence` (`/repo/sequence/cli.py`).
-/

set_option autoImplicit false

namespace Verif

/-! ### Formats -/

/-- The functions of `TimeVaryingConfig` without the special ones, in the alphabetical order of
`inspect.getmembers` (`/repo/sequence/input_reader.py:59-362`). -/
def configMembers : List String :=
  ["_bisect_times", "as_dict", "diff", "dump", "from_file", "from_files", "get_loader",
    "get_supported_formats", "items", "load_toml", "load_yaml", "update"]

/-- `get_loader` (`/repo/sequence/input_reader.py:322-348`) and the same in `from_file` (235-238):
the name of the loader. Other attributes of a class do not begin with `load_`. -/
def getLoader (fmt : String) : Except Err String :=
  if "load_" ++ fmt ∈ configMembers then .ok ("load_" ++ fmt) else .error .valueError

/-- `name.split("_", maxsplit=1)[1]`: what follows the first underscore. -/
def afterUnderscore (name : String) : String :=
  String.ofList ((name.toList.dropWhile (· != '_')).tail)

/-- `get_supported_formats` (`/repo/sequence/input_reader.py:350-362`). The class methods
`from_file` and `from_files` are not functions for `inspect`, which makes no difference. -/
def supportedFormats : List String :=
  (configMembers.filter fun n => "load_".toList.isPrefixOf n.toList).map afterUnderscore

/-- `pathlib.Path(name).suffix` (external, python 3.9 to 3.13) of a name without `/`: from the last
dot on, unless that is the first or the last character. -/
def pathSuffix (name : List Char) : List Char :=
  let ext := (name.reverse.takeWhile (· != '.')).reverse
  if '.' ∈ name ∧ ext ≠ [] ∧ ext.length + 1 < name.length then '.' :: ext else []

/-- `pathlib.Path(name).suffix[1:]`, the format of a file
(`/repo/sequence/input_reader.py:42, 215, 234`). -/
def formatOfFile (name : List Char) : String := String.ofList (pathSuffix name).tail

/-- What a parser finds where a configuration should be: a dictionary, a list, or something else
(a number, a text, nothing). -/
inductive FileEntry where
  | dict (d : Doc)
  | list
  | other
  deriving DecidableEq, Repr

/-- A document of a yaml file, or the value of `sequence` in a toml file. -/
inductive Section where
  | one (e : FileEntry)
  | many (es : List FileEntry)
  deriving DecidableEq, Repr

/-- The loop over the documents (`/repo/sequence/input_reader.py:260-265`). -/
def Section.entries : Section → List FileEntry
  | .one e => [e]
  | .many es => es

/-- `d.pop("_time", idx)` needs a dictionary (`/repo/sequence/input_reader.py:266, 320`):
`list.pop` takes one argument, other values have no `pop`. -/
def entryDocs : List FileEntry → Except Err (List Doc)
  | [] => .ok []
  | .dict d :: es =>
    match entryDocs es with
    | .error e => .error e
    | .ok ds => .ok (d :: ds)
  | .list :: _ => .error .typeError
  | .other :: _ => .error .attributeError

/-- `load_yaml` (`/repo/sequence/input_reader.py:245-266`) on the documents of the file. -/
def loadYaml (file : List Section) : Except Err (List (Rat × Doc)) :=
  match entryDocs (file.flatMap Section.entries) with
  | .error e => .error e
  | .ok ds => Cfg.load 0 ds

/-- `load_toml` (`/repo/sequence/input_reader.py:268-320`) on the value of `sequence`, if there is
one; tomlkit raises a `KeyError` otherwise. The conversion to python objects (283-313) is part of
the parser here. -/
def loadToml (file : Option Section) : Except Err (List (Rat × Doc)) :=
  match file with
  | none => .error (.keyError "sequence")
  | some s =>
    match entryDocs s.entries with
    | .error e => .error e
    | .ok ds => Cfg.load 0 ds

/-- The contents of a file, as each of the two parsers sees them. A text that is not of the format
is an exception of the parser. -/
structure Parsers where
  yaml : Except Err (List Section)
  toml : Except Err (Option Section)

/-- A loader on a file (`none`: the file does not exist). -/
def runLoader (loader : String) (file : Option Parsers) : Except Err (List (Rat × Doc)) :=
  match file with
  | none => .error .osError
  | some p =>
    if loader = "load_yaml" then p.yaml.bind loadYaml else p.toml.bind loadToml

/-- `load_config` (`/repo/sequence/input_reader.py:22-56`) of a file name: one dictionary, or the
list of times and dictionaries. -/
def loadConfig (name : List Char) (fmt : Option String) (file : Option Parsers) :
    Except Err (Doc ⊕ List (Rat × Doc)) :=
  match getLoader (fmt.getD (formatOfFile name)) with
  | .error e => .error e
  | .ok loader =>
    match runLoader loader file with
    | .error e => .error e
    | .ok [td] => .ok (.inl td.2)
    | .ok tds => .ok (.inr tds)

/-- `cls(*zip(*loader(stream)))` (`/repo/sequence/input_reader.py:241-243`): without sections the
constructor lacks its arguments. -/
def initSections : List (Rat × Doc) → Except Err Cfg
  | [] => .error .typeError
  | tds => Cfg.init (tds.map (·.1)) (tds.map (·.2))

/-- `from_file` (`/repo/sequence/input_reader.py:222-243`): the format is looked
at before the file is opened. -/
def fromFileNamed (name : List Char) (fmt : Option String) (file : Option Parsers) :
    Except Err Cfg :=
  match getLoader (fmt.getD (formatOfFile name)) with
  | .error e => .error e
  | .ok loader =>
    (runLoader loader file).bind initSections

/-- The `grid` section that `SequenceModelGrid.from_toml` passes to `from_dict`
(`/repo/sequence/grid.py:124-133`). Indexing a list by a text is a `TypeError`, as is indexing
another value. -/
def gridSection (file : Option Section) : Except Err (Leaf ⊕ Doc) :=
  match file with
  | none => .error (.keyError "sequence")
  | some (.one (.dict d)) =>
    match d.find? "grid" with
    | none => .error (.keyError "grid")
    | some v => .ok v
  | some _ => .error .typeError

/-- `dump` (`/repo/sequence/input_reader.py:172-196`) as the file that it makes: toml gets an array
of tables, yaml one document that is a list. Values that a format does not have (`None` in toml,
tuples in yaml) are not looked at here. -/
def Cfg.dumpFile (c : Cfg) (fmt : String) : Except Err Parsers :=
  match c.dumpDocs with
  | .error e => .error e
  | .ok docs =>
    if fmt = "toml" then .ok ⟨.error .valueError, .ok (some (.many (docs.map .dict)))⟩
    else if fmt = "yaml" then .ok ⟨.ok [.many (docs.map .dict)], .error .valueError⟩
    else .error .valueError

/-! ### Several commands in one call -/

/-- The commands that read the default parameters. `sequence` is a group with `chain=True`
(`/repo/sequence/cli.py:199`): several of them can be given in one call. -/
inductive InputCommand where
  | generate (infile : String) (opts : List (List Char))
  | setup (opts : List (List Char))

/-- The values of `--set` of a command. -/
def InputCommand.options : InputCommand → List (List Char)
  | .generate _ opts => opts
  | .setup opts => opts

/-- The default parameters, the directory and what has been printed. -/
structure ChainState where
  defaults : Doc
  dir : PyDict String String
  printed : List String

/-- The loop of `setup` (`/repo/sequence/cli.py:377-379`) with the default parameters that it
leaves behind. -/
def setupLoop (parse : List Char → Except Err (Leaf ⊕ Doc)) (render : Doc → String → String)
    (opts : List (List Char)) (s : ChainState) : List String → ChainState × Except Err Unit
  | [] => (s, .ok ())
  | f :: fs =>
    let opened := s.dir.set f ""
    match contentsOfInputFile parse render s.defaults opts f with
    | .error e => ({ s with dir := opened }, .error e)
    | .ok (defaults', text) =>
      setupLoop parse render opts
        { s with defaults := defaults', dir := opened.set f (text ++ "\n") } fs

/-- `generate` (`/repo/sequence/cli.py:346-349`) and `setup` (353-383). What is in the defaults
after an error is not modelled, since nothing runs after it. -/
def InputCommand.run (parse : List Char → Except Err (Leaf ⊕ Doc)) (render : Doc → String → String)
    (s : ChainState) : InputCommand → ChainState × Except Err Unit
  | .generate infile opts =>
    match contentsOfInputFile parse render s.defaults opts infile with
    | .error e => (s, .error e)
    | .ok (defaults', text) =>
      ({ s with defaults := defaults', printed := s.printed ++ [text] }, .ok ())
  | .setup opts =>
    if (setupFiles.filter fun f => (s.dir.get? f).isSome).isEmpty then
      setupLoop parse render opts s setupFiles
    else (s, .error .abort)

/-- One call of `sequence` with several commands: they run in order until one fails. The folder
that `setup` prints is left out. -/
def runChain (parse : List Char → Except Err (Leaf ⊕ Doc)) (render : Doc → String → String) :
    List InputCommand → ChainState → ChainState × Except Err Unit
  | [], s => (s, .ok ())
  | c :: cs, s =>
    match c.run parse render s with
    | (s', .error e) => (s', .error e)
    | (s', .ok ()) => runChain parse render cs s'

end Verif
