import Mathlib.Data.List.Sort
import Verif.Model.Params

/-!
# The command line (`/repo/sequence/cli.py`)
-/

set_option autoImplicit false

namespace Verif

/-! ### Finding the configuration files -/

/-- The value of a string of decimal digits, `int(t)`. -/
def decimal (ds : List Char) : Nat := ds.foldl (fun n c => 10 * n + (c.toNat - '0'.toNat)) 0

/-- `_time_from_filename` (`/repo/sequence/cli.py:133-161`): the first run of digits. Only names
without non-ASCII digits are modelled. -/
def timeFromFilename (name : List Char) : Option Nat :=
  match name.dropWhile (fun c => !c.isDigit) with
  | [] => none
  | c :: cs => some (decimal ((c :: cs).takeWhile Char.isDigit))

/-- `pathname.glob("sequence*<suffix>")` (`/repo/sequence/cli.py:179-180`), for the names of the
entries of the directory. -/
def globSequence (suffix : String) (entries : List (List Char)) : List (List Char) :=
  entries.filter fun n => "sequence".toList.isPrefixOf n && suffix.toList.isSuffixOf n

/-- Names in alphabetical order (code points). -/
def nameLE (a b : List Char) : Prop := a ≤ b

instance : DecidableRel nameLE := fun a b => inferInstanceAs (Decidable (a ≤ b))

/-- The order of python tuples `(time, name)`. -/
def pairLE (a b : Nat × List Char) : Prop := a.1 < b.1 ∨ (a.1 = b.1 ∧ nameLE a.2 b.2)

instance : DecidableRel pairLE := fun a b =>
  inferInstanceAs (Decidable (a.1 < b.1 ∨ (a.1 = b.1 ∧ nameLE a.2 b.2)))

/-- The loop over the files: the time of a file is the number in its name or its index
(`/repo/sequence/cli.py:186-191`). -/
def filesTimes : Nat → List (List Char) → List Nat
  | _, [] => []
  | idx, n :: ns =>
    (match timeFromFilename n with
      | some t => t
      | none => idx) :: filesTimes (idx + 1) ns

/-- `_find_config_files` (`/repo/sequence/cli.py:164-196`). Python's sort is modelled by
insertion sort. -/
def findConfigFiles (entries : List (List Char)) : List Nat × List (List Char) :=
  let toml := globSequence ".toml" entries
  let yaml := globSequence ".yaml" entries
  let files := (if toml.isEmpty then yaml else toml).insertionSort nameLE
  let times := filesTimes 0 files
  let names := ((times.zip files).insertionSort pairLE).map (·.2)
  (times.insertionSort (· ≤ ·), names)

/-! ### Options -/

/-- `s.split(sep)` for a one-character separator. -/
def splitOn (sep : Char) : List Char → List (List Char)
  | [] => [[]]
  | c :: cs =>
    if c = sep then [] :: splitOn sep cs
    else match splitOn sep cs with
      | [] => [[c]]
      | p :: ps => (c :: p) :: ps

/-- `_dots_to_dict` (`/repo/sequence/cli.py:439-447`) of a value or a dictionary. -/
def dotsToDict : List String → Leaf ⊕ Doc → Doc
  | [], _ => .nil
  | [name], .inl v => .leaf name v .nil
  | [name], .inr d => .sub name d .nil
  | k :: names, v => .sub k (dotsToDict names v) .nil

/-- `d[k] = x` for a value or a dictionary. -/
def Doc.setItem (k : String) (x : Leaf ⊕ Doc) : Doc → Doc
  | .nil =>
    match x with
    | .inl v => .leaf k v .nil
    | .inr s => .sub k s .nil
  | .leaf k' v' r =>
    if k' = k then
      match x with
      | .inl v => .leaf k v r
      | .inr s => .sub k s r
    else .leaf k' v' (r.setItem k x)
  | .sub k' s' r =>
    if k' = k then
      match x with
      | .inl v => .leaf k v r
      | .inr s => .sub k s r
    else .sub k' s' (r.setItem k x)

/-- `d.update(e)` for dictionaries of dictionaries (not recursive). -/
def Doc.updateWith (d : Doc) : Doc → Doc
  | .nil => d
  | .leaf k v r => (d.setItem k (.inl v)).updateWith r
  | .sub k s r => (d.setItem k (.inr s)).updateWith r

/-- `_load_params_from_strings` (`/repo/sequence/cli.py:430-436`), starting from `params`;
`parse` is `yaml.safe_load`; dictionaries inside of lists and keys that are not texts are not
modelled. -/
def loadParamsFromStrings (parse : List Char → Except Err (Leaf ⊕ Doc)) (params : Doc) :
    List (List Char) → Except Err Doc
  | [] => .ok params
  | opt :: opts =>
    match splitOn '=' opt with
    | [name, value] =>
      match parse value with
      | .error e => .error e
      | .ok v =>
        loadParamsFromStrings parse
          (params.updateWith (dotsToDict ((splitOn '.' name).map String.ofList) v)) opts
    | _ => .error .valueError

/-- What `dict.update` (python, external) makes of an element of a list: a key and a value, if the
element has two elements and the first is a text. Other keys, which neither toml nor keyword
arguments can have, are a `TypeError` here already. -/
def updateItem : Leaf → Except Err (String × Leaf)
  | .str s =>
    match s.toList with
    | [a, b] => .ok (String.ofList [a], .str (String.ofList [b]))
    | _ => .error .valueError
  | .list [.str k, v] => .ok (k, v)
  | .tup [.str k, v] => .ok (k, v)
  | .list [_, _] => .error .typeError
  | .tup [_, _] => .error .typeError
  | .list _ => .error .valueError
  | .tup _ => .error .valueError
  | .num _ => .error .typeError
  | .none => .error .typeError

/-- The elements of a list, in order. -/
def updateItems : List Leaf → Except Err (List (String × Leaf))
  | [] => .ok []
  | x :: xs =>
    match updateItem x with
    | .error e => .error e
    | .ok p =>
      match updateItems xs with
      | .error e => .error e
      | .ok ps => .ok (p :: ps)

/-- What `dict.update` takes from a value that is not a dictionary: a list or tuple of items, a text
of characters, none of which is an item. -/
def updateLeaf : Leaf → Except Err (List (String × Leaf))
  | .list xs => updateItems xs
  | .tup xs => updateItems xs
  | .str s => if s = "" then .ok [] else .error .valueError
  | .num _ => .error .typeError
  | .none => .error .typeError

/-- A dictionary without dictionaries. -/
def Doc.ofItems : PyDict String Leaf → Doc
  | [] => .nil
  | (k, v) :: r => .leaf k v (Doc.ofItems r)

/-- `params[group].update(params_from_cl.get(group, {}))`
(`/repo/sequence/cli.py:469-470`). -/
def updateGroup (group : Doc) (new : Option (Leaf ⊕ Doc)) : Except Err Doc :=
  match new with
  | none => .ok group
  | some (.inr d) => .ok (group.updateWith d)
  | some (.inl v) =>
    match updateLeaf v with
    | .error e => .error e
    | .ok ps => .ok (group.updateWith (.ofItems (.ofPairs ps)))

/-- The loop over the groups of `_load_model_params` (`/repo/sequence/cli.py:469-470`). A default
that is not a dictionary has no `update`. -/
def updateGroups (cl : Doc) : Doc → Except Err Doc
  | .nil => .ok .nil
  | .leaf _ _ _ => .error .attributeError
  | .sub g d r =>
    match updateGroup d (cl.find? g) with
    | .error e => .error e
    | .ok d' =>
      match updateGroups cl r with
      | .error e => .error e
      | .ok r' => .ok (.sub g d' r')

/-- `_load_model_params` without a parameter file (`/repo/sequence/cli.py:457-472`). The defaults
are changed in place by the code; here the result is the changed dictionary. -/
def loadModelParams (parse : List Char → Except Err (Leaf ⊕ Doc)) (defaults : Doc)
    (opts : List (List Char)) : Except Err Doc :=
  match loadParamsFromStrings parse .nil opts with
  | .error e => .error e
  | .ok cl => updateGroups cl defaults

/-- `_walk_dict` (`/repo/sequence/cli.py:475-487`): the keys of the dictionaries around an item come
innermost first. -/
def cliWalk (prev : List String) : Doc → List (List String × Leaf)
  | .nil => []
  | .leaf k v r => (prev ++ [k], v) :: cliWalk prev r
  | .sub k d r => cliWalk (k :: prev) d ++ cliWalk prev r

/-- `_dict_to_dots` (`/repo/sequence/cli.py:450-454`); `str` is python's `str` of a value. -/
def dictToDots (str : Leaf → List Char) (d : Doc) : List (List Char) :=
  (cliWalk [] d).map fun p => ['.'].intercalate (p.1.map String.toList) ++ '=' :: str p.2

/-- `_load_model_params` with a parameter file (`/repo/sequence/cli.py:457-472`), `file` being the
dictionary read from it. -/
def loadModelParamsFile (parse : List Char → Except Err (Leaf ⊕ Doc)) (str : Leaf → List Char)
    (defaults file : Doc) (opts : List (List Char)) : Except Err Doc :=
  loadModelParams parse defaults (dictToDots str file ++ opts)

/-! ### `sequence setup` -/

/-- The files `setup` creates (`/repo/sequence/cli.py:360-366`). -/
def setupFiles : List String :=
  ["bathymetry.csv", "sequence.toml", "sealevel.csv", "subsidence.csv"]

/-- `_contents_of_input_file` (`/repo/sequence/cli.py:86-130`) for one of the files of `setup`:
the contents, and the default parameters afterwards (the dictionary in the class is changed in
place). `render` stands for the templates, yaml and toml. The contents of all files are made every
time; toml has no `None`, and tomlkit (external) raises `ConvertError`, which is a `ValueError`. -/
def contentsOfInputFile (parse : List Char → Except Err (Leaf ⊕ Doc))
    (render : Doc → String → String)
    (defaults : Doc) (opts : List (List Char)) (infile : String) : Except Err (Doc × String) :=
  match loadModelParams parse defaults opts with
  | .error e => .error e
  | .ok params => if params.hasNull then .error .valueError else .ok (params, render params infile)

/-- The writing loop of `setup` (`/repo/sequence/cli.py:377-379`): a file is created by `open`
before its contents are known. -/
def setupWrite (parse : List Char → Except Err (Leaf ⊕ Doc)) (render : Doc → String → String)
    (opts : List (List Char)) (defaults : Doc) (dir : PyDict String String) :
    List String → PyDict String String × Except Err Unit
  | [] => (dir, .ok ())
  | f :: fs =>
    let opened := dir.set f ""
    match contentsOfInputFile parse render defaults opts f with
    | .error e => (opened, .error e)
    | .ok (defaults', text) =>
      setupWrite parse render opts defaults' (opened.set f (text ++ "\n")) fs

/-- `sequence setup` (`/repo/sequence/cli.py:353-383`) on a directory (file names and contents):
the directory afterwards and how the command ended. -/
def setup (parse : List Char → Except Err (Leaf ⊕ Doc)) (render : Doc → String → String)
    (opts : List (List Char)) (defaults : Doc) (dir : PyDict String String) :
    PyDict String String × Except Err Unit :=
  if (setupFiles.filter fun f => (dir.get? f).isSome).isEmpty then
    setupWrite parse render opts defaults dir setupFiles
  else (dir, .error .abort)

end Verif
