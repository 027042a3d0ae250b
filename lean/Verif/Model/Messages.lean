import Verif.Model.RunCommand

/-!
# Messages

`/repo/sequence/logging.py` and the messages of `sequence run` (`/repo/sequence/cli.py`). Colours and
other styles are left out. Python's `logging` is external: a message is shown if its level is at
least that of the logger, or of the root logger (`WARNING`) if the logger has none; the one handler
of the package's logger prints it.
-/

set_option autoImplicit false

namespace Verif

/-- A text. -/
abbrev Text := List Char

/-- The levels of python's `logging`. -/
inductive Level where
  | debug | info | warning | error | critical
  deriving DecidableEq, Repr

/-- Their numbers. -/
def Level.number : Level → ℕ
  | .debug => 10
  | .info => 20
  | .warning => 30
  | .error => 40
  | .critical => 50

/-- `record.levelname`. -/
def Level.text : Level → Text
  | .debug => "DEBUG".toList
  | .info => "INFO".toList
  | .warning => "WARNING".toList
  | .error => "ERROR".toList
  | .critical => "CRITICAL".toList

/-- The options `--silent` and `--verbose` (counted) of the command `sequence`
(`/repo/sequence/cli.py:207-215`). -/
structure Flags where
  silent : Bool
  verbose : ℕ

/-- The level in force (`/repo/sequence/cli.py:226-229`). -/
def Flags.level (f : Flags) : Level :=
  let own : Option Level :=
    if f.silent then some .error
    else if f.verbose = 0 then none
    else if f.verbose = 1 then some .info
    else some .debug
  own.getD .warning

/-- The characters at which `str.splitlines` breaks. -/
def isLineBreak (c : Char) : Bool :=
  c ∈ ['\n', '\r', '\x0b', '\x0c', '\x1c', '\x1d', '\x1e', '\u0085', '\u2028', '\u2029']

/-- `str.splitlines`; `line` is what has been read of the current line. -/
def splitLinesFrom (line : Text) : Text → List Text
  | [] => if line = [] then [] else [line]
  | '\r' :: '\n' :: rest => line :: splitLinesFrom [] rest
  | c :: rest =>
    if isLineBreak c then line :: splitLinesFrom [] rest else splitLinesFrom (line ++ [c]) rest

/-- `str.splitlines`. -/
def splitLines (s : Text) : List Text := splitLinesFrom [] s

/-- `LoggingHandler.emit` (`/repo/sequence/logging.py:28-47`): the lines it prints. -/
def emitLines (l : Level) (msg : Text) : List Text :=
  let lines := if splitLines msg = [] then [[]] else splitLines msg
  match lines with
  | [] => []
  | first :: more =>
    ('[' :: l.text ++ ']' :: ' ' :: first) :: more.map fun line => '+' :: ' ' :: line

/-- What a command tells: a message in the log, a message to the user (`out`,
`/repo/sequence/cli.py:61-83`), or its result (`print`). -/
inductive Told where
  | log (l : Level) (msg : Text)
  | out (msg : Text)
  | print (msg : Text)
  deriving DecidableEq

/-- What appears on the standard error. -/
def Told.stderr (f : Flags) : Told → List Text
  | .log l msg => if f.level.number ≤ l.number then emitLines l msg else []
  | .out msg => [msg]
  | .print _ => []

/-- What appears on the standard output. -/
def Told.stdout : Told → List Text
  | .print msg => [msg]
  | _ => []

/-- What `sequence run` tells about: the names of the files, the components, the processes that
are not turned on, whether the list of processes is empty, the citations, the times each component took, the
directory, and the messages of `load_processes` (a mismatch is a warning, the rest is for debugging,
`/repo/sequence/sequence_model.py:204-247`) and of the components while they run (for debugging,
`/repo/sequence/sediment_flexure.py`). -/
structure Story where
  configFiles : Text
  loading : List (Text ⊕ Text)
  components : List String
  disabled : List String
  noProcesses : Bool
  citations : Text
  running : List Text
  timings : List Text
  directory : Text

/-- A message of `load_processes`. -/
def loadingTold : Text ⊕ Text → Told
  | .inl warning => .log .warning warning
  | .inr detail => .log .debug detail

/-- The messages of a run that is not stopped by an error (`/repo/sequence/cli.py:262-330`). -/
def runTells (f : Flags) (withCitations dryRun : Bool) (s : Story) : List Told :=
  (if f.silent = false then [.log .info ("config files: ".toList ++ s.configFiles)] else []) ++
  s.loading.map loadingTold ++
  (if f.verbose ≠ 0 ∨ f.silent = false then
    s.components.map (fun n => .log .info ("✅ Enabled: ".toList ++ n.toList)) ++
    s.disabled.map (fun n => .log .warning ("❌ Disabled: ".toList ++ n.toList)) else []) ++
  (if f.silent = false ∧ s.noProcesses then
    [.log .warning "⚠️  ALL PROCESSES HAVE BEEN DISABLED! ⚠️".toList] else []) ++
  (if f.silent = false ∧ withCitations then
    [.out "👇👇👇These are the citations to use👇👇👇".toList, .out s.citations,
      .out "👆👆👆These are the citations to use👆👆👆".toList] else []) ++
  (if dryRun = false then
    s.running.map (fun m => .log .debug m) ++
    (if f.verbose ≠ 0 ∧ f.silent = false then s.timings.map (fun m => .log .info m) else []) ++
    (if f.verbose ≠ 0 ∨ f.silent = false then
      [.log .info ("Output written to ".toList ++ s.directory), .out "💥 Finished! 💥".toList]
     else [])
   else if f.verbose ≠ 0 ∨ f.silent = false then [.out "Nothing to do. 😴".toList] else []) ++
  [.print s.directory]

/-- The components of a model (`/repo/sequence/sequence_model.py:278-281`): the processes and the
writer, which `sequence run` always makes. -/
def Ready.components {K : Type} (m : Ready K) : List String :=
  m.live.procs.map Process.name ++ ["output"]

/-- The processes that are reported as disabled (`/repo/sequence/cli.py:287`):
`set(SequenceModel.ALL_PROCESSES) - set(model.components)`; python's order of a set is arbitrary. -/
def Ready.disabled {K : Type} (m : Ready K) : List String :=
  ["sea_level", "subsidence", "compaction", "submarine_diffusion", "fluvial", "flexure"].filter
    fun n => decide (n ∉ m.components)

end Verif
