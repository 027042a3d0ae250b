import Verif.Model.Failure
import Verif.Model.Unfinished

/-!
# All files after a failed run

`Verif.Model.Failure` says what a run that fails leaves in the files except for one that the writer
was writing. Here that one is included, with `Verif.Model.Unfinished`. `order` is the order in
which python goes through a set of names of fields.
-/

set_option autoImplicit false

namespace Verif

variable {K A : Type*} [Field K] [LinearOrder K] {R C : ℕ}

/-- The files after `OutputWriter.run_one_step`, whether or not it raises
(`/repo/sequence/output_writer.py:64-86`). -/
def writerFiles (order : List String → List String) (g : GridView A)
    (s : Writer K × FileSystem K A) : FileSystem K A :=
  if s.1.interval = 0 then s.2
  else if s.1.count % s.1.interval = 0 then
    (writeNetcdf order g s.1.filepath .a true s.1.time defaultLocations
      { row := .list s.1.rows, column := .list ((List.range (g.cols - 2)).map Int.ofNat) }
      (.dict [("node", some s.1.fields)]) true s.2).1
  else s.2

/-- The files if `advance_components` raises an exception
(`/repo/sequence/sequence_model.py:313-343`). A component before the writer has raised, or the
writer, or what comes after it. -/
def Live.advanceWritten (order : List String → List String) (env : Env R C K)
    (view : ProcState R C K → World R (C + 2) K → GridView A) (dt : K) (l : Live R C K A) :
    FileSystem K A :=
  match runComponents (l.procs.map (Process.component env)) dt
      (l.state.comps.1, clearDeposit l.state.world) with
  | .error _ => l.files
  | .ok (p, w) =>
    match writerStep (view p w) (some dt) l.state.comps.2 with
    | .error _ => writerFiles order (view p w) l.state.comps.2
    | .ok q => q.2

/-- The loop of `sequence run` (`/repo/sequence/cli.py:308-312`), for at most `fuel` rounds. -/
def writtenLoop (order : List String → List String) (env : Env R C K) (inp : Inputs K)
    (view : ProcState R C K → World R (C + 2) K → GridView A) (porosity : LiveState R C K A → K) :
    ℕ → Clock K → Cfg × Live R C K A → Option (FileSystem K A)
  | 0, _, _ => none
  | fuel + 1, c, s =>
    match c.advance with
    | (_, .error _) => some s.2.files
    | (c', .ok _) =>
      match s.2.advance env view porosity c'.time c.step with
      | .error _ => some (s.2.advanceWritten order env view c.step)
      | .ok l =>
        match liveRound env inp (s.1, l) with
        | .error _ => some (roundFiles env inp (s.1, l))
        | .ok s' => writtenLoop order env inp view porosity fuel c' s'

/-- The files after a model that is ready has been run (`/repo/sequence/cli.py:301-312`). -/
def Ready.written {K : Type} [Field K] [LinearOrder K] [FloorRing K]
    (order : List String → List String) (m : Ready K) (fuel : ℕ) :
    Option (FileSystem K (Option K)) :=
  match progressTotal m.clock with
  | .error _ => some m.live.files
  | .ok _ =>
    writtenLoop order m.env m.inp m.view (fun _ => m.porosity) fuel m.clock (m.cfg, m.live)

/-- The files after `sequence run` (`/repo/sequence/cli.py:239-330`). -/
def writtenByRun {K : Type} [Field K] [LinearOrder K] [FloorRing K]
    (order : List String → List String) (ext : Externals K) (entries : List (List Char))
    (contents : List Char → List Doc) (dryRun : Bool) (fuel : ℕ) (fs : FileSystem K (Option K)) :
    Option (FileSystem K (Option K)) :=
  match runSetup ext (findConfigFiles entries).1 ((findConfigFiles entries).2.map contents) fs with
  | (fs', .error _) => some fs'
  | (fs', .ok m) => if dryRun then some fs' else m.written order fuel

end Verif
