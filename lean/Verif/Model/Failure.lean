import Verif.Model.RunCommand

/-!
# What a failed run leaves behind

`Outcome` (`Verif.Model.RunCommand`) says how `sequence run` ends. Here is what it leaves in the
files if a step of the model or a change of parameters raises an exception.
-/

set_option autoImplicit false

namespace Verif

variable {K A : Type*} [Field K] [LinearOrder K] {R C : ℕ}

/-- The files. -/
def Live.files (l : Live R C K A) : FileSystem K A := l.state.comps.2.2

/-- Where a command ends. -/
inductive Stage where
  /-- before the loop -/
  | before
  /-- in the loop, because the clock has reached its end -/
  | clock
  /-- in a step of the model -/
  | step
  /-- when parameters are changed after a step -/
  | change
  deriving DecidableEq, Repr

/-- How a command ended, with which exception if any, what it left in the files, and the path of a
file that `to_netcdf` has not finished. The entry at that path is the one before the attempt; what
is there afterwards is not modelled. -/
structure Left (K A : Type*) where
  stage : Stage
  error : Option Err
  files : FileSystem K A
  unfinished : Option String

/-- `suppress(StopIteration)` (`/repo/sequence/cli.py:308`). -/
def suppressStop (e : Err) : Option Err := if e = .stopIteration then none else some e

/-- The files if `advance_components` raises an exception
(`/repo/sequence/sequence_model.py:313-343`), and the one that is not finished. The writer is the
last component. Its step raises `ZeroDivisionError` before it opens the file
(`/repo/sequence/output_writer.py:73`), or an exception of `to_netcdf` comes through. -/
def Live.advanceFiles (env : Env R C K) (view : ProcState R C K → World R (C + 2) K → GridView A)
    (dt : K) (l : Live R C K A) : FileSystem K A × Option String :=
  match runComponents (l.procs.map (Process.component env)) dt
      (l.state.comps.1, clearDeposit l.state.world) with
  | .error _ => (l.files, none)
  | .ok (p, w) =>
    match writerStep (view p w) (some dt) l.state.comps.2 with
    | .error _ =>
      (l.files, if l.state.comps.2.1.interval = 0 then none else some l.state.comps.2.1.filepath)
    | .ok q => (q.2, none)

/-- The files if the inner loop of `set_params` raises an exception
(`/repo/sequence/sequence_model.py:296-297`): those of the last attribute that was set. A setter
that raises an exception leaves the files as they are (`setFilepath`). -/
def Live.setSectionFiles (env : Env R C K) (inp : Inputs K) (comp : String) :
    Doc → Live R C K A → FileSystem K A
  | .nil, l => l.files
  | .leaf k v r, l =>
    match l.setattr env inp comp k (.inl v) with
    | .error _ => l.files
    | .ok l' => Live.setSectionFiles env inp comp r l'
  | .sub k d r, l =>
    match l.setattr env inp comp k (.inr d) with
    | .error _ => l.files
    | .ok l' => Live.setSectionFiles env inp comp r l'

/-- The files if `set_params` raises an exception (`/repo/sequence/sequence_model.py:286-297`). -/
def Live.setParamsFiles (env : Env R C K) (inp : Inputs K) :
    Doc → Live R C K A → FileSystem K A
  | .nil, l => l.files
  | .leaf _ _ _, l => l.files
  | .sub k d r, l =>
    if l.has k then
      match l.setSection env inp k d with
      | .error _ => l.setSectionFiles env inp k d
      | .ok l' => Live.setParamsFiles env inp r l'
    else l.files

/-- The files if `model.set_params(params.update(1))` raises an exception
(`/repo/sequence/cli.py:311`). -/
def roundFiles (env : Env R C K) (inp : Inputs K) (s : Cfg × Live R C K A) : FileSystem K A :=
  match s.1.update 1 with
  | .error _ => s.2.files
  | .ok (d, _) => s.2.setParamsFiles env inp d

/-- The loop of `sequence run` (`/repo/sequence/cli.py:308-312`), for at most `fuel` rounds. -/
def leftLoop (env : Env R C K) (inp : Inputs K)
    (view : ProcState R C K → World R (C + 2) K → GridView A) (porosity : LiveState R C K A → K) :
    ℕ → Clock K → Cfg × Live R C K A → Option (Left K A)
  | 0, _, _ => none
  | fuel + 1, c, s =>
    match c.advance with
    | (_, .error e) => some ⟨.clock, suppressStop e, s.2.files, none⟩
    | (c', .ok _) =>
      match s.2.advance env view porosity c'.time c.step with
      | .error e =>
        some ⟨.step, suppressStop e, (s.2.advanceFiles env view c.step).1,
          (s.2.advanceFiles env view c.step).2⟩
      | .ok l =>
        match liveRound env inp (s.1, l) with
        | .error e => some ⟨.change, suppressStop e, roundFiles env inp (s.1, l), none⟩
        | .ok s' => leftLoop env inp view porosity fuel c' s'

/-- What a model that is ready leaves (`/repo/sequence/cli.py:301-312`). -/
def Ready.left {K : Type} [Field K] [LinearOrder K] [FloorRing K] (m : Ready K) (fuel : ℕ) :
    Option (Left K (Option K)) :=
  match progressTotal m.clock with
  | .error e => some ⟨.before, some e, m.live.files, none⟩
  | .ok _ => leftLoop m.env m.inp m.view (fun _ => m.porosity) fuel m.clock (m.cfg, m.live)

/-- What `sequence run` leaves (`/repo/sequence/cli.py:239-330`). -/
def leftByRun {K : Type} [Field K] [LinearOrder K] [FloorRing K] (ext : Externals K)
    (entries : List (List Char)) (contents : List Char → List Doc) (dryRun : Bool) (fuel : ℕ)
    (fs : FileSystem K (Option K)) : Option (Left K (Option K)) :=
  match runSetup ext (findConfigFiles entries).1 ((findConfigFiles entries).2.map contents) fs with
  | (fs', .error e) => some ⟨.before, some e, fs', none⟩
  | (fs', .ok m) => if dryRun then some ⟨.before, none, fs', none⟩ else m.left fuel

end Verif
