import Verif.Model.Failure

/-!
# The order of a set

`TimeVaryingConfig.diff` goes through a python set (`/repo/sequence/input_reader.py:139-142`). The
order depends on the hashes of its items, and those of strings on a seed that python chooses when
it starts. `Verif.Model.Config` uses the order of the later configuration; here the order is
arbitrary, and what follows from it is modelled again: the loop of `sequence run` up to the files it
leaves.
-/

set_option autoImplicit false

namespace Verif

/-- The order in which python goes through the changes at a time. -/
abbrev SetOrder := Rat → Flat → Flat

/-- `update` (`/repo/sequence/input_reader.py:144-170`). -/
def Cfg.updateIn (σ : SetOrder) (c : Cfg) (inc : Rat) : Except Err (Doc × Cfg) :=
  let next := c.time + inc
  if c.bisectTimes c.time < c.bisectTimes next then
    match c.diff c.time next with
    | .error e => .error e
    | .ok f =>
      match Doc.expand (σ next f) with
      | .error e => .error e
      | .ok d => .ok (d, { c with current := c.call next, time := next })
  else .ok (.nil, { c with time := next })

variable {K A : Type*} {R C : ℕ} [Field K] [LinearOrder K]

/-- `model.set_params(params.update(1))` (`/repo/sequence/cli.py:311`). -/
def liveRoundIn (σ : SetOrder) (env : Env R C K) (inp : Inputs K) (s : Cfg × Live R C K A) :
    Except Err (Cfg × Live R C K A) :=
  match s.1.updateIn σ 1 with
  | .error e => .error e
  | .ok (d, c) =>
    match s.2.setParams env inp d with
    | .error e => .error e
    | .ok l => .ok (c, l)

/-- The files if `model.set_params(params.update(1))` raises an exception. -/
def roundFilesIn (σ : SetOrder) (env : Env R C K) (inp : Inputs K) (s : Cfg × Live R C K A) :
    FileSystem K A :=
  match s.1.updateIn σ 1 with
  | .error _ => s.2.files
  | .ok (d, _) => s.2.setParamsFiles env inp d

/-- The loop of `sequence run` (`/repo/sequence/cli.py:308-312`), for at most `fuel` rounds. -/
def leftLoopIn (σ : SetOrder) (env : Env R C K) (inp : Inputs K)
    (view : ProcState R C K → World R (C + 2) K → GridView A) (porosity : LiveState R C K A → K) :
    ℕ → Clock K → Cfg × Live R C K A → Option (Left K A)
  | 0, _, _ => none
  | fuel + 1, c, s =>
    match c.advance with
    | (_, .error e) => some ⟨.clock, suppressStop e, s.2.files, none⟩
    | (c', .ok _) =>
      match s.2.advance env view porosity c'.time c.step with
      | .error e =>
        some ⟨.step, suppressStop e, (s.2.advanceFiles env view c.step).1,
          (s.2.advanceFiles env view c.step).2⟩
      | .ok l =>
        match liveRoundIn σ env inp (s.1, l) with
        | .error e => some ⟨.change, suppressStop e, roundFilesIn σ env inp (s.1, l), none⟩
        | .ok s' => leftLoopIn σ env inp view porosity fuel c' s'

/-- What a model that is ready leaves (`/repo/sequence/cli.py:301-312`). -/
def Ready.leftIn {K : Type} [Field K] [LinearOrder K] [FloorRing K] (σ : SetOrder) (m : Ready K)
    (fuel : ℕ) : Option (Left K (Option K)) :=
  match progressTotal m.clock with
  | .error e => some ⟨.before, some e, m.live.files, none⟩
  | .ok _ => leftLoopIn σ m.env m.inp m.view (fun _ => m.porosity) fuel m.clock (m.cfg, m.live)

/-- What `sequence run` leaves (`/repo/sequence/cli.py:239-330`). -/
def leftByRunIn {K : Type} [Field K] [LinearOrder K] [FloorRing K] (σ : SetOrder)
    (ext : Externals K) (entries : List (List Char)) (contents : List Char → List Doc)
    (dryRun : Bool) (fuel : ℕ) (fs : FileSystem K (Option K)) : Option (Left K (Option K)) :=
  match runSetup ext (findConfigFiles entries).1 ((findConfigFiles entries).2.map contents) fs with
  | (fs', .error e) => some ⟨.before, some e, fs', none⟩
  | (fs', .ok m) => if dryRun then some ⟨.before, none, fs', none⟩ else m.leftIn σ fuel

end Verif
