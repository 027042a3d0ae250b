import Verif.Model.RunCommand

/-!
# The progress bar of `sequence run`

`/repo/sequence/cli.py:301-312`. `tqdm` is external: a bar is the number of rounds it has counted.
-/

set_option autoImplicit false

namespace Verif

/-- The loop of `sequence run` with its progress bar (`/repo/sequence/cli.py:307-312`):
`bar.update(1)` comes after the parameters have been set. -/
def barLoop {K W : Type*} [Zero K] [DecidableEq K] [Add K] [LT K] [DecidableLT K]
    (advance : K → K → W → Except Err W) (setParams : W → Except Err W) :
    ℕ → Clock K → W × ℕ → Option (Clock K × Except Err (W × ℕ)) :=
  cliLoop
    (fun time dt s =>
      match advance time dt s.1 with
      | .error e => .error e
      | .ok w => .ok (w, s.2))
    (fun s =>
      match setParams s.1 with
      | .error e => .error e
      | .ok w => .ok (w, s.2 + 1))

/-- The loop of a model that is ready, with its bar at 0. -/
def Ready.barRun {K : Type} [Field K] [LinearOrder K] [FloorRing K] (m : Ready K) (fuel : ℕ) :
    Option (Clock K × Except Err ((Cfg × Live m.R m.C K (Option K)) × ℕ)) :=
  barLoop
    (fun time dt s =>
      match s.2.advance m.env m.view (fun _ => m.porosity) time dt with
      | .error e => .error e
      | .ok l => .ok (s.1, l))
    (liveRound m.env m.inp) fuel m.clock ((m.cfg, m.live), 0)

end Verif
