import Verif.Spec.RunCommand

/-!
# Configurations that differ in their output settings
-/

set_option autoImplicit false

namespace Verif.Spec

/-- A configuration without its section `output`. -/
def withoutOutput : Doc → Doc
  | .nil => .nil
  | .leaf k v r => if k = "output" then withoutOutput r else .leaf k v (withoutOutput r)
  | .sub k d r => if k = "output" then withoutOutput r else .sub k d (withoutOutput r)

/-- The same configuration files, apart from the sections `output`. -/
def SameButOutput (files₁ files₂ : List (List Doc)) : Prop :=
  files₁.map (List.map withoutOutput) = files₂.map (List.map withoutOutput)

/-- The same processes with the same parameters and state, the same grid and the same layers. -/
structure SameSimulation {R C : ℕ} {K A : Type*} (a b : Live R C K A) : Prop where
  procs : a.procs = b.procs
  state : a.state.comps.1 = b.state.comps.1
  world : a.state.world = b.state.world
  archived : a.state.archived = b.state.archived

/-- A model, given by its parts, after `n` rounds of the loop of `sequence run`, and what its writer
was shown in each of them: the grid after the processes, and before the new layer, of the step. -/
inductive RoundsFrom {K : Type} [Field K] [LinearOrder K] {R C : ℕ} (env : Env R C K)
    (inp : Inputs K) (view : ProcState R C K → World R (C + 2) K → GridView (Option K))
    (porosity : K) (clock₀ : Clock K) (s₀ : Cfg × Live R C K (Option K)) :
    ℕ → Clock K → Cfg × Live R C K (Option K) → List (GridView (Option K)) → Prop
  | start : RoundsFrom env inp view porosity clock₀ s₀ 0 clock₀ s₀ []
  | round {n : ℕ} {clock clock' : Clock K} {cfg : Cfg} {l l' : Live R C K (Option K)}
      {s : Cfg × Live R C K (Option K)} {shown : List (GridView (Option K))}
      {p : ProcState R C K} {w : World R (C + 2) K} :
      RoundsFrom env inp view porosity clock₀ s₀ n clock (cfg, l) shown →
      runComponents (l.procs.map (Process.component env)) clock.step
        (l.state.comps.1, clearDeposit l.state.world) = .ok (p, w) →
      runOneStep (Live.advance env view fun _ => porosity) clock l none = (clock', .ok l') →
      liveRound env inp (cfg, l') = .ok s →
      RoundsFrom env inp view porosity clock₀ s₀ (n + 1) clock' s (shown ++ [view p w])

/-- A model after `n` rounds of the loop of `sequence run`, and what its writer was shown. -/
def AfterRounds {K : Type} [Field K] [LinearOrder K] (m : Ready K) :
    ℕ → Clock K → Cfg × Live m.R m.C K (Option K) → List (GridView (Option K)) → Prop :=
  RoundsFrom m.env m.inp m.view m.porosity m.clock (m.cfg, m.live)

end Verif.Spec
