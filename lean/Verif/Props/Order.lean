import Verif.Lemmas.Prelude
import Verif.Lemmas.Order
import Verif.Props.Package

/-!
# The order of the processes

C96: processes that share no field of the grid can be listed in any order.
-/

set_option autoImplicit false
set_option linter.unusedSectionVars false

namespace Verif.Props

open Spec

variable {K : Type*} {R C : ℕ} [Field K] [LinearOrder K] [IsStrictOrderedRing K]

theorem runComponents_pair (c d : Component (ProcState R C K) R (C + 2) K)
    (post : List (Component (ProcState R C K) R (C + 2) K)) (dt : K) (x : Whole R C K) :
    runComponents (c :: d :: post) dt x =
      match andThen (c dt) (d dt) x with
      | .error e => .error e
      | .ok y => runComponents post dt y := by
  unfold andThen
  simp only [runComponents]
  cases c dt x with
  | error e => rfl
  | ok y => dsimp only; cases d dt y <;> rfl

theorem runComponents_swap {env : Env R C K} {dt : K} {p q : Process K} (h : Exchange env dt p q)
    (pre post : List (Process K)) (x z : Whole R C K) :
    runComponents ((pre ++ p :: q :: post).map (Process.component env)) dt x = .ok z ↔
      runComponents ((pre ++ q :: p :: post).map (Process.component env)) dt x = .ok z := by
  induction pre generalizing x with
  | nil =>
    simp only [List.nil_append, List.map_cons, runComponents_pair]
    constructor
    · intro hz
      cases ha : andThen (p.component env dt) (q.component env dt) x with
      | error e => rw [ha] at hz; cases hz
      | ok y =>
        rw [(h x y).mp ha]
        rw [ha] at hz
        exact hz
    · intro hz
      cases ha : andThen (q.component env dt) (p.component env dt) x with
      | error e => rw [ha] at hz; cases hz
      | ok y =>
        rw [(h x y).mpr ha]
        rw [ha] at hz
        exact hz
  | cons a pre ih =>
    simp only [List.cons_append, List.map_cons, runComponents]
    cases a.component env dt x with
    | error e => simp
    | ok y => exact ih y

theorem createAll_swap {env : Env R C K} {p q : Process K} (h : ExchangeNew env p q)
    (pre post : List (Process K)) (x z : Whole R C K) :
    createAll env (pre ++ p :: q :: post) x = .ok z ↔
      createAll env (pre ++ q :: p :: post) x = .ok z := by
  have pair : ∀ (a b : Process K) (x : Whole R C K), createAll env (a :: b :: post) x =
      match andThen (a.create env) (b.create env) x with
      | .error e => .error e
      | .ok y => createAll env post y := by
    intro a b x
    unfold andThen
    simp only [createAll]
    cases a.create env x with
    | error e => rfl
    | ok y => dsimp only; cases b.create env y <;> rfl
  induction pre generalizing x with
  | nil =>
    simp only [List.nil_append, pair]
    constructor
    · intro hz
      cases ha : andThen (p.create env) (q.create env) x with
      | error e => rw [ha] at hz; cases hz
      | ok y =>
        rw [(h x y).mp ha]
        rw [ha] at hz
        exact hz
    · intro hz
      cases ha : andThen (q.create env) (p.create env) x with
      | error e => rw [ha] at hz; cases hz
      | ok y =>
        rw [(h x y).mpr ha]
        rw [ha] at hz
        exact hz
  | cons a pre ih =>
    simp only [List.cons_append, createAll]
    cases a.create env x with
    | error e => simp
    | ok y => exact ih y

theorem reordered_components {env : Env R C K} {ps ps' : List (Process K)} (h : Reordered ps ps')
    (dt : K) (x z : Whole R C K) :
    runComponents (ps.map (Process.component env)) dt x = .ok z ↔
      runComponents (ps'.map (Process.component env)) dt x = .ok z := by
  induction h with
  | refl => exact Iff.rfl
  | swap pre post p q hpq h ih =>
    exact ih.trans (runComponents_swap (independent_exchange env dt p q hpq) pre post x z)

theorem reordered_create {env : Env R C K} {ps ps' : List (Process K)} (h : Reordered ps ps')
    (x z : Whole R C K) : createAll env ps x = .ok z ↔ createAll env ps' x = .ok z := by
  induction h with
  | refl => exact Iff.rfl
  | swap pre post p q hpq h ih =>
    exact ih.trans (createAll_swap (independent_exchangeNew env p q hpq) pre post x z)

theorem advanceComponents_congr {σ : Type*} {R C : ℕ} {comps comps' : List (Component σ R C K)}
    {dt : K} {s : ModelState σ R C K}
    (h : ∀ z, runComponents comps dt (s.comps, clearDeposit s.world) = .ok z →
      runComponents comps' dt (s.comps, clearDeposit s.world) = .ok z)
    {porosity : σ → K} {time : K} {s' : ModelState σ R C K}
    (ha : advanceComponents comps porosity time dt s = .ok s') :
    advanceComponents comps' porosity time dt s = .ok s' := by
  unfold advanceComponents at ha ⊢
  cases hc : runComponents comps dt (s.comps, clearDeposit s.world) with
  | error e => rw [hc] at ha; cases ha
  | ok z => rw [h z hc]; rw [hc] at ha; exact ha

/-- C96: two lists of processes that differ by exchanges of independent neighbours make the same
model, and the same runs are possible: the grid, the layers and all attributes agree after every
step. -/
theorem order_of_independent (env : Env R C K) (ps ps' : List (Process K)) (h : Reordered ps ps')
    (start : K) (porosity : ProcState R C K → K) (q : ProcState R C K) (w : World R (C + 2) K)
    (s : ModelState (ProcState R C K) R (C + 2) K)
    (obs : List (Observation (ProcState R C K) R (C + 2) K))
    (s' : ModelState (ProcState R C K) R (C + 2) K) :
    PackageRun env ps start porosity q w s obs s' ↔
      PackageRun env ps' start porosity q w s obs s' := by
  have hist : ∀ {l l' : List (Process K)}, (∀ dt x z,
      runComponents (l.map (Process.component env)) dt x = .ok z ↔
      runComponents (l'.map (Process.component env)) dt x = .ok z) →
      ∀ {s obs s'}, ModelHistory (l.map (Process.component env)) porosity s obs s' →
      ModelHistory (l'.map (Process.component env)) porosity s obs s' := by
    intro l l' hll s obs s' hr
    induction hr with
    | nil s => exact .nil s
    | step hc ha hr ih =>
      exact .step ((hll _ _ _).mp hc) (advanceComponents_congr (fun z hz => (hll _ _ z).mp hz) ha) ih
  have init : ∀ {l l' : List (Process K)}, (∀ x z, createAll env l x = .ok z ↔
      createAll env l' x = .ok z) → packageInit env l start (q, w) = .ok s →
      packageInit env l' start (q, w) = .ok s := by
    intro l l' hll hi
    obtain ⟨p1, w1, hc, hm⟩ := packageInit_ok hi
    unfold packageInit
    rw [(hll _ _).mp hc]
    exact hm
  constructor
  · rintro ⟨h1, h2, h3⟩
    exact ⟨h1, init (reordered_create h) h2, hist (reordered_components h) h3⟩
  · rintro ⟨h1, h2, h3⟩
    exact ⟨h1, init (fun x z => (reordered_create h x z).symm) h2,
      hist (fun dt x z => (reordered_components h dt x z).symm) h3⟩

/-- Nothing can be said about the shoreline and the sea level: the order matters. -/
theorem order_matters :
    (exPackageStep exProcs).toOption.map (fun s => s.world.rowShore.map fun f => f 0) ≠
      (exPackageStep (.shoreline 1 :: exProcs.take 4)).toOption.map
        (fun s => s.world.rowShore.map fun f => f 0) ∧
    (exPackageStep exProcs).toOption.isSome ∧
    (exPackageStep (.shoreline 1 :: exProcs.take 4)).toOption.isSome := by
  decide +kernel

/-- Which pairs of the package's processes are independent. -/
example (f g : Curve ℚ) (P : DiffuserParams ℚ) (t u : Option ℚ) :
    Independent (.seaLevel f 0) (.subsidence g) ∧ Independent (.subsidence g) (.flexure t) ∧
    Independent (.shoreline 1) (.waterFlexure u) ∧ Independent (.diffusion P) (.flexure t) ∧
    Independent .compaction (.fluvial exFluvial) ∧
    ¬ Independent (.seaLevel f 0) (.shoreline 1) ∧ ¬ Independent (.fluvial exFluvial) (.subsidence g) ∧
    ¬ Independent (.flexure t) (.waterFlexure u) ∧ ¬ Independent (.diffusion P) (.shoreline 1) := by
  refine ⟨?_, ?_, ?_, ?_, ?_, ?_, ?_, ?_, ?_⟩ <;>
    simp [Independent, Process.name, fieldsSet, fieldsRead, fieldsAdded]

/-- The processes of the example in another order: the last two of the three exchanged, then the
first two. -/
example (f g : Curve ℚ) (t : Option ℚ) :
    Reordered [.seaLevel f 0, .subsidence g, .flexure t, .fluvial exFluvial, .shoreline 1]
      [.flexure t, .seaLevel f 0, .subsidence g, .fluvial exFluvial, .shoreline 1] :=
  .swap [] _ _ _ (by simp [Independent, Process.name, fieldsSet, fieldsRead, fieldsAdded])
    (.swap [_] _ _ _ (by simp [Independent, Process.name, fieldsSet, fieldsRead, fieldsAdded])
      (.refl _))

end Verif.Props
