import Verif.Spec.RecordEdge
import Verif.Props.OneRecord

/-!
# C152: the shelf edges in the records of an output file
-/

set_option autoImplicit false
set_option linter.unusedSectionVars false

namespace Verif.Props

open Verif Verif.Spec

variable {K : Type*} {R C : ℕ} [Field K] [LinearOrder K] [IsStrictOrderedRing K]

/-- What the shoreline process stores, with the deposit it looks at. -/
theorem shorelineUpdate_edge {env : Env R C K} (hx : (List.ofFn env.x).Pairwise (· ≤ ·)) {alpha : K}
    (ha : alpha ≠ 0) {asserting : Bool} {u u' : World R (C + 2) K}
    (hu : shorelineUpdate env.kind env.xtol env.rtol alpha asserting env.x u = .ok u') :
    u'.deposit = u.deposit ∧ ∃ (a : Fin R → K) (e : Fin R → Option K),
      u'.rowShore = some (fun r => some (a r)) ∧ u'.rowShelf = some e ∧
      ∀ r, IsEdge env.x (fun c => getProfile u.deposit r c) (a r + 3 / alpha) (e r) := by
  unfold shorelineUpdate at hu
  cases ho : overRows (fun r => shorelineFinderRow env.kind env.xtol env.rtol alpha asserting
      (List.ofFn env.x) (rowList u.topo r) (rowList u.deposit r) u.seaLevel) with
  | error e => rw [ho] at hu; cases hu
  | ok res =>
    rw [ho] at hu
    dsimp only at hu
    cases h1 : u.rowShore with
    | none => rw [h1] at hu; cases hu
    | some s =>
      cases h2 : u.rowShelf with
      | none => rw [h1, h2] at hu; cases hu
      | some e =>
        rw [h1, h2] at hu
        cases hu
        refine ⟨rfl, fun r => (res r).1, fun r => (res r).2, rfl, rfl, fun r => ?_⟩
        have hr := overRows_ok ho r
        unfold shorelineFinderRow at hr
        cases hs : shorelineRow env.kind env.xtol env.rtol (List.ofFn env.x) (rowList u.topo r)
            u.seaLevel with
        | error e => rw [hs] at hr; cases hr
        | ok shore =>
          rw [hs] at hr
          dsimp only at hr
          obtain ⟨g1, g2, -⟩ := shelf_edge_spec (List.ofFn env.x) (rowList u.deposit r) hx
            (by simp [rowList]) shore alpha ha
          split at hr
          · rename_i he
            injection hr with hq
            dsimp only
            rw [← hq]
            intro c
            exact g2.mp he _ (List.mem_ofFn.mpr ⟨c, rfl⟩)
          · cases hr
          · rename_i v he
            split_ifs at hr
            injection hr with hq
            dsimp only
            rw [← hq]
            obtain ⟨k, k1, k2, k3, k4, k5⟩ := g1 v he
            rw [List.length_ofFn] at k1
            rw [List.getElem_ofFn] at k3
            refine ⟨⟨k, k1⟩, k3, by rw [k3]; exact k4, fun j hj => ?_⟩
            have := k5 j.val (by rw [List.length_ofFn]; exact j.isLt)
              (by rw [rowList, List.length_ofFn]; exact j.isLt) (by rw [List.getElem_ofFn]; exact hj)
            simp only [rowList, List.getElem_ofFn] at this
            exact this

/-- Only the shoreline process stores shelf edges. -/
theorem component_keepsShelf {env : Env R C K} {p : Process K} (hp : p.name ≠ "shoreline") {dt : K}
    {q q' : ProcState R C K} {w w' : World R (C + 2) K}
    (h : p.component env dt (q, w) = .ok (q', w')) : w'.rowShelf = w.rowShelf := by
  cases p with
  | seaLevel curve start =>
    simp only [Process.component, seaComponent, seaStep] at h
    cases hc : curve (q.seaTime + dt) with
    | error e => simp only [hc] at h; cases h
    | ok v => simp only [hc] at h; cases h; rfl
  | subsidence curve =>
    simp only [Process.component, subsidenceComponent, subsidenceStep] at h
    cases hi : w.increment with
    | none => simp only [hi] at h; cases h
    | some f => simp only [hi] at h; cases h; rfl
  | compaction =>
    simp only [Process.component] at h
    split at h
    · cases h
    · cases h; rfl
  | diffusion P =>
    simp only [Process.component, diffuserComponent] at h
    split at h
    · cases h
    · rename_i s1 w1 hs
      cases h
      obtain ⟨t, d, rfl, ht⟩ := diffuserStep_world hs
      rfl
  | fluvial P =>
    simp only [Process.component, fluvialComponent] at h
    split at h
    · cases h
    · rename_i w1 hs
      cases h
      obtain ⟨f, i, f', d', h1, h2, rfl⟩ := fluvialStep_world hs
      rfl
  | flexure t =>
    simp only [Process.component, flexComponent] at h
    split at h
    · cases h
    · rename_i s1 w1 hs
      cases h
      obtain ⟨f, f', h1, rfl⟩ := sedFlexStep_world hs
      rfl
  | waterFlexure t =>
    simp only [Process.component, flexComponent] at h
    split at h
    · cases h
    · rename_i s1 w1 hs
      cases h
      obtain ⟨f, f', h1, rfl⟩ := waterFlexStep_world hs
      rfl
  | shoreline alpha => exact absurd rfl hp

theorem components_afterEdge {env : Env R C K} {ps : List (Process K)} {dt : K}
    (hps : ∀ p ∈ ps, p.name ∉ ["sea_level", "submarine_diffusion", "fluvial", "shoreline"])
    {q q' : ProcState R C K} {w w' : World R (C + 2) K}
    (h : runComponents (ps.map (Process.component env)) dt (q, w) = .ok (q', w')) :
    w'.deposit = w.deposit ∧ w'.rowShore = w.rowShore ∧ w'.rowShelf = w.rowShelf := by
  induction ps generalizing q w with
  | nil => cases h; exact ⟨rfl, rfl, rfl⟩
  | cons p ps ih =>
    rw [List.map_cons, runComponents] at h
    cases h1 : p.component env dt (q, w) with
    | error e => rw [h1] at h; cases h
    | ok s =>
      obtain ⟨q1, w1⟩ := s
      rw [h1] at h
      have hf := component_frame h1
      have hp := hps p (by simp)
      simp only [List.mem_cons, List.not_mem_nil, or_false, not_or] at hp
      obtain ⟨-, hp2, hp3, hp4⟩ := hp
      obtain ⟨ha, hb, hc⟩ := ih (fun p hp => hps p (by simp [hp])) h
      exact ⟨ha.trans (hf.deposit hp3 hp2), hb.trans (component_keepsShore hp4 h1),
        hc.trans (component_keepsShelf hp4 h1)⟩

/-- After the components of a step. -/
theorem edge_of_components {env : Env R C K} (hx : (List.ofFn env.x).Pairwise (· ≤ ·))
    {ps : List (Process K)} {alpha : K} (hps : EdgeLast alpha ps) (ha : alpha ≠ 0) {dt : K}
    {q q' : ProcState R C K} {w w' : World R (C + 2) K}
    (h1 : runComponents (ps.map (Process.component env)) dt (q, w) = .ok (q', w')) :
    ∃ (a : Fin R → K) (e : Fin R → Option K),
      w'.rowShore = some (fun r => some (a r)) ∧ w'.rowShelf = some e ∧
      ∀ r, IsEdge env.x (fun c => getProfile w'.deposit r c) (a r + 3 / alpha) (e r) := by
  obtain ⟨pre, post, rfl, hpost⟩ := hps
  rw [List.map_append, List.map_cons, runComponents_append] at h1
  cases g1 : runComponents (pre.map (Process.component env)) dt (q, w) with
  | error e => rw [g1] at h1; cases h1
  | ok y =>
    obtain ⟨q1, w1⟩ := y
    rw [g1] at h1
    dsimp only at h1
    rw [runComponents] at h1
    cases g2 : (Process.shoreline alpha).component env dt (q1, w1) with
    | error e => rw [g2] at h1; cases h1
    | ok z =>
      obtain ⟨q2, w2⟩ := z
      rw [g2] at h1
      dsimp only at h1
      obtain ⟨hb, hc, hd⟩ := components_afterEdge hpost h1
      simp only [Process.component, shorelineComponent] at g2
      split at g2
      · cases g2
      · rename_i v hv
        cases g2
        obtain ⟨k1, a, e, k2, k3, k4⟩ := shorelineUpdate_edge hx ha hv
        refine ⟨a, e, hc.trans k2, hd.trans k3, fun r => ?_⟩
        rw [hb, k1]
        exact k4 r

/-- C152: in every record of the output of a run the shelf edge of every row is, of the nodes farther
than `3 / alpha` from the shoreline of the record, the one with the thickest deposit of the record,
the first if there are several; and it is missing exactly if there is no such node. -/
theorem record_shelf_edges {geo : Geometry K} {path : String} {interval : ℕ} {fields : List String}
    {start : K} {env : Env R C K} (hx : (List.ofFn env.x).Pairwise (· ≤ ·)) {ps : List (Process K)}
    {alpha : K} (hps : EdgeLast alpha ps) (ha : alpha ≠ 0)
    {porosity : ProcState R C K × (Writer K × FileSystem K (Option K)) → K}
    {obs : List (Observation (ProcState R C K × (Writer K × FileSystem K (Option K))) R (C + 2) K)}
    {s s' : ModelState (ProcState R C K × (Writer K × FileSystem K (Option K))) R (C + 2) K}
    (hs : OutputSetup (fun _ w => worldView geo w) (geoSizes R (C + 2) geo) path interval fields start
      s)
    (h : ModelHistory (withWriter (fun _ w => worldView geo w) (ps.map (Process.component env)))
      porosity s obs s')
    (hne : obs ≠ []) (hf : fields = [] ∨ "sediment_deposit__thickness" ∈ fields) :
    ∃ d, s'.comps.2.2 path = .dataset d ∧
      ∀ q, q * interval < obs.length → ∀ r : Fin R, ∃ (dz : Fin (C + 2) → K) (shore : K),
        RecordDeposit d q r.val dz shore ∧
        IsEdge env.x dz (shore + 3 / alpha) (fieldValueAt d "row" "x_of_shelf_edge" q r.val) := by
  obtain ⟨d, hd, -, hrec, -⟩ := file_holds_quantities hs h hne
  refine ⟨d, hd, fun q hq r => ?_⟩
  have ho := List.getElem?_eq_getElem hq
  obtain ⟨-, hn, -, -, hsh, hse⟩ := hrec q _ ho
  obtain ⟨s1, -, hrun⟩ := observed_components h ho
  obtain ⟨a, e, k1, k2, k3⟩ := edge_of_components hx hps ha hrun
  refine ⟨fun c => getProfile obs[q * interval].world.deposit r c, a r, ⟨fun c => ?_, ?_⟩, ?_⟩
  · rw [hn "sediment_deposit__thickness" hf ⟨r.val + 1, by omega⟩ c]
    rfl
  · rw [hsh r, k1]
    rfl
  · rw [hse r, k2]
    exact k3 r

/-- C152: so with `alpha` positive no shelf edge in a file is landward of the shoreline in the same
record. -/
theorem record_edge_seaward {geo : Geometry K} {path : String} {interval : ℕ} {fields : List String}
    {start : K} {env : Env R C K} (hx : (List.ofFn env.x).Pairwise (· ≤ ·)) {ps : List (Process K)}
    {alpha : K} (hps : EdgeLast alpha ps) (ha : 0 < alpha)
    {porosity : ProcState R C K × (Writer K × FileSystem K (Option K)) → K}
    {obs : List (Observation (ProcState R C K × (Writer K × FileSystem K (Option K))) R (C + 2) K)}
    {s s' : ModelState (ProcState R C K × (Writer K × FileSystem K (Option K))) R (C + 2) K}
    (hs : OutputSetup (fun _ w => worldView geo w) (geoSizes R (C + 2) geo) path interval fields start
      s)
    (h : ModelHistory (withWriter (fun _ w => worldView geo w) (ps.map (Process.component env)))
      porosity s obs s')
    (hne : obs ≠ []) (hf : fields = [] ∨ "sediment_deposit__thickness" ∈ fields) :
    ∃ d, s'.comps.2.2 path = .dataset d ∧
      ∀ q, q * interval < obs.length → ∀ r : Fin R, ∃ shore : K,
        fieldValueAt d "row" "x_of_shore" q r.val = some shore ∧
        ∀ edge, fieldValueAt d "row" "x_of_shelf_edge" q r.val = some edge →
          shore + 3 / alpha < edge ∧ shore < edge := by
  obtain ⟨d, hd, hall⟩ := record_shelf_edges hx hps ha.ne' hs h hne hf
  refine ⟨d, hd, fun q hq r => ?_⟩
  obtain ⟨dz, shore, h1, h2⟩ := hall q hq r
  refine ⟨shore, h1.shore, fun edge he => ?_⟩
  rw [he] at h2
  obtain ⟨k, k1, k2, -⟩ := h2
  rw [k1] at k2
  have : 0 < 3 / alpha := by positivity
  exact ⟨k2, by linarith⟩

/-- C152: shelf edges come last if they are not listed among the processes. -/
theorem edge_last_unless_listed (fl : Process K) (alpha : K) (ps : List (Process K))
    (hfl : fl.name = "fluvial") (hps : "shoreline" ∉ ps.map Process.name) :
    EdgeLast alpha (requiredToo fl (.shoreline alpha) ps) := by
  unfold requiredToo
  by_cases h : "fluvial" ∈ ps.map Process.name
  · simp only [if_pos h, if_neg hps]
    exact ⟨ps, [], rfl, by simp⟩
  · have h2 : "shoreline" ∉ (ps ++ [fl]).map Process.name := by
      simp only [List.map_append, List.mem_append, not_or]
      refine ⟨hps, ?_⟩
      simp [hfl]
    simp only [if_neg h, if_neg h2]
    exact ⟨ps ++ [fl], [], rfl, by simp⟩

/-! ## Concrete cases -/

/-- A coast with shallow water and then deep water before it. -/
def exSteep : World 1 3 ℚ := { exBeach with
  topo := fun n => if n.2 = 0 then 1 else if n.2 = 1 then -3 else -61 }

/-- What the record after one step of 100 years says: the deposits in the row, the shoreline and the
shelf edge. -/
def exEdge (ps : List (Process ℚ)) : Option (List (Option ℚ) × Option ℚ × Option ℚ) :=
  match createAll exEnv ps (exProcState, exSteep) with
  | .error _ => none
  | .ok (p, w) =>
    match modelInit 0 (fun t x => ({ x.1 with seaTime := t }, x.2))
      (p, (exWriter 1, (fun _ => .absent : FileSystem ℚ (Option ℚ)))) w with
    | .error _ => none
    | .ok s =>
      match advanceComponents (withWriter (fun _ w => worldView exGeo w)
          (ps.map (Process.component exEnv))) (fun _ => 1/2) 100 100 s with
      | .error _ => none
      | .ok s' =>
        match s'.comps.2.2 "out.nc" with
        | .dataset d => some
          ((List.range 3).map fun c =>
            fieldValueAt d "node" "sediment_deposit__thickness" 0 (3 + c),
          fieldValueAt d "row" "x_of_shore" 0 0, fieldValueAt d "row" "x_of_shelf_edge" 0 0)
        | _ => none

/-- C152: mud is deposited at the node in deep water, which is the shelf edge; there is none
if no node is beyond the limit. -/
example : exEdge [.fluvial exFluvial, .shoreline 100] =
      some ([some 0, some 0, some (99999/100000)], some (1/4), some 2) ∧
    exEdge [.fluvial exFluvial, .shoreline 3] =
      some ([some 0, some 0, some (99999/100000)], some (1/4), some 2) ∧
    exEdge [.fluvial exFluvial, .shoreline 1] =
      some ([some 0, some 0, some (99999/100000)], some (1/4), none) := by decide +kernel

/-- C152 needs the order: if the shoreline is listed before the fluvial process it looks at a deposit
that has just been set to zero, and finds its shelf edge at the first node beyond its limit, where
the record has no deposit. -/
theorem edge_of_no_deposit : exEdge [.shoreline 100, .fluvial exFluvial] =
      some ([some 0, some 0, some (99999/100000)], some (1/4), some 1) ∧
    ¬ EdgeLast 100 [.shoreline 100, .fluvial exFluvial] ∧
    ¬ IsEdge (K := ℚ) (fun c : Fin 3 => (c.val : ℚ)) ![0, 0, 99999/100000] (1/4 + 3/100) (some 1) := by
  refine ⟨by decide +kernel, ?_, ?_⟩
  · rintro ⟨pre, post, h, hpost⟩
    rcases pre with _ | ⟨a, _ | ⟨b, pre⟩⟩ <;> simp at h
    subst h
    exact hpost (.fluvial exFluvial) (by simp) (by simp [Process.name])
  · rintro ⟨k, k1, -, k2⟩
    have hk : k = 1 := by
      apply Fin.ext
      have : (k.val : ℚ) = 1 := k1
      exact_mod_cast this
    subst hk
    have : (99999/100000 : ℚ) ≤ 0 := (k2 2 (by norm_num)).1
    norm_num at this

/-- The hypotheses are met. -/
example : EdgeLast 1 exProcs ∧ (List.ofFn exEnv.x).Pairwise (· ≤ ·) ∧
    (exRecordSteps 1 exProcs 1).toOption.isSome :=
  ⟨edge_last_unless_listed _ _ _ rfl (by simp [Process.name]), by decide +kernel, by decide +kernel⟩

end Verif.Props
