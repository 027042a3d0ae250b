import Verif.Props.Retreat
import Verif.Props.Package
import Verif.Props.SeaLevel
import Verif.Spec.ShoreLag

/-!
# The shorelines belong to the surface of the step before (C146)
-/

set_option autoImplicit false
set_option linter.unusedSectionVars false

namespace Verif.Props

open Spec

variable {K : Type*} {R C : ℕ} [Field K] [LinearOrder K] [IsStrictOrderedRing K]

theorem shorelineUpdate_shore {env : Env R C K} {alpha : K} {asserting : Bool}
    {u u' : World R (C + 2) K}
    (hu : shorelineUpdate env.kind env.xtol env.rtol alpha asserting env.x u = .ok u') :
    StoresShore env u' u.topo u.seaLevel := by
  unfold shorelineUpdate at hu
  cases ho : overRows (fun r => shorelineFinderRow env.kind env.xtol env.rtol alpha asserting
      (List.ofFn env.x) (rowList u.topo r) (rowList u.deposit r) u.seaLevel) with
  | error e => rw [ho] at hu; cases hu
  | ok res =>
    rw [ho] at hu
    dsimp only at hu
    cases h1 : u.rowShore with
    | none => rw [h1] at hu; cases hu
    | some s =>
      cases h2 : u.rowShelf with
      | none => rw [h1, h2] at hu; cases hu
      | some e =>
        rw [h1, h2] at hu
        cases hu
        refine ⟨fun r => (res r).1, rfl, fun r => ?_⟩
        have hr := overRows_ok ho r
        unfold shorelineFinderRow at hr
        cases hs : shorelineRow env.kind env.xtol env.rtol (List.ofFn env.x) (rowList u.topo r)
            u.seaLevel with
        | error e => rw [hs] at hr; cases hr
        | ok shore =>
          rw [hs] at hr
          dsimp only at hr
          have : (res r).1 = shore := by
            split at hr
            · injection hr with hq; rw [← hq]
            · cases hr
            · split_ifs at hr
              injection hr with hq; rw [← hq]
          show _ = Except.ok (res r).1
          rw [this]

/-- Only the shoreline process stores shorelines. -/
theorem component_keepsShore {env : Env R C K} {p : Process K} (hp : p.name ≠ "shoreline") {dt : K}
    {q q' : ProcState R C K} {w w' : World R (C + 2) K}
    (h : p.component env dt (q, w) = .ok (q', w')) : w'.rowShore = w.rowShore := by
  cases p with
  | seaLevel curve start =>
    simp only [Process.component, seaComponent, seaStep] at h
    cases hc : curve (q.seaTime + dt) with
    | error e => simp only [hc] at h; cases h
    | ok v => simp only [hc] at h; cases h; rfl
  | subsidence curve =>
    simp only [Process.component, subsidenceComponent, subsidenceStep] at h
    cases hi : w.increment with
    | none => simp only [hi] at h; cases h
    | some f => simp only [hi] at h; cases h; rfl
  | compaction =>
    simp only [Process.component] at h
    split at h
    · cases h
    · cases h; rfl
  | diffusion P =>
    simp only [Process.component, diffuserComponent] at h
    split at h
    · cases h
    · rename_i s1 w1 hs
      cases h
      obtain ⟨t, d, rfl, ht⟩ := diffuserStep_world hs
      rfl
  | fluvial P =>
    simp only [Process.component, fluvialComponent] at h
    split at h
    · cases h
    · rename_i w1 hs
      cases h
      obtain ⟨f, i, f', d', h1, h2, rfl⟩ := fluvialStep_world hs
      rfl
  | flexure t =>
    simp only [Process.component, flexComponent] at h
    split at h
    · cases h
    · rename_i s1 w1 hs
      cases h
      obtain ⟨f, f', h1, rfl⟩ := sedFlexStep_world hs
      rfl
  | waterFlexure t =>
    simp only [Process.component, flexComponent] at h
    split at h
    · cases h
    · rename_i s1 w1 hs
      cases h
      obtain ⟨f, f', h1, rfl⟩ := waterFlexStep_world hs
      rfl
  | shoreline alpha => exact absurd rfl hp

theorem components_topo {env : Env R C K} {ps : List (Process K)} {dt : K}
    {q q' : ProcState R C K} {w w' : World R (C + 2) K}
    (h : runComponents (ps.map (Process.component env)) dt (q, w) = .ok (q', w')) :
    (∀ n : Node R (C + 2), n.2 ≠ 0 → w'.topo n = w.topo n) ∧
      ("submarine_diffusion" ∉ ps.map Process.name → w'.topo = w.topo) := by
  induction ps generalizing q w with
  | nil => cases h; exact ⟨fun _ _ => rfl, fun _ => rfl⟩
  | cons p ps ih =>
    rw [List.map_cons, runComponents] at h
    cases h1 : p.component env dt (q, w) with
    | error e => rw [h1] at h; cases h
    | ok s =>
      obtain ⟨q1, w1⟩ := s
      rw [h1] at h
      have hf := component_frame h1
      obtain ⟨ha, hb⟩ := ih h
      refine ⟨fun n hn => (ha n hn).trans (hf.topo n hn), fun hd => ?_⟩
      simp only [List.map_cons, List.mem_cons, not_or] at hd
      exact (hb hd.2).trans (hf.noDiffusion (Ne.symm hd.1))

theorem components_after {env : Env R C K} {ps : List (Process K)} {dt : K}
    (hps : ∀ p ∈ ps, p.name ≠ "sea_level" ∧ p.name ≠ "submarine_diffusion" ∧ p.name ≠ "shoreline")
    {q q' : ProcState R C K} {w w' : World R (C + 2) K}
    (h : runComponents (ps.map (Process.component env)) dt (q, w) = .ok (q', w')) :
    w'.topo = w.topo ∧ w'.seaLevel = w.seaLevel ∧ w'.rowShore = w.rowShore := by
  induction ps generalizing q w with
  | nil => cases h; exact ⟨rfl, rfl, rfl⟩
  | cons p ps ih =>
    rw [List.map_cons, runComponents] at h
    cases h1 : p.component env dt (q, w) with
    | error e => rw [h1] at h; cases h
    | ok s =>
      obtain ⟨q1, w1⟩ := s
      rw [h1] at h
      have hf := component_frame h1
      obtain ⟨hp1, hp2, hp3⟩ := hps p (by simp)
      obtain ⟨ha, hb, hc⟩ := ih (fun p hp => hps p (by simp [hp])) h
      exact ⟨ha.trans (hf.noDiffusion hp2), hb.trans (hf.seaLevel hp1),
        hc.trans (component_keepsShore hp3 h1)⟩

/-- After the components of a step. -/
theorem shore_of_components {env : Env R C K} {ps : List (Process K)} (hps : ShoreLast ps) {dt : K}
    {q q' : ProcState R C K} {w w' : World R (C + 2) K}
    (h1 : runComponents (ps.map (Process.component env)) dt (q, w) = .ok (q', w')) :
    StoresShore env w' w'.topo w'.seaLevel := by
  obtain ⟨pre, alpha, post, rfl, hpost⟩ := hps
  rw [List.map_append, List.map_cons, runComponents_append] at h1
  cases g1 : runComponents (pre.map (Process.component env)) dt (q, w) with
  | error e => rw [g1] at h1; cases h1
  | ok y =>
    obtain ⟨q1, w1⟩ := y
    rw [g1] at h1
    dsimp only at h1
    rw [runComponents] at h1
    cases g2 : (Process.shoreline alpha).component env dt (q1, w1) with
    | error e => rw [g2] at h1; cases h1
    | ok z =>
      obtain ⟨q2, w2⟩ := z
      rw [g2] at h1
      dsimp only at h1
      obtain ⟨ha, hb, hc⟩ := components_after hpost h1
      have hf := component_frame g2
      have hst : StoresShore env w2 w1.topo w1.seaLevel := by
        simp only [Process.component, shorelineComponent] at g2
        split at g2
        · cases g2
        · rename_i v hv
          cases g2
          exact shorelineUpdate_shore hv
      rw [← hf.noDiffusion (by simp [Process.name]), ← hf.seaLevel (by simp [Process.name]), ← ha,
        ← hb] at hst
      obtain ⟨b, hb1, hb2⟩ := hst
      exact ⟨b, hc.trans hb1, hb2⟩

/-- C146: the shorelines that a step stores are those of the surface that it began with, under the
sea that it ends with; the diffusion has changed the surface in the first column only. -/
theorem shore_of_step {env : Env R C K} {ps : List (Process K)} (hps : ShoreLast ps)
    {porosity : ProcState R C K → K} {time dt : K}
    {s s' : ModelState (ProcState R C K) R (C + 2) K}
    (h : advanceComponents (ps.map (Process.component env)) porosity time dt s = .ok s') :
    ∃ topo : NodeField R (C + 2) K, StoresShore env s'.world topo s'.world.seaLevel ∧
      (∀ n, n.2 ≠ 0 → topo n = s.world.topo n) ∧
      ("submarine_diffusion" ∉ ps.map Process.name → topo = s.world.topo) := by
  obtain ⟨p, w, ev, w3, a, h1, h2, h3, h4, rfl⟩ := advanceComponents_ok h
  obtain ⟨ht1, ht2⟩ := components_topo h1
  obtain ⟨b, hb1, hb2⟩ := shore_of_components hps h1
  obtain ⟨-, -, -, hu1, -⟩ := updateFields_fields h3
  obtain ⟨-, -, -, -, hu2, -⟩ := updateFields_ok h3
  refine ⟨w.topo, ⟨b, ?_, fun r => ?_⟩, ht1, ht2⟩
  · show w3.rowShore = _
    rw [hu1]
    exact hb1
  · show shorelineRow _ _ _ _ _ w3.seaLevel = _
    rw [hu2]
    exact hb2 r

/-- C146: the same for `Sequence.update`. -/
theorem shore_of_update {env : Env R C K} {ps : List (Process K)} (hps : ShoreLast ps)
    {time dt : K} {s s' : SeqState (ProcState R C K) R (C + 2) K}
    (h : seqUpdate (ps.map (Process.component env)) dt time s = .ok s') :
    ∃ topo : NodeField R (C + 2) K, StoresShore env s'.world topo s'.world.seaLevel ∧
      (∀ n, n.2 ≠ 0 → topo n = s.world.topo n) ∧
      ("submarine_diffusion" ∉ ps.map Process.name → topo = s.world.topo) := by
  unfold seqUpdate at h
  cases h1 : runComponents (ps.map (Process.component env)) dt (s.comps, s.world) with
  | error e => rw [h1] at h; cases h
  | ok pw =>
    obtain ⟨p, w⟩ := pw
    rw [h1] at h
    dsimp only at h
    obtain ⟨ht1, ht2⟩ := components_topo h1
    obtain ⟨b, hb1, hb2⟩ := shore_of_components hps h1
    cases h2 : seqAddLayer time { s with comps := p, world := w } (atCells w.deposit) with
    | error e => rw [h2] at h; cases h
    | ok s1 =>
      rw [h2] at h
      cases h
      have hk : s1.world.rowShore = w.rowShore ∧ s1.world.seaLevel = w.seaLevel := by
        unfold seqAddLayer at h2
        dsimp only at h2
        split at h2
        · cases h2
        · split at h2
          · cases h2
          · split at h2
            · cases h2
            · cases h2
              exact ⟨rfl, rfl⟩
      refine ⟨w.topo, ⟨b, hk.1.trans hb1, fun r => ?_⟩, ht1, ht2⟩
      show shorelineRow _ _ _ _ _ s1.world.seaLevel = _
      rw [hk.2]
      exact hb2 r

/-- C146: if shorelines are not listed among the processes they come last. -/
theorem shore_last_unless_listed (fl : Process K) (alpha : K) (ps : List (Process K))
    (hfl : fl.name = "fluvial") (hps : "shoreline" ∉ ps.map Process.name) :
    ShoreLast (requiredToo fl (.shoreline alpha) ps) := by
  unfold requiredToo
  by_cases h : "fluvial" ∈ ps.map Process.name
  · simp only [if_pos h, if_neg hps]
    exact ⟨ps, alpha, [], rfl, by simp⟩
  · have h2 : "shoreline" ∉ (ps ++ [fl]).map Process.name := by
      simp only [List.map_append, List.mem_append, not_or]
      refine ⟨hps, ?_⟩
      simp [hfl]
    simp only [if_neg h, if_neg h2]
    exact ⟨ps ++ [fl], alpha, [], rfl, by simp⟩

/-- C146 (partial): if the step leaves the surface as it was, its shorelines are those of the surface
that they are stored with. Missing: any change of the surface, for which see `shore_lags`. -/
theorem shore_current_partial {env : Env R C K} {ps : List (Process K)} (hps : ShoreLast ps)
    (hd : "submarine_diffusion" ∉ ps.map Process.name)
    {porosity : ProcState R C K → K} {time dt : K}
    {s s' : ModelState (ProcState R C K) R (C + 2) K}
    (h : advanceComponents (ps.map (Process.component env)) porosity time dt s = .ok s')
    (hs : ∀ r, rowList s'.world.topo r = rowList s.world.topo r) :
    StoresShore env s'.world s'.world.topo s'.world.seaLevel := by
  obtain ⟨topo, ⟨a, ha1, ha2⟩, -, ht⟩ := shore_of_step hps h
  refine ⟨a, ha1, fun r => ?_⟩
  rw [hs r, ← ht hd]
  exact ha2 r

/-- C146 (partial): where a row sinks in the step, or stays, the stored shoreline is not landward of
the shoreline of the surface that it is stored with; where it rises, not seaward. With linear
interpolation and without diffusion, for rows that begin with land or that are all submerged. -/
theorem shore_lags_partial {env : Env R C K} (hkind : env.kind = linearKind)
    (hx : ∀ i j, i < j → env.x i < env.x j) {ps : List (Process K)} (hps : ShoreLast ps)
    (hd : "submarine_diffusion" ∉ ps.map Process.name)
    {porosity : ProcState R C K → K} {time dt : K}
    {s s' : ModelState (ProcState R C K) R (C + 2) K}
    (h : advanceComponents (ps.map (Process.component env)) porosity time dt s = .ok s') :
    ∃ a : Fin R → K, s'.world.rowShore = some (fun r => some (a r)) ∧
      ∀ r, LandFirst (rowList s.world.topo r) s'.world.seaLevel →
        LandFirst (rowList s'.world.topo r) s'.world.seaLevel →
        ∀ now, shorelineRow env.kind env.xtol env.rtol (List.ofFn env.x) (rowList s'.world.topo r)
          s'.world.seaLevel = .ok now →
        ((∀ c, getProfile s'.world.topo r c ≤ getProfile s.world.topo r c) → now ≤ a r) ∧
        ((∀ c, getProfile s.world.topo r c ≤ getProfile s'.world.topo r c) → a r ≤ now) := by
  obtain ⟨topo, ⟨a, ha1, ha2⟩, -, ht⟩ := shore_of_step hps h
  refine ⟨a, ha1, fun r hl hl' now hnow => ?_⟩
  have har := ha2 r
  rw [ht hd] at har
  rw [hkind] at har hnow
  have hxs : (List.ofFn env.x).Pairwise (· < ·) := by
    rw [List.pairwise_ofFn]
    exact hx
  refine ⟨fun hle => ?_, fun hle => ?_⟩
  · exact higher_land_partial hxs (by simp) (by simp [rowList]) (by simp [rowList])
      (fun j hj hj' => by simp only [rowList, List.getElem_ofFn]; exact hle _) hl' hl hnow har
  · exact higher_land_partial hxs (by simp) (by simp [rowList]) (by simp [rowList])
      (fun j hj hj' => by simp only [rowList, List.getElem_ofFn]; exact hle _) hl hl' har hnow

/-- C144 (partial), in a run: if the surface was nowhere higher after a step than before and the sea
does not fall in the next, the next step does not move the shoreline out. With linear interpolation
and without diffusion, for rows that begin with land or that are all submerged. -/
theorem transgression_partial {env : Env R C K} (hkind : env.kind = linearKind)
    (hx : ∀ i j, i < j → env.x i < env.x j) {ps : List (Process K)} (hps : ShoreLast ps)
    (hd : "submarine_diffusion" ∉ ps.map Process.name)
    {porosity : ProcState R C K → K} {time dt time' dt' : K}
    {s s1 s2 : ModelState (ProcState R C K) R (C + 2) K}
    (h : advanceComponents (ps.map (Process.component env)) porosity time dt s = .ok s1)
    (h' : advanceComponents (ps.map (Process.component env)) porosity time' dt' s1 = .ok s2)
    (hland : ∀ r c, getProfile s1.world.topo r c ≤ getProfile s.world.topo r c)
    (hsea : s1.world.seaLevel ≤ s2.world.seaLevel)
    (hrow : ∀ r, LandFirst (rowList s.world.topo r) s1.world.seaLevel)
    (hrow' : ∀ r, LandFirst (rowList s1.world.topo r) s2.world.seaLevel) :
    ∃ a b : Fin R → K, s1.world.rowShore = some (fun r => some (a r)) ∧
      s2.world.rowShore = some (fun r => some (b r)) ∧ ∀ r, b r ≤ a r := by
  obtain ⟨topo, ⟨a, ha1, ha2⟩, -, ht⟩ := shore_of_step hps h
  obtain ⟨topo', ⟨b, hb1, hb2⟩, -, ht'⟩ := shore_of_step hps h'
  refine ⟨a, b, ha1, hb1, fun r => ?_⟩
  have har := ha2 r
  have hbr := hb2 r
  rw [ht hd, hkind] at har
  rw [ht' hd, hkind] at hbr
  have hxs : (List.ofFn env.x).Pairwise (· < ·) := by
    rw [List.pairwise_ofFn]
    exact hx
  exact more_emerged_partial hxs (by simp) (by simp [rowList]) (by simp [rowList])
    (fun j hj hj' => by
      simp only [rowList, List.getElem_ofFn]
      exact sub_le_sub (hland _ _) hsea) (hrow' r) (hrow r) hbr har

/-! ### Where the property fails -/

/-- A coast that sinks by 1 m in a step, under a sea that stays at 0. -/
def exSinking : List (Process ℚ) :=
  [.subsidence fun _ => .ok (-1/100), .fluvial exFluvial, .shoreline 1]

/-- The model after one step. -/
def exSunk : Except Err (ModelState (ProcState 1 1 ℚ) 1 3 ℚ) :=
  match packageInit exEnv exSinking 0 (exProcState, exBeach) with
  | .error e => .error e
  | .ok s => advanceComponents (exSinking.map (Process.component exEnv)) (fun _ => 1/2) 100 100 s

/-- The stored shoreline and the shoreline of the surface. -/
def exStoredAndTrue (s : ModelState (ProcState 1 1 ℚ) 1 3 ℚ) : Option ℚ × Option ℚ :=
  ((s.world.rowShore.map fun f => f 0).getD none,
    (shorelineRow exEnv.kind exEnv.xtol exEnv.rtol (List.ofFn exEnv.x) (rowList s.world.topo 0)
      s.world.seaLevel).toOption)

/-- C146, negation: the coast is at 1, where it was before the surface sank, and the surface that
it is stored with has its coast at 1/2. -/
theorem shore_not_current :
    ∃ s, exSunk = .ok s ∧ exStoredAndTrue s = (some 1, some (1/2)) ∧
      ¬ StoresShore exEnv s.world s.world.topo s.world.seaLevel := by
  have h : exSunk.toOption.map exStoredAndTrue = some (some 1, some (1/2)) := by decide +kernel
  cases e : exSunk with
  | error x => rw [e] at h; cases h
  | ok s =>
    rw [e] at h
    have h' : exStoredAndTrue s = (some 1, some (1/2)) := by
      simpa [Except.toOption] using h
    refine ⟨s, rfl, h', ?_⟩
    rintro ⟨a, ha, hs⟩
    unfold exStoredAndTrue at h'
    rw [ha, hs 0] at h'
    have h1 : a 0 = 1 := by simpa using congrArg Prod.fst h'
    have h2 : a 0 = 1/2 := by simpa [Except.toOption] using congrArg Prod.snd h'
    rw [h1] at h2
    norm_num at h2

/-- The same with a sea that falls and land that stays, and with shorelines listed first. -/
def exListedFirst : List (Process ℚ) :=
  [.shoreline 1, .fluvial exFluvial, .seaLevel (fun t => .ok (-t / 200)) 0]

/-- The model after one step. -/
def exFallen : Except Err (ModelState (ProcState 1 1 ℚ) 1 3 ℚ) :=
  match packageInit exEnv exListedFirst 0 (exProcState, exBeach) with
  | .error e => .error e
  | .ok s =>
    advanceComponents (exListedFirst.map (Process.component exEnv)) (fun _ => 1/2) 100 100 s

/-- C146, negation: if shorelines are listed before the sea level, they are those under the sea of
the step before: 1, where the surface has its coast at 3/2 when the sea is at -1/2. -/
theorem shore_of_last_sea :
    exFallen.toOption.map exStoredAndTrue = some (some 1, some (3/2)) ∧ ¬ ShoreLast exListedFirst := by
  refine ⟨by decide +kernel, ?_⟩
  rintro ⟨pre, alpha, post, h, hpost⟩
  unfold exListedFirst at h
  rcases pre with _ | ⟨a, _ | ⟨b, _ | ⟨c, pre⟩⟩⟩ <;> simp at h
  obtain ⟨-, rfl⟩ := h
  exact (hpost _ (List.mem_cons_of_mem _ List.mem_cons_self)).1 rfl

/-! ### The hypotheses are met -/

/-- Processes that are not listed come last. -/
example : ShoreLast exSinking :=
  ⟨[.subsidence fun _ => .ok (-1/100), .fluvial exFluvial], 1, [], rfl, by simp⟩

example : "submarine_diffusion" ∉ exSinking.map Process.name := by
  simp [exSinking, Process.name]

/-- The rows of the example begin with land, before the step and after it, and the one sinks. -/
example : ∃ s, exSunk = .ok s ∧ LandFirst (rowList s.world.topo 0) s.world.seaLevel ∧
    rowList s.world.topo 0 = [1, -1, -1] ∧ rowList exBeach.topo 0 = [1, 0, -1] := by
  have h : exSunk.toOption.map (fun s => (rowList s.world.topo 0, s.world.seaLevel)) =
      some ([1, -1, -1], 0) := by decide +kernel
  cases e : exSunk with
  | error x => rw [e] at h; cases h
  | ok s =>
    rw [e] at h
    have h' : (rowList s.world.topo 0, s.world.seaLevel) = ([1, -1, -1], 0) := by
      simpa [Except.toOption] using h
    have h1 : rowList s.world.topo 0 = [1, -1, -1] := congrArg Prod.fst h'
    have h2 : s.world.seaLevel = 0 := congrArg Prod.snd h'
    refine ⟨s, rfl, Or.inl ⟨1, ?_, ?_⟩, h1, by decide +kernel⟩
    · rw [h1]; rfl
    · rw [h2]; norm_num

/-- Land that stays: the step leaves the surface as it was. -/
example : (match packageInit exEnv [.fluvial exFluvial, .shoreline 1] 0 (exProcState, exBeach) with
    | .error _ => none
    | .ok s => (advanceComponents ([.fluvial exFluvial, .shoreline 1].map (Process.component exEnv))
        (fun _ => 1/2) 100 100 s).toOption.map fun s' =>
          decide (rowList s'.world.topo 0 = rowList s.world.topo 0)) = some true := by
  decide +kernel

end Verif.Props
