import Verif.Props.Setup
import Verif.Spec.NewState

/-!
# What the components of a new model remember (C121)
-/

set_option autoImplicit false
set_option linter.unusedSectionVars false

namespace Verif.Props

open Verif Verif.Spec

section
variable {K : Type} [Field K] [LinearOrder K] [IsStrictOrderedRing K] {R C : ℕ}

/-- Setting the time of the sea level does not concern the other components. -/
theorem startsWith_time {t t' : K} {x : Fin (C + 2) → K} {s : ProcState R C K} {p : Process K}
    (h : StartsWith t x s p) : StartsWith t' x { s with seaTime := t' } p := by
  cases p <;> first | exact h | rfl

/-- The fields that components add to a grid are zero. -/
def Blank (w : World R (C + 2) K) : Prop :=
  (∀ f, w.increment = some f → ∀ n, f n = 0) ∧ (∀ f, w.sand = some f → ∀ n, f n = 0) ∧
  (∀ f, w.sedLoad = some f → ∀ n, f n = 0) ∧ (∀ f, w.waterIncr = some f → ∀ n, f n = 0) ∧
  (∀ q, w.seaIncr = some q → q = 0) ∧ w.waterLoad = none

theorem addZeros_zero {f g : Option (NodeField R C K)} (h : ∀ k, f = some k → ∀ n, k n = 0)
    (hg : addZeros f = g) : ∀ k, g = some k → ∀ n, k n = 0 := by
  subst hg
  intro k hk n
  unfold addZeros at hk
  split at hk
  · cases hk
    exact h _ rfl n
  · cases hk
    rfl

theorem keepsTime_init {t : Option K} {pool : FlexPool R C K}
    (h : flexPoolInit R C t = .ok pool) :
    KeepsTime t pool.isoTime ∧ ∀ r c, pool.pool r c = 0 := by
  unfold flexPoolInit isostasyTime at h
  rcases t with _ | t
  · cases h
    exact ⟨rfl, fun _ _ => rfl⟩
  · dsimp only at h
    by_cases h1 : |t| ≤ 1 / 10 ^ 8
    · rw [if_pos h1] at h
      cases h
      exact ⟨.inl ⟨h1, rfl⟩, fun _ _ => rfl⟩
    · rw [if_neg h1] at h
      by_cases h2 : t < 0
      · rw [if_pos h2] at h; cases h
      · rw [if_neg h2] at h
        cases h
        push Not at h1 h2
        rw [abs_of_nonneg h2] at h1
        exact ⟨.inr ⟨h1, rfl⟩, fun _ _ => rfl⟩

theorem create_blank {env : Env R C K} {p : Process K} {s s' : ProcState R C K}
    {w w' : World R (C + 2) K} (h : p.create env (s, w) = .ok (s', w')) (hw : Blank w) :
    Blank w' := by
  obtain ⟨h1, h2, h3, h4, h5, h6⟩ := hw
  cases p with
  | seaLevel => cases h; exact ⟨h1, h2, h3, h4, h5, h6⟩
  | subsidence curve =>
    unfold Process.create at h
    dsimp only at h
    split at h
    · cases h
    · cases h; exact ⟨addZeros_zero h1 rfl, h2, h3, h4, h5, h6⟩
  | compaction => cases h; exact ⟨h1, h2, h3, h4, h5, h6⟩
  | diffusion P =>
    unfold Process.create diffuserInit at h
    dsimp only at h
    by_cases h0 : P.plainSlope = 0
    · rw [if_pos h0] at h; cases h
    · rw [if_neg h0] at h; cases h; exact ⟨h1, h2, h3, h4, h5, h6⟩
  | fluvial => cases h; exact ⟨addZeros_zero h1 rfl, addZeros_zero h2 rfl, h3, h4, h5, h6⟩
  | flexure t =>
    unfold Process.create at h
    dsimp only at h
    split at h
    · cases h
    · cases h; exact ⟨addZeros_zero h1 rfl, h2, addZeros_zero h3 rfl, h4, h5, h6⟩
  | waterFlexure t =>
    unfold Process.create at h
    dsimp only at h
    split at h
    · cases h
    · cases h
      refine ⟨addZeros_zero h1 rfl, h2, h3, addZeros_zero h4 rfl, ?_, h6⟩
      intro q hq
      cases hs : w.seaIncr with
      | none => simp only [hs, Option.getD_none, Option.some.injEq] at hq; exact hq.symm
      | some q' =>
        simp only [hs, Option.getD_some, Option.some.injEq] at hq
        rw [← hq]
        exact h5 _ hs
  | shoreline a =>
    unfold Process.create at h
    dsimp only at h
    split at h
    · cases h
    · rename_i w1 hs
      cases h
      unfold shorelineInit shorelineUpdate at hs
      dsimp only at hs
      split at hs <;> cases hs
      exact ⟨h1, h2, h3, h4, h5, h6⟩

/-- A component that has just been made starts as described, but for the time of the sea level. -/
theorem create_starts {env : Env R C K} {p : Process K} {s s' : ProcState R C K}
    {w w' : World R (C + 2) K} (h : p.create env (s, w) = .ok (s', w')) (hw : Blank w) :
    StartsWith s'.seaTime env.x s' p := by
  cases p with
  | seaLevel => cases h; rfl
  | subsidence curve =>
    unfold Process.create at h
    dsimp only at h
    split at h
    · cases h
    · rename_i rate hr
      cases h
      exact (atColumns_ok_iff curve env.x).2.1 rate hr
  | compaction => trivial
  | diffusion P =>
    unfold Process.create diffuserInit at h
    dsimp only at h
    by_cases h0 : P.plainSlope = 0
    · rw [if_pos h0] at h; cases h
    · rw [if_neg h0] at h
      cases h
      exact ⟨h0, rfl, rfl, rfl, rfl, rfl, rfl, rfl, rfl, rfl, rfl, rfl, rfl,
        div_mul_cancel₀ _ h0, fun _ => rfl⟩
  | fluvial => trivial
  | flexure t =>
    unfold Process.create at h
    dsimp only at h
    split at h
    · cases h
    · rename_i pool hp
      cases h
      obtain ⟨k1, k2⟩ := keepsTime_init hp
      refine ⟨k1, k2, fun r c => ?_⟩
      change (addZeros w.sedLoad).getD (fun _ => 0) _ = 0
      cases hz : addZeros w.sedLoad with
      | none => rfl
      | some f => exact addZeros_zero hw.2.2.1 hz f rfl _
  | waterFlexure t =>
    unfold Process.create at h
    dsimp only at h
    split at h
    · cases h
    · rename_i pool hp
      cases h
      exact keepsTime_init hp
  | shoreline a => trivial

/-- Making a component of another name leaves a component as it is. -/
theorem create_keeps {env : Env R C K} {p q : Process K} {s s' : ProcState R C K}
    {w w' : World R (C + 2) K} (h : q.create env (s, w) = .ok (s', w')) (hn : q.name ≠ p.name)
    (hs : StartsWith s.seaTime env.x s p) : StartsWith s'.seaTime env.x s' p := by
  cases q with
  | seaLevel => cases h; exact startsWith_time hs
  | subsidence curve =>
    unfold Process.create at h
    dsimp only at h
    split at h
    · cases h
    · cases h
      cases p <;> first | exact hs | exact absurd rfl hn
  | compaction => cases h; exact hs
  | diffusion P =>
    unfold Process.create diffuserInit at h
    dsimp only at h
    by_cases h0 : P.plainSlope = 0
    · rw [if_pos h0] at h; cases h
    · rw [if_neg h0] at h
      cases h
      cases p <;> first | exact hs | exact absurd rfl hn
  | fluvial => cases h; exact hs
  | flexure t =>
    unfold Process.create at h
    dsimp only at h
    split at h
    · cases h
    · cases h
      cases p <;> first | exact hs | exact absurd rfl hn
  | waterFlexure t =>
    unfold Process.create at h
    dsimp only at h
    split at h
    · cases h
    · cases h
      cases p <;> first | exact hs | exact absurd rfl hn
  | shoreline a =>
    unfold Process.create at h
    dsimp only at h
    split at h
    · cases h
    · cases h; exact hs

/-- All components start as described, also if a name is listed twice. -/
theorem createNamed_starts {ext : Externals K} {env : Env R C K} {params : PyDict String Kwargs}
    {names : List String} {s s' : ProcState R C K} {w w' : World R (C + 2) K}
    {ps : List (String × Process K)}
    (h : createNamed ext env params names (s, w) = .ok (ps, s', w')) (hw : Blank w) :
    Blank w' ∧ (∀ q ∈ ps, StartsWith s'.seaTime env.x s' q.2) ∧
    ∀ p cls, processClass params p.name = some cls →
      Process.ofKwargs ext cls (groupOf params p.name) = .ok p →
      StartsWith s.seaTime env.x s p → StartsWith s'.seaTime env.x s' p := by
  induction names generalizing s w ps with
  | nil => cases h; exact ⟨hw, by simp, fun _ _ _ _ hp => hp⟩
  | cons n names ih =>
    rw [createNamed] at h
    split at h
    · cases h
    rename_i cls hcls
    split at h
    · cases h
    rename_i p hp
    split at h
    · cases h
    rename_i s1 hs1
    split at h
    · cases h
    rename_i ps1 s2 hr
    cases h
    obtain ⟨s1, w1⟩ := s1
    obtain ⟨g1, g2, g3⟩ := ih hr (create_blank hs1 hw)
    have hname : p.name = n := (ofKwargs_ok hcls hp).1
    refine ⟨g1, ?_, ?_⟩
    · intro q hq
      rcases List.mem_cons.mp hq with rfl | hq
      · exact g3 p cls (by rw [hname]; exact hcls) (by rw [hname]; exact hp)
          (create_starts hs1 hw)
      · exact g2 q hq
    · intro q cls' hc' hk' hq
      refine g3 q cls' hc' hk' ?_
      by_cases hn : p.name = q.name
      · rw [← hn, hname, hcls] at hc'
        cases hc'
        rw [← hn, hname, hp] at hk'
        cases hk'
        exact create_starts hs1 hw
      · exact create_keeps hs1 hn hq

variable {ext : Externals K} {times : List ℕ} {files : List (List Doc)}
  {fs fs' : FileSystem K (Option K)} {d : Doc} {m : Ready K}

theorem blank_bathymetry {ext : Externals K} {x : Fin (C + 2) → K} {kwds : Kwargs}
    {w : World R (C + 2) K} (h : loadBathymetry ext x kwds (newWorld R (C + 2)) = .ok w) :
    Blank w := by
  unfold loadBathymetry at h
  simp only [bind_eq_ok] at h
  obtain ⟨_, -, path, e1, kind, e2, curve, e3, w1, e4, e5⟩ := h
  cases e5
  unfold bathymetryStep at e4
  split at e4
  · cases e4
  cases e4
  exact ⟨by rintro _ ⟨⟩, by rintro _ ⟨⟩, by rintro _ ⟨⟩, by rintro _ ⟨⟩, by rintro _ ⟨⟩, rfl⟩

/-- C121: before the first step every component has the parameters it was given, nothing waits in
the pools of the two flexures, no load has been seen, and the sea level is that of the start. -/
theorem new_components (h : SetsUp ext times files fs d fs' m) (p : Process K)
    (hp : p ∈ m.live.procs) :
    StartsWith m.clock.start m.env.x m.live.state.comps.1 p := by
  obtain ⟨c, e, hm, hde, hfe⟩ := setsUp_made h
  cases hm with
  | mk hgrid hbathy hinfo hw hnames hclock houtput hdx hx hcreate htime hargs hpor hrows hwriter
      hms =>
    have hb := blank_bathymetry hw
    obtain ⟨-, g2, -⟩ := createNamed_starts hcreate hb
    obtain ⟨ev, -, -, -, k4, -⟩ := modelInit_ok hms
    obtain ⟨q, hq, rfl⟩ := List.mem_map.mp hp
    dsimp only
    rw [k4]
    exact startsWith_time (g2 q (mem_ofPairs hq))

/-- C121: before the first step the fields that components have added are zero, and no shore and no
shelf edge is known. -/
theorem new_fields (h : SetsUp ext times files fs d fs' m) :
    (∀ f, m.live.state.world.increment = some f → ∀ n, f n = 0) ∧
    (∀ f, m.live.state.world.sand = some f → ∀ n, f n = 0) ∧
    (∀ f, m.live.state.world.sedLoad = some f → ∀ n, f n = 0) ∧
    (∀ f, m.live.state.world.waterIncr = some f → ∀ n, f n = 0) ∧
    (∀ q, m.live.state.world.seaIncr = some q → q = 0) ∧
    m.live.state.world.waterLoad = none ∧
    (∃ f, m.live.state.world.rowShore = some f ∧ ∀ r, f r = none) ∧
    (∃ f, m.live.state.world.rowShelf = some f ∧ ∀ r, f r = none) := by
  obtain ⟨c, e, hm, hde, hfe⟩ := setsUp_made h
  cases hm with
  | mk hgrid hbathy hinfo hw hnames hclock houtput hdx hx hcreate htime hargs hpor hrows hwriter
      hms =>
    obtain ⟨⟨g1, g2, g3, g4, g5, g6⟩, -⟩ := createNamed_starts hcreate (blank_bathymetry hw)
    dsimp only
    unfold modelInit at hms
    split at hms
    · dsimp only at hms
      split at hms
      · cases hms
      · rw [g6] at hms
        cases hms
        exact ⟨g1, g2, g3, g4, g5, rfl, ⟨_, rfl, fun _ => rfl⟩, ⟨_, rfl, fun _ => rfl⟩⟩
    · cases hms
    · cases hms

end

/-! ### A configuration in which a component is listed twice -/

/-- A configuration with the two flexures; the first is listed twice. -/
def exFlexures : Doc :=
  .sub "grid" (.leaf "shape" (.list [.num 1, .num 3]) (.leaf "xy_spacing" (.list [.num 2, .num 10])
    .nil)) <|
  .sub "bathymetry" (.leaf "filepath" (.str "bathymetry.csv") .nil) <|
  .sub "clock" (.leaf "start" (.num 7) (.leaf "stop" (.num 200) .nil)) <|
  .leaf "processes" (.list [.str "flexure", .str "sea_level", .str "water_flexure", .str "flexure"]) <|
  .sub "sea_level" (.leaf "filepath" (.str "sea_level.csv") .nil) <|
  .sub "flexure" (.leaf "isostasytime" (.num 100) .nil) <|
  .sub "water_flexure" (.leaf "isostasytime" (.num 0) .nil) <|
  .sub "shoreline" (.leaf "alpha" (.num 1) .nil) <|
  .sub "output" (.leaf "filepath" (.str "new.nc") .nil) .nil

theorem exFlexures_setsUp :
    ∃ fs' m, SetsUp exExt [0] [[exFlexures]] exRunFiles exFlexures fs' m := by
  have h : (runSetup exExt [0] [[exFlexures]] exRunFiles).2.toOption.isSome = true := by
    decide +kernel
  rcases hr : runSetup exExt [0] [[exFlexures]] exRunFiles with ⟨fs', _ | m⟩
  · rw [hr] at h; cases h
  · exact ⟨fs', m, rfl, by simp [exFlexures, DistinctKeys, Doc.keys],
      by simp [exFlexures, NoTuples], hr⟩

/-- C121: the hypotheses hold of this configuration: the sediment waits for a response in 100 years,
the water gets one at once, and both pools are empty. -/
example : ∃ fs' m, SetsUp exExt [0] [[exFlexures]] exRunFiles exFlexures fs' m ∧
    m.live.procs.map Process.name =
      ["flexure", "sea_level", "water_flexure", "fluvial", "shoreline"] ∧
    m.live.state.comps.1.seaTime = 7 ∧
    m.live.state.comps.1.flex.sed.isoTime = some 100 ∧
    m.live.state.comps.1.flex.water.isoTime = none ∧
    (∀ r c, m.live.state.comps.1.flex.sed.pool r c = 0) ∧
    ∀ r c, m.live.state.comps.1.flex.lastLoad r c = 0 := by
  obtain ⟨fs', m, h⟩ := exFlexures_setsUp
  have hnames := (setup_processes h).1 ["flexure", "sea_level", "water_flexure", "flexure"] rfl
  have hset : ∀ sec q, (sec, q) ∈ [("flexure", (100 : ℚ)), ("water_flexure", 0)] →
      ∃ p ∈ m.live.procs, p.name = sec ∧
        ∀ t, isostasyTimeOf p = some t → t = some q := by
    intro sec q hq
    have hs : sec ∈ m.live.procs.map Process.name := by
      rw [hnames]
      simp only [List.mem_cons, List.not_mem_nil, or_false, Prod.mk.injEq] at hq
      rcases hq with ⟨rfl, -⟩ | ⟨rfl, -⟩ <;> decide
    obtain ⟨p, hp, rfl⟩ := List.mem_map.mp hs
    refine ⟨p, hp, rfl, fun t ht => ?_⟩
    obtain ⟨v, hv, hn⟩ := setup_isostasy h p hp t ht
    have hent : entry exFlexures p.name "isostasytime" = some (.inl (.num q)) := by
      simp only [List.mem_cons, List.not_mem_nil, or_false, Prod.mk.injEq] at hq
      rcases hq with ⟨hq, rfl⟩ | ⟨hq, rfl⟩ <;> · rw [hq]; decide +kernel
    have hv : v = some (.inl (.num q)) := by
      rcases hv with ⟨-, h1⟩ | ⟨h1, -⟩ | ⟨h1, -⟩
      · exact h1.trans hent
      · rw [hent] at h1; cases h1
      · rw [hent] at h1; cases h1
    rw [hv] at hn
    rcases hn with ⟨h1, -⟩ | ⟨h1, -⟩ | ⟨q', h1, h2⟩
    · cases h1
    · cases h1
    · cases h1; rw [h2]; simp
  have hclock := setup_clock h
  have hstart : m.clock.start = 7 := by
    rw [show entry exFlexures "clock" "start" = some (.inl (.num 7)) by decide +kernel] at hclock
    rcases hclock.1 with ⟨h1, -⟩ | ⟨q, h1, h2⟩
    · cases h1
    · cases h1; rw [h2]; norm_num
  obtain ⟨p, hp, hpn, hpt⟩ := hset "flexure" 100 (by simp)
  obtain ⟨q, hq, hqn, hqt⟩ := hset "water_flexure" 0 (by simp)
  have h1 := new_components h p hp
  have h2 := new_components h q hq
  have h3 := (setup_surface h).2.2.2.2.2.2
  refine ⟨fs', m, h, ?_, h3.trans hstart, ?_⟩
  · rw [hnames]
    decide
  · cases p <;> simp only [Process.name, String.reduceEq] at hpn
    cases q <;> simp only [Process.name, String.reduceEq] at hqn
    rw [hpt _ rfl] at h1
    rw [hqt _ rfl] at h2
    obtain ⟨k1, k2, k3⟩ := h1
    obtain ⟨k4, -⟩ := h2
    refine ⟨?_, ?_, k2, k3⟩
    · rcases k1 with ⟨k, -⟩ | ⟨-, k⟩
      · norm_num at k
      · exact k
    · rcases k4 with ⟨-, k⟩ | ⟨k, -⟩
      · exact k
      · norm_num at k

end Verif.Props
