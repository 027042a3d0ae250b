import Verif.Lemmas.Setup

/-! # Changes of what is not a component

C110: a later section can only change components; a configuration without a file for the start of the
run fails as soon as the time of its first file is reached. -/

set_option autoImplicit false
set_option linter.unusedSectionVars false

namespace Verif.Props

open Spec

/-! ### Keys of expanded dictionaries -/

theorem keys_inSub {d d' : Doc} {k : String} {f : Doc → Except Err Doc}
    (h : d.inSub k f = .ok d') (k' : String) : k' ∈ d'.keys ↔ k' ∈ d.keys ∨ k' = k := by
  induction d generalizing d' with
  | nil =>
    simp only [Doc.inSub] at h
    split at h
    · cases h; simp [Doc.keys]
    · cases h
  | leaf k1 v r ih =>
    simp only [Doc.inSub] at h
    split_ifs at h
    split at h
    · rename_i r' hr
      cases h
      simp only [Doc.keys, List.mem_cons, ih hr]
      tauto
    · cases h
  | sub k1 e r _ ih =>
    simp only [Doc.inSub] at h
    split_ifs at h with hk
    · subst hk
      split at h
      · cases h
        simp only [Doc.keys, List.mem_cons]
        tauto
      · cases h
    · split at h
      · rename_i r' hr
        cases h
        simp only [Doc.keys, List.mem_cons, ih hr]
        tauto
      · cases h

theorem keys_addItem {p : List String} {v : Leaf} {d d' : Doc} (h : Doc.addItem p v d = .ok d')
    (k : String) : k ∈ d'.keys ↔ k ∈ d.keys ∨ p.head? = some k := by
  match p with
  | [] => cases h
  | [n] =>
    simp only [Doc.addItem, Except.ok.injEq] at h
    subst h
    rw [Doc.keys_setLeaf]
    simp [or_comm, eq_comm]
  | n :: n' :: ns =>
    simp only [Doc.addItem] at h
    rw [keys_inSub h]
    simp [eq_comm]

theorem keys_addItems {f : Flat} {d d' : Doc} (h : Doc.addItems f d = .ok d') (k : String) :
    k ∈ d'.keys ↔ k ∈ d.keys ∨ ∃ p ∈ f.keys, p.head? = some k := by
  induction f generalizing d with
  | nil =>
    simp only [Doc.addItems, Except.ok.injEq] at h
    subst h
    simp [PyDict.keys]
  | cons q f ih =>
    obtain ⟨p, v⟩ := q
    simp only [Doc.addItems] at h
    split at h
    · rename_i d1 h1
      rw [ih h, keys_addItem h1]
      simp only [PyDict.keys, List.map_cons, List.mem_cons, exists_eq_or_imp]
      tauto
    · cases h

theorem keys_expand {f : Flat} {d : Doc} (h : Doc.expand f = .ok d) (k : String) :
    k ∈ d.keys ↔ ∃ p ∈ f.keys, p.head? = some k := by
  rw [keys_addItems h]
  simp [Doc.keys]

/-! ### Names of components -/

section

variable {K : Type*} [Field K] [LinearOrder K] {R C : ℕ} {A : Type*}

theorem setattrNamed_names {env : Env R C K} {inp : Inputs K} {comp name : String} {v : PyValue}
    {ps ps' : List (Process K)} {s s' : ProcState R C K × World R (C + 2) K}
    (h : setattrNamed env inp comp name v ps s = .ok (ps', s')) :
    ps'.map Process.name = ps.map Process.name := by
  induction ps generalizing ps' with
  | nil => cases h
  | cons p ps ih =>
    simp only [setattrNamed] at h
    split_ifs at h
    · split at h
      · cases h
      · rename_i q s1 hq
        cases h
        simp [Process.setattr_name hq]
    · split at h
      · cases h
      · rename_i qs s1 hq
        cases h
        simp [ih hq]

theorem setattr_componentNames {env : Env R C K} {inp : Inputs K} {comp name : String}
    {v : PyValue} {l l' : Live R C K A} (h : l.setattr env inp comp name v = .ok l') :
    componentNames l' = componentNames l := by
  unfold Live.setattr at h
  split_ifs at h
  · split at h
    · cases h
    · cases h; rfl
  · split at h
    · cases h
    · rename_i ps s w hq
      cases h
      simp only [componentNames, setattrNamed_names hq]

theorem setSection_componentNames {env : Env R C K} {inp : Inputs K} {comp : String} {d : Doc}
    {l l' : Live R C K A} (h : l.setSection env inp comp d = .ok l') :
    componentNames l' = componentNames l := by
  induction d generalizing l with
  | nil => cases h; rfl
  | leaf k v r ih =>
    simp only [Live.setSection] at h
    split at h
    · cases h
    · rename_i l1 h1
      rw [ih h, setattr_componentNames h1]
  | sub k e r _ ih =>
    simp only [Live.setSection] at h
    split at h
    · cases h
    · rename_i l1 h1
      rw [ih h, setattr_componentNames h1]

/-- `set_params` succeeds only with sections that are components. -/
theorem setParams_components {env : Env R C K} {inp : Inputs K} {d : Doc} {l l' : Live R C K A}
    (h : l.setParams env inp d = .ok l') : ∀ k ∈ d.keys, k ∈ componentNames l := by
  induction d generalizing l with
  | nil => simp [Doc.keys]
  | leaf k v r ih =>
    simp only [Live.setParams] at h
    split_ifs at h
  | sub k e r _ ih =>
    simp only [Live.setParams] at h
    split_ifs at h with hk
    split at h
    · cases h
    · rename_i l1 h1
      intro k' hk'
      rcases List.mem_cons.mp hk' with rfl | hk'
      · exact (Live.has_iff l k').mp hk
      · rw [← setSection_componentNames h1]
        exact ih h k' hk'

/-- C110: in a round that does not fail, everything that is new or different in the configuration
belongs to a component of the model: a section such as `clock`, `grid` or `processes`, or a
process that is not part of the model, cannot change. -/
theorem change_needs_component (env : Env R C K) (inp : Inputs K) (c : Cfg) (docs : List Doc)
    (hs : c.times.Pairwise (· ≤ ·)) (hc : c.dicts = docs.map stored)
    (hd : ∀ d ∈ docs, DistinctKeys d) (ht : ∀ d ∈ docs, NoTuples d) (l : Live R C K A)
    (s : Cfg × Live R C K A) (h : liveRound env inp (c, l) = .ok s) (k : String)
    (path : List String)
    (hne : configAt (c.times.zip docs) (c.time + 1) (k :: path) ≠
      configAt (c.times.zip docs) c.time (k :: path)) : k ∈ componentNames l := by
  have hcall : ∀ t p, ((c.call t).get? p).map Leaf.thaw = configAt (c.times.zip docs) t p := by
    intro t p
    rw [Cfg.call_eq_configAt hs hc hd, configAt_thaw ht]
  rw [← hcall, ← hcall] at hne
  have hne' : (c.call (c.time + 1)).get? (k :: path) ≠ (c.call c.time).get? (k :: path) :=
    fun he => hne (by rw [he])
  unfold liveRound at h
  dsimp only at h
  split at h
  · cases h
  rename_i d c' hu
  split at h
  · cases h
  rename_i l' hp
  refine setParams_components hp k ?_
  unfold Cfg.update at hu
  dsimp only at hu
  split_ifs at hu with hlt
  · split at hu
    · cases hu
    rename_i f hf
    split at hu
    · cases hu
    rename_i e he
    cases hu
    refine (keys_expand he k).mpr ⟨k :: path, ?_, rfl⟩
    cases hv : (c.call (c.time + 1)).get? (k :: path) with
    | none =>
      have := Cfg.call_mono c hs (by
        rw [hc]
        intro e he
        obtain ⟨d, _, rfl⟩ := List.mem_map.mp he
        exact nodup_stored d) (show c.time ≤ c.time + 1 by linarith) _ hv
      exact absurd (hv.trans this.symm) hne'
    | some v =>
      have := (Cfg.diff_ok hf (k :: path) v).mpr ⟨hv, fun hx => hne' (hv.trans hx.symm)⟩
      exact List.mem_map_of_mem (PyDict.mem_of_get? this)
  · exfalso
    refine hne' ?_
    have hb : c.bisectTimes (c.time + 1) = c.bisectTimes c.time :=
      le_antisymm (not_lt.mp hlt) (bisectRight_mono c.times hs (by linarith))
    unfold Cfg.call
    rw [hb]

end

/-! ### No file for the start -/

variable {K : Type} [Field K] [LinearOrder K] [IsStrictOrderedRing K]

theorem find?_erase_other (d : Doc) {k k' : String} (h : k' ≠ k) :
    (d.erase k).find? k' = d.find? k' := by
  induction d with
  | nil => rfl
  | leaf k1 v r ih =>
    simp only [Doc.erase]
    split_ifs with h1
    · subst h1
      simp [Doc.find?, h.symm]
    · simp only [Doc.find?, ih]
  | sub k1 e r _ ih =>
    simp only [Doc.erase]
    split_ifs with h1
    · subst h1
      simp [Doc.find?, h.symm]
    · simp only [Doc.find?, ih]

theorem bisect_all_later {times : List ℚ} {x : ℚ} (hs : times.Pairwise (· ≤ ·))
    (h : ∀ t ∈ times, x < t) : bisectRight times x = 0 := by
  by_contra hn
  have h1 := (bisectRight_spec times x hs).1
  have h2 := (bisectRight_spec times x hs).2.1 0 (by omega) (by omega)
  exact absurd (h _ (List.getElem_mem _)) (not_lt.mpr h2)

theorem grid_not_component {R C : ℕ} {A : Type} (l : Live R C K A) :
    "grid" ∉ componentNames l := by
  simp only [componentNames, List.mem_append, List.mem_map, List.mem_singleton, not_or, not_exists,
    not_and]
  refine ⟨fun p _ => ?_, by decide⟩
  cases p <;> simp [Process.name]

/-- What is known during a run that started without a file for its start. -/
theorem passes_before {ext : Externals K} {t : ℕ} {ts : List ℕ} {files : List (List Doc)}
    {fs fs' : FileSystem K (Option K)} {m : Ready K}
    (h : runSetup ext (t :: ts) files fs = (fs', .ok m)) (hs : (t :: ts).Pairwise (· ≤ ·))
    (ht : 0 < t) {clock : Clock K} {s : Cfg × Live m.R m.C K (Option K)} (hp : Passes m clock s) :
    s.1.times = (t :: ts).map (fun t : ℕ => (t : ℚ)) ∧ s.1.dicts = m.cfg.dicts ∧
      ∃ j : ℕ, s.1.time = j ∧ j < t := by
  obtain ⟨docs, c, e, _, hinit, he, hmade⟩ := runSetup_made h
  obtain ⟨h1, h2, h3, d0, ds, rfl, hcur⟩ := Cfg.init_ok hinit
  have hcfg : m.cfg = c := by cases hmade; rfl
  have hgrid : "grid" ∈ e.keys := by
    cases hmade with
    | mk hgrid =>
      unfold sectionOf at hgrid
      split at hgrid
      · cases hgrid
      · cases hgrid
      · rename_i s hf
        by_contra hn
        rw [find?_erase_other e (by decide), (Doc.find?_eq_none_iff e "grid").mpr hn] at hf
        cases hf
  obtain ⟨p, hp1, hp2⟩ := (keys_expand he "grid").mp hgrid
  rw [hcur] at hp1
  have hsq : ((t :: ts).map fun t : ℕ => (t : ℚ)).Pairwise (· ≤ ·) := by
    rw [List.pairwise_map]
    exact hs.imp fun h => by exact_mod_cast h
  have hall : ∀ j : ℕ, j < t → ∀ x ∈ (t :: ts).map (fun t : ℕ => (t : ℚ)), (j : ℚ) < x := by
    intro j hj x hx
    obtain ⟨n, hn, rfl⟩ := List.mem_map.mp hx
    have : t ≤ n := by
      rcases List.mem_cons.mp hn with rfl | hn
      · exact le_rfl
      · exact List.rel_of_pairwise_cons hs hn
    exact_mod_cast lt_of_lt_of_le hj this
  induction hp with
  | start => exact ⟨by rw [hcfg, h1], rfl, 0, by rw [hcfg, h3]; simp, ht⟩
  | step _ _ ih => exact ih
  | @change _ s s' _ hr ih =>
    obtain ⟨i1, i2, j, i3, i4⟩ := ih
    unfold liveRound at hr
    split at hr
    · cases hr
    rename_i d c' hu
    split at hr
    · cases hr
    rename_i l' hset
    cases hr
    unfold Cfg.update at hu
    dsimp only at hu
    split_ifs at hu with hlt
    · exfalso
      split at hu
      · cases hu
      rename_i f hf
      split at hu
      · cases hu
      rename_i g hg
      cases hu
      refine grid_not_component s.2 (setParams_components hset "grid" ?_)
      refine (keys_expand hg "grid").mpr ⟨p, ?_, hp2⟩
      have hd0 : s.1.dicts = stored d0 :: ds.map stored := by
        rw [i2, hcfg, h2, List.map_cons]
      have hnd : ∀ e ∈ s.1.dicts, e.keys.Nodup := by
        rw [i2, hcfg, h2]
        intro e he
        obtain ⟨d, _, rfl⟩ := List.mem_map.mp he
        exact nodup_stored d
      have h0 : s.1.bisectTimes s.1.time = 0 := by
        unfold Cfg.bisectTimes
        rw [i1, i3]
        exact bisect_all_later hsq (hall j i4)
      cases hv : (s.1.call (s.1.time + 1)).get? p with
      | none =>
        rw [Cfg.get?_call _ hnd, List.findSome?_eq_none_iff] at hv
        have := hv (stored d0) (by
          rw [List.mem_reverse, hd0]
          obtain ⟨n, hn⟩ : ∃ n, s.1.bisectTimes (s.1.time + 1) = n + 1 :=
            Nat.exists_eq_succ_of_ne_zero (by omega)
          rw [hn, List.take_succ_cons]
          exact List.mem_cons_self)
        exact absurd hp1 ((PyDict.get?_eq_none_iff _ _).mp this)
      | some v =>
        have := (Cfg.diff_ok hf p v).mpr ⟨hv, by
          unfold Cfg.call
          rw [h0]
          simp⟩
        exact List.mem_map_of_mem (PyDict.mem_of_get? this)
    · cases hu
      refine ⟨i1, i2, j + 1, by dsimp only; rw [i3]; push_cast; rfl, ?_⟩
      by_contra hn
      have hj : j + 1 = t := by omega
      refine hlt ?_
      unfold Cfg.bisectTimes
      rw [i1, Cfg.bisect_lt_iff _ hsq, i3]
      exact ⟨(t : ℚ), by simp, by exact_mod_cast i4, by rw [← hj]; push_cast; exact le_rfl⟩

theorem liveRound_time {R C : ℕ} {A : Type} {env : Env R C K} {inp : Inputs K}
    {s s' : Cfg × Live R C K A} (h : liveRound env inp s = .ok s') : s'.1.time = s.1.time + 1 := by
  unfold liveRound at h
  split at h
  · cases h
  rename_i d c' hu
  split at h
  · cases h
  cases h
  unfold Cfg.update at hu
  dsimp only at hu
  split_ifs at hu
  · split at hu
    · cases hu
    · split at hu
      · cases hu
      · cases hu; rfl
  · cases hu; rfl

theorem stop_only {stop : Option K} {ck ck' : Clock K} {e : Err} (h : ck.advance = (ck', .error e))
    (hs : ck.stop = stop) : e = .stopIteration ∧ ∃ T, stop = some T ∧ T < ck.time + ck.step := by
  unfold Clock.advance at h
  dsimp only at h
  rw [hs] at h
  split at h
  · cases h
  · split_ifs at h with hlt
    · cases h
      exact ⟨rfl, _, rfl, hlt⟩
    · cases h

theorem advance_clock {ck ck' : Clock K} {u : Unit} (h : ck.advance = (ck', .ok u)) :
    ck'.time = ck.time + ck.step ∧ ck'.step = ck.step ∧ ck'.stop = ck.stop := by
  unfold Clock.advance at h
  dsimp only at h
  split at h
  · cases h; exact ⟨rfl, rfl, rfl⟩
  · split_ifs at h
    · cases h
    · cases h; exact ⟨rfl, rfl, rfl⟩

/-- A run that is not over after some rounds, or that ends well without a component raising
`StopIteration`, comes from the clock: the rounds fit, or the next step does not. -/
theorem run_rounds {m : Ready K} (hquiet : ∀ clock s, Passes m clock s →
      (∀ time dt, s.2.advance m.env m.view (fun _ => m.porosity) time dt ≠ .error .stopIteration) ∧
        liveRound m.env m.inp s ≠ .error .stopIteration)
    (fuel : ℕ) (ck : Clock K) (s : Cfg × Live m.R m.C K (Option K)) (hp : Passes m ck s)
    (j : ℕ) (hj : s.1.time = j) (hck : ck.time = m.clock.time + j * m.clock.step)
    (hst : ck.step = m.clock.step) (hsp : ck.stop = m.clock.stop) :
    (liveRun m.env m.inp m.view (fun _ => m.porosity) fuel ck s = none →
      ∃ ck' s', Passes m ck' s' ∧ s'.1.time = (j + fuel : ℕ)) ∧
    ∀ c r, liveRun m.env m.inp m.view (fun _ => m.porosity) fuel ck s = some (c, .ok r) →
      ∃ (ck' : Clock K) (s' : _) (n : ℕ), Passes m ck' s' ∧ s'.1.time = n ∧
        ∃ T, m.clock.stop = some T ∧ T < m.clock.time + (n + 1) * m.clock.step := by
  induction fuel generalizing ck s j with
  | zero => exact ⟨fun _ => ⟨ck, s, hp, by simpa using hj⟩, fun c r h => by cases h⟩
  | succ fuel ih =>
    rw [liveRun, cliLoop]
    unfold runOneStep
    rcases ha : ck.advance with ⟨ck1, e | u⟩
    · obtain ⟨rfl, T, hT, hlt⟩ := stop_only ha hsp
      refine ⟨fun h => (by cases h), fun c r _ => ⟨ck, s, j, hp, hj, T, hT, ?_⟩⟩
      rw [hck, hst] at hlt
      linarith
    · obtain ⟨a1, a2, a3⟩ := advance_clock ha
      dsimp only
      cases hl : s.2.advance m.env m.view (fun _ => m.porosity) ck1.time
          (effectiveStep ck.step none) with
      | error e =>
        have hne : e ≠ .stopIteration := fun he => (hquiet ck s hp).1 _ _ (he ▸ hl)
        cases e <;> first
          | exact absurd rfl hne
          | exact ⟨fun h => (by cases h), fun c r h => by cases h⟩
      | ok l1 =>
        dsimp only
        have hp1 : Passes m ck1 (s.1, l1) := by
          refine Passes.step (l := s.2) hp ?_
          unfold runOneStep
          rw [ha]
          dsimp only
          rw [hl]
        cases hr : liveRound m.env m.inp (s.1, l1) with
        | error e =>
          have hne : e ≠ .stopIteration := fun he => (hquiet ck1 (s.1, l1) hp1).2 (he ▸ hr)
          cases e <;> first
            | exact absurd rfl hne
            | exact ⟨fun h => (by cases h), fun c r h => by cases h⟩
        | ok s2 =>
          have ht := liveRound_time hr
          dsimp only at ht
          obtain ⟨k1, k2⟩ := ih ck1 s2 (.change hp1 hr) (j + 1) (by rw [ht, hj]; push_cast; rfl)
            (by rw [a1, hck, hst]; push_cast; ring) (a2.trans hst) (a3.trans hsp)
          refine ⟨fun h => ?_, k2⟩
          obtain ⟨ck', s', q1, q2⟩ := k1 h
          exact ⟨ck', s', q1, by rw [q2]; push_cast; ring⟩

/-- C110: if the first configuration file is for a time after the start, the run fails in the round of
that file at the latest, if the clock allows that many rounds and no component ends it by raising
`StopIteration`. -/
theorem no_start_file [FloorRing K] (ext : Externals K) (t : ℕ) (ts : List ℕ)
    (files : List (List Doc)) (fs fs' : FileSystem K (Option K)) (m : Ready K)
    (h : runSetup ext (t :: ts) files fs = (fs', .ok m)) (hs : (t :: ts).Pairwise (· ≤ ·))
    (ht : 0 < t) (stop : K) (hstop : m.clock.stop = some stop) (hstep : 0 < m.clock.step)
    (hlong : m.clock.time + t * m.clock.step ≤ stop) (fuel : ℕ) (hf : t ≤ fuel) :
    (∃ e, m.run fuel = .failed e none) ∨ ∃ clock s, Passes m clock s ∧
      ((∃ time dt, s.2.advance m.env m.view (fun _ => m.porosity) time dt =
          .error .stopIteration) ∨ liveRound m.env m.inp s = .error .stopIteration) := by
  by_contra hcon
  rw [not_or] at hcon
  obtain ⟨hcon, hno⟩ := hcon
  have hquiet : ∀ clock s, Passes m clock s →
      (∀ time dt, s.2.advance m.env m.view (fun _ => m.porosity) time dt ≠ .error .stopIteration) ∧
        liveRound m.env m.inp s ≠ .error .stopIteration := fun clock s hp =>
    ⟨fun time dt he => hno ⟨clock, s, hp, .inl ⟨time, dt, he⟩⟩,
      fun he => hno ⟨clock, s, hp, .inr he⟩⟩
  refine hcon ?_
  obtain ⟨docs, c, e, _, hinit, he, hmade⟩ := runSetup_made h
  obtain ⟨_, _, h5, _⟩ := Cfg.init_ok hinit
  have hcfg : m.cfg = c := by cases hmade; rfl
  obtain ⟨k1, k2⟩ := run_rounds hquiet fuel m.clock (m.cfg, m.live) .start 0
    (by rw [hcfg, h5]; simp) (by simp) rfl rfl
  unfold Ready.run progressTotal
  rw [hstop]
  dsimp only
  rw [if_neg hstep.ne']
  dsimp only
  split
  · rename_i hn
    obtain ⟨ck', s', h1, h2⟩ := k1 hn
    obtain ⟨_, _, j, h3, h4⟩ := passes_before h hs ht h1
    rw [h3] at h2
    have : j = 0 + fuel := by exact_mod_cast h2
    omega
  · exact ⟨_, rfl⟩
  · rename_i c1 c2 l hr
    exfalso
    obtain ⟨ck', s', n, h1, h2, T, h3, h4⟩ := k2 _ _ hr
    obtain ⟨_, _, j, h6, h7⟩ := passes_before h hs ht h1
    rw [hstop] at h3
    cases h3
    rw [h6] at h2
    have hjn : j = n := by exact_mod_cast h2
    have : ((n : K) + 1) * m.clock.step ≤ t * m.clock.step := by
      refine mul_le_mul_of_nonneg_right ?_ hstep.le
      exact_mod_cast (by omega : n + 1 ≤ t)
    linarith

/-- C110: whatever else happens, a run that is not over has made fewer rounds. -/
theorem no_start_file_rounds (ext : Externals K) (t : ℕ) (ts : List ℕ) (files : List (List Doc))
    (fs fs' : FileSystem K (Option K)) (m : Ready K)
    (h : runSetup ext (t :: ts) files fs = (fs', .ok m)) (hs : (t :: ts).Pairwise (· ≤ ·))
    (ht : 0 < t) (clock : Clock K) (s : Cfg × Live m.R m.C K (Option K)) (hp : Passes m clock s) :
    s.1.time < t := by
  obtain ⟨_, _, j, h3, h4⟩ := passes_before h hs ht hp
  rw [h3]
  exact_mod_cast h4

/-- C110: a fluvial parameter can change in the second round, the step of the clock cannot. -/
example :
    ((liveRound exEnv exInputs ({ liveCfg "fluvial" "sand_frac" 1 2 with time := 1 },
      exLive (exLiveProcs 0))).map fun s => s.1.time).toOption = some 2 ∧
    (match liveRound exEnv exInputs ({ liveCfg "clock" "step" 1 2 with time := 1 },
      exLive (exLiveProcs 0)) with | .error e => some e | .ok _ => none) =
      some (.keyError "clock") ∧
    configAt ([0, 2].zip (liveDocs "clock" "step" 1 2)) 2 ["clock", "step"] = some (.num 2) ∧
    configAt ([0, 2].zip (liveDocs "clock" "step" 1 2)) 1 ["clock", "step"] = some (.num 1) := by
  decide +kernel

/-- A directory with one configuration file, for the second round. -/
def exLate (d : Doc) : Outcome ℚ :=
  runCommand exExt ["sequence2.toml".toList] (fun _ => [d]) false 5 exRunFiles

/-- C110: a run of two steps fails in the second round; as `sequence.toml` the same file works. -/
example : exOutcome "out.nc" (exLate (exConfig (exOutSection "out.nc" false) .nil)) =
      (2, none, some (.keyError "grid")) ∧
    exOutcome "out.nc" (exCommand false (exConfig (exOutSection "out.nc" false) .nil) []) =
      (1, some 4, none) := by
  decide +kernel

end Verif.Props
