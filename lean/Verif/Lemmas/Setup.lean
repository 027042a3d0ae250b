import Verif.Lemmas.Prelude
import Verif.Spec.Setup
import Verif.Props.RunCommand
import Verif.Props.Params

/-! # From the configuration to the components -/

set_option autoImplicit false
set_option linter.unusedSectionVars false

namespace Verif

open Spec Props

variable {K : Type} [Field K] [LinearOrder K]

/-- What the setup of a run went through: `d` is the configuration without `plot`. -/
inductive Made (ext : Externals K) (d : Doc) (fs fs' : FileSystem K (Option K)) (cfg : Cfg) :
    Ready K → Prop
  | mk {gridArgs bathymetry clockArgs output : Kwargs} {R C : ℕ} {info : GridInfo K}
      {w w' : World R (C + 2) K} {names : List String} {env : Env R C K}
      {ps : List (String × Process K)} {s : ProcState R C K} {clock : Clock K}
      {args : WriterArgs K} {porosity : K} {rows : Option (List ℤ)} {writer : Writer K}
      {ms : ModelState (ProcState R C K) R (C + 2) K}
      (hgrid : sectionOf d "grid" = .ok gridArgs)
      (hbathy : sectionOf d "bathymetry" = .ok bathymetry)
      (hinfo : loadGrid (K := K) gridArgs = .ok (R, C, info))
      (hw : loadBathymetry ext (fun c => c.val * info.dx) bathymetry (newWorld R (C + 2)) = .ok w)
      (hnames : processNames d = .ok names)
      (hclock : sectionOf d "clock" = .ok clockArgs)
      (houtput : sectionOf d "output" = .ok output)
      (hdx : env.dx = info.dx) (hx : env.x = fun c => c.val * info.dx)
      (hcreate : createNamed ext env (matchedParams (withRequired names) d.sections)
        (withRequired names) (newProcState R C, w) = .ok (ps, s, w'))
      (htime : loadClock clockArgs = .ok clock)
      (hargs : loadWriter output = .ok args)
      (hpor : porosityArg ext (PyDict.ofPairs ps).keys
        (groupOf (matchedParams (withRequired names) d.sections) "compaction") = .ok porosity)
      (hrows : args.rows = .ok rows)
      (hwriter : writerInit R args.path args.interval args.fields args.clobber rows fs =
        (fs', .ok writer))
      (hms : modelInit clock.start (fun t (q : ProcState R C K) => { q with seaTime := t }) s w' =
        .ok ms)
      (hdesc : describeParams (matchedParams (withRequired names) d.sections) = .ok ()) :
      Made ext d fs fs' cfg ⟨R, C, env,
        ⟨((groupOf (matchedParams (withRequired names) d.sections) "sea_level").get?
            "filepath").isSome,
          fun path => ext.readCurve path
            (kindOf (matchedParams (withRequired names) d.sections) "sea_level"),
          fun path => ext.readCurve path
            (kindOf (matchedParams (withRequired names) d.sections) "subsidence")⟩,
        fun _ => worldView (ext.geometry info), porosity, clock, cfg,
        ⟨List.map Prod.snd (PyDict.ofPairs ps : PyDict String (Process K)),
          ⟨(ms.comps, writer, fs'), ms.world, ms.archived⟩⟩⟩

theorem runSetup_made {ext : Externals K} {times : List ℕ} {files : List (List Doc)}
    {fs fs' : FileSystem K (Option K)} {m : Ready K}
    (h : runSetup ext times files fs = (fs', .ok m)) :
    ∃ docs c e, Cfg.loadFiles files = .ok docs ∧
      Cfg.init (times.map fun t : ℕ => (t : ℚ)) docs = .ok c ∧ c.asDict = .ok e ∧
      Made ext (e.erase "plot") fs fs' c m := by
  unfold runSetup at h
  split_ifs at h
  · cases h
  split at h
  · cases h
  rename_i p hp
  unfold prepare at hp
  simp only [bind, Except.bind] at hp
  split at hp
  · cases hp
  rename_i c hc
  split at hp
  · cases hp
  rename_i e he
  split at hp
  · cases hp
  rename_i gridArgs hgrid
  split at hp
  · cases hp
  rename_i bathymetry hbathy
  split at hp
  · cases hp
  rename_i info hinfo
  split at hp
  · cases hp
  rename_i w hw
  split at hp
  · cases hp
  rename_i names hnames
  split at hp
  · cases hp
  rename_i clockArgs hclock
  split at hp
  · cases hp
  rename_i output houtput
  split at hp
  · cases hp
  rename_i u hdesc
  split at hp
  · cases hp
  rename_i r hcreate
  split at hp
  · cases hp
  rename_i clock htime
  split at hp
  · cases hp
  rename_i args hargs
  split at hp
  · cases hp
  rename_i porosity hpor
  cases hp
  unfold Cfg.fromFiles at hc
  split at hc
  · cases hc
  rename_i docs hl
  refine ⟨docs, c, e, hl, hc, he, ?_⟩
  dsimp only at h
  split at h
  · cases h
  rename_i fs1 writer hwriter
  split at h
  · cases h
  rename_i rows hrows
  split at h
  · cases h
  rename_i ms hms
  cases h
  rw [hrows] at hwriter
  exact .mk hgrid hbathy hinfo hw hnames hclock houtput rfl rfl hcreate htime hargs hpor hrows
    hwriter hms hdesc

/-- The dictionary that is used is the first section without empty subsections, its time and the
section `plot`. -/
theorem first_section {times : List ℕ} {files : List (List Doc)} {docs : List Doc} {c : Cfg}
    {d e : Doc} (h1 : Cfg.loadFiles files = .ok docs)
    (h2 : Cfg.init (times.map fun t : ℕ => (t : ℚ)) docs = .ok c) (h3 : c.asDict = .ok e)
    (hfirst : files.flatten.head? = some d) (hd : DistinctKeys d) (ht : NoTuples d) :
    DistinctKeys (e.erase "plot") ∧
      ∀ k, k ≠ "_time" → k ≠ "plot" → (e.erase "plot").find? k = (prune d).find? k := by
  obtain ⟨_, _, _, d1, ds, rfl, hcur⟩ := Cfg.init_ok h2
  obtain ⟨d', hd', hdd⟩ := loadFiles_head h1
  rw [hfirst] at hd'
  cases hd'
  have hall : DistinctKeys d1 ∧ NoTuples d1 ∧ ∀ k, k ≠ "_time" → d1.find? k = d.find? k := by
    rcases hdd with rfl | rfl
    · exact ⟨hd, ht, fun _ _ => rfl⟩
    · exact ⟨Doc.distinct_erase hd _, noTuples_erase ht _, fun k hk => by
        rw [Doc.find?_erase hd, if_neg (by rintro rfl; exact hk rfl)]⟩
  obtain ⟨hd1, ht1, hf1⟩ := hall
  have he : e = prune d1 := by
    have : c.asDict = .ok (prune d1) := by
      unfold Cfg.asDict Doc.expand
      rw [hcur, stored, Doc.flatten_eq hd1]
      exact Doc.addItems_walk d1 .nil hd1 ht1 (by simp [Doc.keys])
    rw [this] at h3
    exact (Except.ok.inj h3).symm
  have hde : DistinctKeys e := (Doc.expand_from h3).1
  refine ⟨Doc.distinct_erase hde _, fun k hk1 hk2 => ?_⟩
  rw [Doc.find?_erase hde, if_neg (by rintro rfl; exact hk2 rfl), he, Doc.find?_prune hd1,
    Doc.find?_prune hd, hf1 k hk1]

theorem setsUp_made {ext : Externals K} {times : List ℕ} {files : List (List Doc)}
    {fs fs' : FileSystem K (Option K)} {d : Doc} {m : Ready K}
    (h : SetsUp ext times files fs d fs' m) :
    ∃ c e, Made ext e fs fs' c m ∧ DistinctKeys e ∧
      ∀ k, k ≠ "_time" → k ≠ "plot" → e.find? k = (prune d).find? k := by
  obtain ⟨docs, c, e, h1, h2, h3, hm⟩ := runSetup_made h.ok
  exact ⟨c, _, hm, first_section h1 h2 h3 h.first h.distinct h.noTuples⟩

/-- Whether the rest of the setup succeeds does not depend on the writer. -/
theorem prepare_finish {ext : Externals K} {times : List ℕ} {files : List (List Doc)}
    {p : Prepared K} (hp : prepare ext times files = .ok p)
    {q : Writer K × FileSystem K (Option K)} {m : Ready K} (h : p.finish q = .ok m)
    (q2 : Writer K × FileSystem K (Option K)) : ∃ m2, p.finish q2 = .ok m2 := by
  unfold prepare at hp
  simp only [bind, Except.bind] at hp
  iterate 14 (split at hp; · cases hp)
  cases hp
  dsimp only at h ⊢
  split at h
  · cases h
  exact ⟨_, rfl⟩

theorem pyTruth_iff {v : PyValue} : pyTruth v = true ↔ Truthy v := by
  rcases v with v | v
  · cases v <;> simp [pyTruth, Truthy, Falsy]
  · simp [pyTruth, Truthy]

/-! ### Entries -/

theorem sectionOf_get? {d e : Doc} (hd : DistinctKeys d) {sec : String}
    (he : e.find? sec = (prune d).find? sec) {g : Kwargs} (hs : sectionOf e sec = .ok g)
    (key : String) : g.get? key = entry d sec key := by
  unfold sectionOf at hs
  rw [he, Doc.find?_prune hd] at hs
  unfold entry
  cases hf : d.find? sec with
  | none => rw [hf] at hs; cases hs
  | some v =>
    rw [hf] at hs
    cases v with
    | inl v => cases hs
    | inr s =>
      dsimp only at hs ⊢
      split_ifs at hs with hn
      cases hs
      exact Doc.get?_items _ _

theorem get?_sections_none {d : Doc} {k : String} (hd : DistinctKeys d)
    (h : ∀ s, d.find? k ≠ some (.inr s)) : PyDict.get? d.sections k = none := by
  induction d with
  | nil => rfl
  | leaf a v r ih =>
    rw [Doc.sections]
    by_cases ha : a = k
    · subst ha
      refine ih hd.2 fun s hs => hd.1 ?_
      by_contra hn
      rw [(Doc.find?_eq_none_iff _ _).mpr hn] at hs
      cases hs
    · refine ih hd.2 fun s hs => h s ?_
      simp only [Doc.find?, if_neg ha]
      exact hs
  | sub a s r _ ih =>
    rw [Doc.sections, PyDict.get?_cons]
    have ha : a ≠ k := by
      rintro rfl
      exact h s (by simp [Doc.find?])
    rw [if_neg ha]
    refine ih hd.2.2 fun s' hs' => h s' ?_
    simp only [Doc.find?, if_neg ha]
    exact hs'

theorem given_get? {d e : Doc} (hd : DistinctKeys d) (hde : DistinctKeys e) {sec : String}
    (he : e.find? sec = (prune d).find? sec) (ps : List String) (key : String) :
    (given ps e.sections sec).get? key = if sec ∈ ps then entry d sec key else none := by
  unfold given
  split_ifs with hm
  · have hf := he
    rw [Doc.find?_prune hd] at hf
    unfold entry
    cases hs : d.find? sec with
    | none =>
      rw [hs] at hf
      rw [get?_sections_none hde (by rw [hf]; simp)]
      rfl
    | some v =>
      rw [hs] at hf
      cases v with
      | inl v =>
        rw [get?_sections_none hde (by rw [hf]; simp)]
        rfl
      | inr s =>
        dsimp only at hf ⊢
        split_ifs at hf with hn
        · rw [get?_sections_none hde (by rw [hf]; simp), hn]
          rfl
        · rw [Doc.get?_sections hf]
          exact Doc.get?_items _ _
  · rfl

/-! ### Shared parameters -/

theorem sharing_unique : ∀ a ∈ sharing, ∀ b ∈ sharing, a.1 = b.1 → ∀ k ∈ a.2.2, k ∈ b.2.2 →
    a = b := by decide

theorem sharing_names : ∀ m ∈ sharedParameters, m ∈ paramsToMatch ∧
    m.1 ≠ "_time" ∧ m.1 ≠ "plot" ∧ m.2.1 ≠ "_time" ∧ m.2.1 ≠ "plot" := by decide

theorem paramsToMatch_cases : ∀ m ∈ paramsToMatch, m ∈ sharedParameters ∨
    m = ("fluvial", "sediments", ["hemipelagic"]) := by decide

/-- After matching, a process has the value of its own section, else the borrowed one. -/
theorem matched_setting {d e : Doc} (hd : DistinctKeys d) (hde : DistinctKeys e)
    (hfe : ∀ k, k ≠ "_time" → k ≠ "plot" → e.find? k = (prune d).find? k) {ps : List String}
    (hps : ∀ n, n ∈ ps ↔ Enabled d n) (hsed : "sediments" ∉ ps) {name : String}
    (hname : name ∈ ps) (hn1 : name ≠ "_time") (hn2 : name ≠ "plot") (key : String) :
    IsSetting d name key ((groupOf (matchedParams ps e.sections) name).get? key) := by
  have hg : ∀ n, n ≠ "_time" → n ≠ "plot" → ∀ k,
      (groupOf (initialParams ps e.sections) n).get? k = if n ∈ ps then entry d n k else none := by
    intro n h1 h2 k
    rw [groupOf_initialParams]
    exact given_get? hd hde (hfe n h1 h2) ps k
  have hown := hg name hn1 hn2
  simp only [if_pos hname] at hown
  obtain ⟨i1, i2⟩ := get?_matchPairs paramsToMatch paramsToMatch_ne paramsToMatch_disjoint
    (initialParams ps e.sections) name key
  have hbor : ∀ m ∈ sharedParameters, key ∈ m.2.2 → ∀ other,
      (name = m.1 ∧ other = m.2.1) ∨ (name = m.2.1 ∧ other = m.1) →
      (name, other, m.2.2) ∈ sharing ∧ other ≠ "_time" ∧ other ≠ "plot" := by
    rintro ⟨a, b, keys⟩ hm hk other hno
    have hnm := (sharing_names _ hm).2
    rcases hno with ⟨rfl, rfl⟩ | ⟨rfl, rfl⟩
    · exact ⟨List.mem_append_left _ hm, hnm.2.2⟩
    · exact ⟨List.mem_append_right _ (List.mem_map.mpr ⟨_, hm, rfl⟩), hnm.1, hnm.2.1⟩
  by_cases hb : ∃ other, Borrows d name key other
  · obtain ⟨other, keys, hin, hk, hon, hag⟩ := hb
    have hm : ∃ m ∈ sharedParameters, m.2.2 = keys ∧
        ((name = m.1 ∧ other = m.2.1) ∨ (name = m.2.1 ∧ other = m.1)) := by
      rcases List.mem_append.mp hin with h | h
      · exact ⟨_, h, rfl, .inl ⟨rfl, rfl⟩⟩
      · obtain ⟨m, hm, hm'⟩ := List.mem_map.mp h
        simp only [Prod.mk.injEq] at hm'
        exact ⟨m, hm, hm'.2.2, .inr ⟨hm'.1.symm, hm'.2.1.symm⟩⟩
    obtain ⟨m, hm, rfl, hno⟩ := hm
    obtain ⟨-, ho1, ho2⟩ := hbor m hm hk other hno
    have hoth := hg other ho1 ho2
    simp only [if_pos ((hps other).mpr hon)] at hoth
    have hval : (groupOf (matchedParams ps e.sections) name).get? key =
          (entry d other key).or (entry d name key) ∨
        (groupOf (matchedParams ps e.sections) name).get? key =
          (entry d name key).or (entry d other key) := by
      have hcf : ∀ k ∈ m.2.2, ¬ Conflict (groupOf (initialParams ps e.sections) m.1)
          (groupOf (initialParams ps e.sections) m.2.1) k := by
        rintro k hk' ⟨v, w, hv, hw, hvw⟩
        rcases hno with ⟨h1, h2⟩ | ⟨h1, h2⟩
        · rw [← h1, hown] at hv
          rw [← h2, hoth] at hw
          exact hvw (hag k hk' v w hv hw)
        · rw [← h2, hoth] at hv
          rw [← h1, hown] at hw
          exact hvw (hag k hk' w v hw hv).symm
      have := i1 m (sharing_names m hm).1 hk (hno.imp (·.1) (·.1)) hcf
      rcases hno with ⟨h1, h2⟩ | ⟨h1, h2⟩
      · rw [← h1, ← h2, hown, hoth] at this
        exact .inl this
      · rw [← h1, ← h2, hown, hoth] at this
        exact .inr this
    cases hv : entry d name key with
    | none =>
      refine .inr (.inl ⟨hv, other, ⟨m.2.2, hin, hk, hon, hag⟩, ?_⟩)
      rw [hv] at hval
      simpa using hval
    | some v =>
      refine .inl ⟨by rw [hv]; simp, ?_⟩
      rw [hv] at hval ⊢
      cases hw : entry d other key with
      | none => rw [hw] at hval; simpa using hval
      | some w =>
        have := hag key hk v w hv hw
        subst this
        rw [hw] at hval
        simpa using hval
  · have hval : (groupOf (matchedParams ps e.sections) name).get? key = entry d name key := by
      by_cases hm : ∃ m ∈ paramsToMatch, key ∈ m.2.2 ∧ (name = m.1 ∨ name = m.2.1) ∧
          ∀ k ∈ m.2.2, ¬ Conflict (groupOf (initialParams ps e.sections) m.1)
            (groupOf (initialParams ps e.sections) m.2.1) k
      · obtain ⟨m, hm, hk, hn, hcf⟩ := hm
        refine (i1 m hm hk hn hcf).trans ?_
        rcases paramsToMatch_cases m hm with hs | rfl
        · rcases hn with hn | hn
          · obtain ⟨hin, ho1, ho2⟩ := hbor m hs hk _ (.inl ⟨hn, rfl⟩)
            have hoth := hg m.2.1 ho1 ho2
            have hoff : m.2.1 ∉ ps := fun ho => hb ⟨_, m.2.2, hin, hk, (hps _).mp ho, by
              intro k hk' v w hv hw
              by_contra hne
              refine hcf k hk' ⟨v, w, ?_, ?_, hne⟩
              · rw [← hn, hown, hv]
              · rw [hoth, if_pos ho, hw]⟩
            rw [hoth, if_neg hoff, ← hn, hown]
            rfl
          · obtain ⟨hin, ho1, ho2⟩ := hbor m hs hk _ (.inr ⟨hn, rfl⟩)
            have hoth := hg m.1 ho1 ho2
            have hoff : m.1 ∉ ps := fun ho => hb ⟨_, m.2.2, hin, hk, (hps _).mp ho, by
              intro k hk' v w hv hw
              by_contra hne
              refine hcf k hk' ⟨w, v, ?_, ?_, fun h => hne h.symm⟩
              · rw [hoth, if_pos ho, hw]
              · rw [← hn, hown, hv]⟩
            rw [hoth, if_neg hoff, ← hn, hown]
            simp
        · rcases hn with hn | hn
          · have := hg "sediments" (by decide) (by decide) key
            rw [if_neg hsed] at this
            dsimp only at hn this ⊢
            rw [this, ← hn, hown]
            rfl
          · rw [show name = "sediments" from hn] at hname
            exact absurd hname hsed
      · refine (i2 fun m hm' hk hn => ?_).trans (hown key)
        by_contra hc
        push Not at hc
        exact hm ⟨m, hm', hk, hn, hc⟩
    rw [hval]
    by_cases hv : entry d name key = none
    · exact .inr (.inr ⟨hv, hb, hv⟩)
    · exact .inl ⟨hv, rfl⟩

/-! ### Arguments -/

theorem bind_eq_ok {α β : Type} {x : Except Err α} {f : α → Except Err β} {b : β} :
    (x >>= f) = .ok b ↔ ∃ a, x = .ok a ∧ f a = .ok b := by
  cases x with
  | error e => simp [bind, Except.bind]
  | ok a => simp [bind, Except.bind]

theorem pyToFloat_ok {v : PyValue} {x : K} (h : pyToFloat v = .ok x) :
    ∃ q : ℚ, v = .inl (.num q) ∧ x = q := by
  unfold pyToFloat at h
  split at h <;> cases h
  exact ⟨_, rfl, rfl⟩

theorem floatArg_ok {kwds : Kwargs} {name : String} {default x : K}
    (h : floatArg kwds name default = .ok x) : IsNumber (kwds.get? name) default x := by
  unfold floatArg at h
  cases hv : kwds.get? name with
  | none => rw [hv] at h; cases h; exact .inl ⟨rfl, rfl⟩
  | some v =>
    rw [hv] at h
    obtain ⟨q, rfl, rfl⟩ := pyToFloat_ok h
    exact .inr ⟨q, rfl, rfl⟩

theorem floatArg_cast {kwds : Kwargs} {name : String} {default x : K} {q : ℚ}
    (h : floatArg kwds name default = .ok x) (hq : (q : K) = default) :
    IsNumber (kwds.get? name) (q : K) x := hq ▸ floatArg_ok h

theorem optFloatArg_ok {kwds : Kwargs} {name : String} {default : K} {x : Option K}
    (h : optFloatArg kwds name default = .ok x) :
    IsOptNumber (kwds.get? name) (some default) x := by
  unfold optFloatArg at h
  split at h
  · rename_i hv; cases h; exact .inl ⟨hv, rfl⟩
  · rename_i hv; cases h; exact .inr (.inl ⟨hv, rfl⟩)
  · rename_i v _ hv
    split at h
    · cases h
    · rename_i a ha
      cases h
      obtain ⟨q, rfl, rfl⟩ := pyToFloat_ok ha
      exact .inr (.inr ⟨q, hv, rfl⟩)

theorem stopArg_ok {kwds : Kwargs} {x : Option K} (h : stopArg kwds = .ok x) :
    IsOptNumber (kwds.get? "stop") none x := by
  unfold stopArg at h
  split at h
  · rename_i hv; cases h; exact .inl ⟨hv, rfl⟩
  · rename_i hv; cases h; exact .inr (.inl ⟨hv, rfl⟩)
  · rename_i v _ hv
    cases ha : pyToFloat (K := K) v with
    | error e => rw [ha] at h; cases h
    | ok a =>
      rw [ha] at h
      cases h
      obtain ⟨q, rfl, rfl⟩ := pyToFloat_ok ha
      exact .inr (.inr ⟨q, hv, rfl⟩)

theorem textArg_none {kwds : Kwargs} {name s : String} (h : textArg kwds name none = .ok s) :
    kwds.get? name = some (.inl (.str s)) := by
  unfold textArg at h
  split at h
  · rename_i hs; cases h; exact hs
  · cases h
  · rename_i h1; cases h1
  · cases h

theorem textArg_some {kwds : Kwargs} {name s t : String} (h : textArg kwds name (some t) = .ok s) :
    IsText (kwds.get? name) t s := by
  unfold textArg at h
  split at h
  · rename_i hs; cases h; exact .inr hs
  · cases h
  · rename_i h0 h1; cases h1; cases h; exact .inl ⟨h0, rfl⟩
  · rename_i h1; cases h1

/-- What a constructor makes of its arguments. -/
theorem ofKwargs_ok [IsStrictOrderedRing K] {ext : Externals K} {params : PyDict String Kwargs} {name cls : String}
    (hc : processClass params name = some cls) {p : Process K}
    (h : Process.ofKwargs ext cls (groupOf params name) = .ok p) :
    p.name = name ∧
    (∀ q ∈ numericParameters p, ∃ default, (name, q.1, default) ∈ numericDefaults ∧
      IsNumber ((groupOf params name).get? q.1) (default : K) q.2) ∧
    (∀ t, isostasyTimeOf p = some t →
      IsOptNumber ((groupOf params name).get? "isostasytime") (some 7000) t) ∧
    (∀ curve start, p = .seaLevel curve start →
      (∃ path kind, (groupOf params name).get? "filepath" = some (.inl (.str path)) ∧
        IsText ((groupOf params name).get? "kind") "linear" kind ∧
        ext.readCurve path kind = .ok curve) ∨
      (groupOf params name).get? "filepath" = none ∧
        ∃ waveLength amplitude phase mean linear,
          IsNumber ((groupOf params name).get? "wave_length") 1 waveLength ∧
          IsNumber ((groupOf params name).get? "amplitude") 1 amplitude ∧
          IsNumber ((groupOf params name).get? "phase") 0 phase ∧
          IsNumber ((groupOf params name).get? "mean") 0 mean ∧
          IsNumber ((groupOf params name).get? "linear") 0 linear ∧
          curve = ext.sinusoidal waveLength amplitude phase mean linear) ∧
    (∀ curve, p = .subsidence curve →
      ∃ path kind, (groupOf params name).get? "filepath" = some (.inl (.str path)) ∧
        IsText ((groupOf params name).get? "kind") "linear" kind ∧
        ext.readCurve path kind = .ok curve) := by
  unfold processClass at hc
  split_ifs at hc with h1 h2 h3 h4 h5 h6 h7 h8
  · subst h1
    cases hc
    unfold Process.ofKwargs at h
    simp only [String.reduceEq, if_true, if_false, bind_eq_ok] at h
    obtain ⟨_, -, path, hp, kind, hk, curve, hcv, h⟩ := h
    cases h
    refine ⟨rfl, by simp [numericParameters], by simp [isostasyTimeOf], by simp, ?_⟩
    rintro c ⟨⟩
    exact ⟨path, kind, textArg_none hp, textArg_some hk, hcv⟩
  · subst h2
    cases hc
    unfold Process.ofKwargs at h
    simp only [String.reduceEq, if_true, if_false, bind_eq_ok] at h
    obtain ⟨_, -, h⟩ := h
    cases h
    exact ⟨rfl, by simp [numericParameters], by simp [isostasyTimeOf], by simp, by simp⟩
  · subst h3
    cases hc
    unfold Process.ofKwargs at h
    simp only [String.reduceEq, if_true, if_false, bind_eq_ok] at h
    obtain ⟨_, -, a1, e1, a2, e2, a3, e3, a4, e4, a5, e5, a6, e6, a7, e7, a8, e8, a9, e9, h⟩ := h
    cases h
    refine ⟨rfl, ?_, by simp [isostasyTimeOf], by simp, by simp⟩
    simp only [numericParameters, List.forall_mem_cons, List.not_mem_nil, false_imp_iff,
      implies_true, and_true]
    refine ⟨⟨0, by simp [numericDefaults], floatArg_cast e1 (by norm_num)⟩,
      ⟨0.0008, by simp [numericDefaults], floatArg_cast e2 (by norm_num)⟩,
      ⟨60, by simp [numericDefaults], floatArg_cast e3 (by norm_num)⟩,
      ⟨15, by simp [numericDefaults], floatArg_cast e4 (by norm_num)⟩,
      ⟨0.0005, by simp [numericDefaults], floatArg_cast e5 (by norm_num)⟩,
      ⟨0.001, by simp [numericDefaults], floatArg_cast e6 (by norm_num)⟩,
      ⟨3, by simp [numericDefaults], floatArg_cast e7 (by norm_num)⟩,
      ⟨0, by simp [numericDefaults], floatArg_cast e8 (by norm_num)⟩,
      ⟨500000, by simp [numericDefaults], floatArg_cast e9 (by norm_num)⟩⟩
  · subst h4
    cases hc
    unfold Process.ofKwargs at h
    simp only [String.reduceEq, if_true, if_false, bind_eq_ok] at h
    obtain ⟨_, -, a1, e1, a2, e2, a3, e3, a4, e4, a5, e5, a6, e6, h⟩ := h
    cases h
    refine ⟨rfl, ?_, by simp [isostasyTimeOf], by simp, by simp⟩
    simp only [numericParameters, List.forall_mem_cons, List.not_mem_nil, false_imp_iff,
      implies_true, and_true]
    refine ⟨⟨0.5, by simp [numericDefaults], floatArg_cast e1 (by norm_num)⟩,
      ⟨60, by simp [numericDefaults], floatArg_cast e2 (by norm_num)⟩,
      ⟨3, by simp [numericDefaults], floatArg_cast e3 (by norm_num)⟩,
      ⟨2650, by simp [numericDefaults], floatArg_cast e4 (by norm_num)⟩,
      ⟨0.0008, by simp [numericDefaults], floatArg_cast e5 (by norm_num)⟩,
      ⟨0, by simp [numericDefaults], floatArg_cast e6 (by norm_num)⟩⟩
  · subst h5
    cases hc
    unfold Process.ofKwargs at h
    simp only [String.reduceEq, if_true, if_false, bind_eq_ok] at h
    obtain ⟨_, -, a1, e1, _, -, a2, e2, _, -, a3, e3, _, -, t, ht, h⟩ := h
    cases h
    refine ⟨rfl, by simp [numericParameters], ?_, by simp, by simp⟩
    rintro t' ⟨⟩
    exact optFloatArg_ok ht
  · subst h6
    cases hc
    unfold Process.ofKwargs at h
    simp only [String.reduceEq, if_true, if_false, bind_eq_ok] at h
    obtain ⟨_, -, a, e1, h⟩ := h
    cases h
    refine ⟨rfl, ?_, by simp [isostasyTimeOf], by simp, by simp⟩
    simp only [numericParameters, List.forall_mem_cons, List.not_mem_nil, false_imp_iff,
      implies_true, and_true]
    exact ⟨0.0005, by simp [numericDefaults], floatArg_cast e1 (by norm_num)⟩
  · subst h7
    cases hc
    unfold Process.ofKwargs at h
    simp only [String.reduceEq, if_true, if_false, bind_eq_ok] at h
    obtain ⟨_, -, t, ht, h⟩ := h
    cases h
    refine ⟨rfl, by simp [numericParameters], ?_, by simp, by simp⟩
    rintro t' ⟨⟩
    exact optFloatArg_ok ht
  · subst h8
    split at hc
    · rename_i hf
      cases hc
      unfold Process.ofKwargs at h
      simp only [String.reduceEq, if_true, if_false, bind_eq_ok] at h
      obtain ⟨_, -, a1, e1, a2, e2, a3, e3, a4, e4, a5, e5, a6, e6, h⟩ := h
      cases h
      refine ⟨rfl, ?_, by simp [isostasyTimeOf], ?_, by simp⟩
      simp only [numericParameters, List.forall_mem_cons, List.not_mem_nil, false_imp_iff,
        implies_true, and_true]
      · exact ⟨0, by simp [numericDefaults], floatArg_cast e5 (by norm_num)⟩
      · rintro c s ⟨⟩
        exact .inr ⟨hf, a1, a2, a3, a4, a6, floatArg_ok e1, floatArg_ok e2, floatArg_ok e3,
          floatArg_ok e4, floatArg_ok e6, rfl⟩
    · rename_i v hf
      cases hc
      unfold Process.ofKwargs at h
      simp only [String.reduceEq, if_true, if_false, bind_eq_ok] at h
      obtain ⟨_, -, path, hp, kind, hk, a, e1, curve, hcv, h⟩ := h
      cases h
      refine ⟨rfl, ?_, by simp [isostasyTimeOf], ?_, by simp⟩
      simp only [numericParameters, List.forall_mem_cons, List.not_mem_nil, false_imp_iff,
        implies_true, and_true]
      · exact ⟨0, by simp [numericDefaults], floatArg_cast e1 (by norm_num)⟩
      · rintro c s ⟨⟩
        exact .inl ⟨path, kind, textArg_none hp, textArg_some hk, hcv⟩

/-! ### The components -/

theorem mem_ofPairs {β : Type*} {l : List (String × β)} {x : String × β}
    (h : x ∈ PyDict.ofPairs l) : x ∈ l := by
  have hset : ∀ (d : PyDict String β) (k : String) (v : β), x ∈ d.set k v → x ∈ d ∨ x = (k, v) := by
    intro d k v hx
    induction d with
    | nil => simpa [PyDict.set] using hx
    | cons y d ih =>
      rw [PyDict.set] at hx
      split_ifs at hx
      · rcases List.mem_cons.mp hx with rfl | hx
        · rename_i hk
          exact .inr (by rw [hk])
        · exact .inl (List.mem_cons_of_mem _ hx)
      · rcases List.mem_cons.mp hx with rfl | hx
        · exact .inl (by simp)
        · exact (ih hx).imp (List.mem_cons_of_mem _) id
  have : ∀ (l : List (String × β)) (d : PyDict String β), x ∈ PyDict.update d l → x ∈ d ∨ x ∈ l := by
    intro l
    induction l with
    | nil => intro d hx; exact .inl hx
    | cons y l ih =>
      intro d hx
      rcases ih _ hx with hx | hx
      · rcases hset _ _ _ hx with hx | rfl
        · exact .inl hx
        · exact .inr (by simp)
      · exact .inr (List.mem_cons_of_mem _ hx)
  rcases this l [] h with h | h
  · cases h
  · exact h

theorem mem_firstAppearances (l : List String) (n : String) : n ∈ firstAppearances l ↔ n ∈ l := by
  induction l with
  | nil => rfl
  | cons x l ih =>
    rw [firstAppearances, List.mem_cons, List.mem_cons, List.mem_filter, ih]
    by_cases hn : n = x <;> simp [hn]

theorem createNamed_ok [IsStrictOrderedRing K] {R C : ℕ} {ext : Externals K} {env : Env R C K}
    {params : PyDict String Kwargs} {names : List String}
    {s s' : ProcState R C K} {w w' : World R (C + 2) K} {ps : List (String × Process K)}
    (h : createNamed ext env params names (s, w) = .ok (ps, s', w')) :
    ps.map (·.1) = names ∧
    (∀ q ∈ ps, ∃ cls, processClass params q.1 = some cls ∧
      Process.ofKwargs ext cls (groupOf params q.1) = .ok q.2) ∧
    w'.layers = w.layers ∧ w'.topo = w.topo ∧ w'.bedrock = w.bedrock ∧ w'.deposit = w.deposit := by
  induction names generalizing s w ps with
  | nil => cases h; exact ⟨rfl, by simp, rfl, rfl, rfl, rfl⟩
  | cons n names ih =>
    rw [createNamed] at h
    split at h
    · cases h
    rename_i cls hcls
    split at h
    · cases h
    rename_i p hp
    split at h
    · cases h
    rename_i s1 hs1
    split at h
    · cases h
    rename_i ps1 s2 hr
    cases h
    obtain ⟨s1, w1⟩ := s1
    obtain ⟨h1, h2, h3, h4, h5, h6⟩ := ih hr
    obtain ⟨g1, g2, g3, g4⟩ := create_world hs1
    refine ⟨by simp [h1], ?_, h3.trans g1, h4.trans g2, h5.trans g3, h6.trans g4⟩
    intro q hq
    rcases List.mem_cons.mp hq with rfl | hq
    · exact ⟨cls, hcls, hp⟩
    · exact h2 q hq

theorem processNames_enabled {d e : Doc} (hd : DistinctKeys d)
    (he : e.find? "processes" = (prune d).find? "processes") {names : List String}
    (h : processNames e = .ok names) (n : String) : n ∈ withRequired names ↔ Enabled d n := by
  rw [withRequired_mem, allProcesses, List.mem_append, Enabled]
  unfold processNames at h
  rw [he] at h
  have hl : ∀ xs, (prune d).find? "processes" = some (.inl (.list xs)) ↔
      d.find? "processes" = some (.inl (.list xs)) := by
    intro xs
    rw [Doc.find?_prune hd]
    rcases d.find? "processes" with _ | v | s
    · simp
    · simp
    · dsimp only; split_ifs <;> simp
  simp only [← hl]
  rcases hp : (prune d).find? "processes" with _ | v | s
  · rw [hp] at h
    cases h
    simp only [reduceCtorEq, false_and, exists_false, false_or, true_and]
    exact or_comm
  · rw [hp] at h
    cases v with
    | list xs =>
      cases h
      simp only [Option.some.injEq, Sum.inl.injEq, Leaf.list.injEq, reduceCtorEq, false_and,
        or_false, exists_eq_left']
      rw [or_comm]
      refine or_congr Iff.rfl ?_
      rw [List.mem_filterMap]
      constructor
      · rintro ⟨x, hx, hxn⟩
        split at hxn
        · cases hxn; exact hx
        · cases hxn
      · intro hx
        exact ⟨_, hx, rfl⟩
    | _ => cases h
  · rw [hp] at h
    cases h

/-! ### The grid -/

theorem numbers_ok {xs : List Leaf} {qs : List ℚ} (h : pyToNumbers.numbers xs = .ok qs) :
    xs = qs.map Leaf.num := by
  induction xs generalizing qs with
  | nil => cases h; rfl
  | cons x xs ih =>
    cases x with
    | num q =>
      rw [pyToNumbers.numbers] at h
      split at h
      · cases h
      · rename_i qs' hq
        cases h
        rw [ih hq]
        rfl
    | _ => cases h

theorem pyToNumbers_ok {v : PyValue} {qs : List ℚ} (h : pyToNumbers v = .ok qs) :
    IsNumbers (some v) qs := by
  unfold pyToNumbers at h
  split at h
  · cases h; exact .inl ⟨_, rfl, rfl⟩
  · rw [numbers_ok h]; exact .inr (.inl rfl)
  · rw [numbers_ok h]; exact .inr (.inr rfl)
  · cases h

theorem pyToNumbers_of {v : PyValue} {qs : List ℚ} (h : IsNumbers (some v) qs) :
    pyToNumbers v = .ok qs := by
  have hn : ∀ qs : List ℚ, pyToNumbers.numbers (qs.map Leaf.num) = .ok qs := by
    intro qs
    induction qs with
    | nil => rfl
    | cons q qs ih => rw [List.map_cons, pyToNumbers.numbers, ih]
  rcases h with ⟨q, h, rfl⟩ | h | h
  · cases h; rfl
  · cases h; exact hn qs
  · cases h; exact hn qs

theorem gridEntry_ok {kwds : Kwargs} {name : String} {r : Option (List ℚ)}
    (h : gridEntry kwds name = .ok r) :
    (kwds.get? name = none ∧ r = none) ∨ ∃ qs, IsNumbers (kwds.get? name) qs ∧ r = some qs := by
  unfold gridEntry at h
  cases hv : kwds.get? name with
  | none => rw [hv] at h; cases h; exact .inl ⟨rfl, rfl⟩
  | some v =>
    rw [hv] at h
    dsimp only at h
    split at h
    · cases h
    · rename_i qs hq
      cases h
      exact .inr ⟨qs, pyToNumbers_ok hq, rfl⟩

theorem tdiv_toNat (q : ℚ) : (Int.tdiv q.num q.den).toNat = ⌊q⌋₊ := by
  rcases le_or_gt 0 q with hq | hq
  · have : (Int.tdiv q.num q.den) = ⌊q⌋ := by
      rw [Int.tdiv_eq_ediv_of_nonneg (Rat.num_nonneg.mpr hq), Rat.floor_def']
    rw [this, Int.floor_toNat]
  · rw [Nat.floor_of_nonpos hq.le, Int.toNat_eq_zero]
    have h1 := Rat.num_neg.mpr hq
    have h2 := Int.tdiv_nonneg (a := -q.num) (b := q.den) (by omega) (by positivity)
    rw [Int.neg_tdiv] at h2
    omega

theorem gridInit_ok {sizes gaps : List ℚ} {info : GridInfo K}
    (h : gridInit (sizes.map fun q => (Int.tdiv q.num q.den).toNat) (gaps.map fun q : ℚ => (q : K)) =
      .ok info) : IsGrid sizes gaps (info.nodeRows - 2) info.nodeCols info.dx := by
  unfold gridInit at h
  split_ifs at h
  split at h
  · rename_i c x h1 h2
    cases h
    obtain ⟨a, rfl, rfl⟩ : ∃ a, sizes = [a] ∧ (Int.tdiv a.num a.den).toNat = c := by
      match sizes, h1 with
      | [a], h1 => exact ⟨a, rfl, by simpa using h1⟩
    obtain ⟨b, rfl, rfl⟩ : ∃ b : ℚ, gaps = [b] ∧ (b : K) = x := by
      match gaps, h2 with
      | [b], h2 => exact ⟨b, rfl, by simpa using h2⟩
    exact .inl ⟨a, b, rfl, rfl, rfl, tdiv_toNat a, rfl⟩
  · rename_i r c y x h1 h2
    cases h
    obtain ⟨a, a', rfl, rfl, rfl⟩ : ∃ a a', sizes = [a, a'] ∧ (Int.tdiv a.num a.den).toNat = r ∧
        (Int.tdiv a'.num a'.den).toNat = c := by
      match sizes, h1 with
      | [a, a'], h1 => exact ⟨a, a', rfl, by simpa using h1⟩
    obtain ⟨b, b', rfl, rfl, rfl⟩ : ∃ b b' : ℚ, gaps = [b, b'] ∧ (b : K) = y ∧ (b' : K) = x := by
      match gaps, h2 with
      | [b, b'], h2 => exact ⟨b, b', rfl, by simpa using h2⟩
    exact .inr ⟨a, a', b, b', rfl, rfl, tdiv_toNat a, tdiv_toNat a', rfl⟩
  · cases h

theorem loadGrid_ok {kwds : Kwargs} {R C : ℕ} {info : GridInfo K}
    (h : loadGrid kwds = .ok (R, C, info)) :
    ∃ sizes gaps,
      (IsNumbers (kwds.get? "shape") sizes ∨
        (kwds.get? "shape" = none ∧ IsNumbers (kwds.get? "n_cols") sizes)) ∧
      (IsNumbers (kwds.get? "spacing") gaps ∨
        (kwds.get? "spacing" = none ∧ IsNumbers (kwds.get? "xy_spacing") gaps.reverse)) ∧
      IsGrid sizes gaps R (C + 2) info.dx := by
  unfold loadGrid at h
  simp only [bind_eq_ok] at h
  obtain ⟨shape, e1, nCols, e2, spacing, e3, xy, e4, info', e5, h⟩ := h
  split_ifs at h with hlt
  cases h
  unfold gridFromDict at e5
  have hsz : ∃ sizes, (IsNumbers (kwds.get? "shape") sizes ∨
        (kwds.get? "shape" = none ∧ IsNumbers (kwds.get? "n_cols") sizes)) ∧
      (shape.map (·.map fun q : ℚ => (Int.tdiv q.num q.den).toNat)).orElse
        (fun _ => nCols.map (·.map fun q : ℚ => (Int.tdiv q.num q.den).toNat)) =
        some (sizes.map fun q => (Int.tdiv q.num q.den).toNat) := by
    rcases gridEntry_ok e1 with ⟨h1, rfl⟩ | ⟨qs, h1, rfl⟩
    · rcases gridEntry_ok e2 with ⟨h2, rfl⟩ | ⟨qs, h2, rfl⟩
      · cases e5
      · exact ⟨qs, .inr ⟨h1, h2⟩, rfl⟩
    · exact ⟨qs, .inl h1, rfl⟩
  obtain ⟨sizes, hs, hs'⟩ := hsz
  dsimp only at e5
  rw [hs'] at e5
  dsimp only at e5
  have hgp : ∃ gaps : List ℚ, (IsNumbers (kwds.get? "spacing") gaps ∨
        (kwds.get? "spacing" = none ∧ IsNumbers (kwds.get? "xy_spacing") gaps.reverse)) ∧
      (spacing.map (·.map fun q : ℚ => (q : K))).orElse
        (fun _ => (xy.map (·.map fun q : ℚ => (q : K))).map List.reverse) =
        some (gaps.map fun q : ℚ => (q : K)) := by
    rcases gridEntry_ok e3 with ⟨h1, rfl⟩ | ⟨qs, h1, rfl⟩
    · rcases gridEntry_ok e4 with ⟨h2, rfl⟩ | ⟨qs, h2, rfl⟩
      · cases e5
      · exact ⟨qs.reverse, .inr ⟨h1, by rwa [List.reverse_reverse]⟩, by simp⟩
    · exact ⟨qs, .inl h1, rfl⟩
  obtain ⟨gaps, hg, hg'⟩ := hgp
  rw [hg'] at e5
  refine ⟨sizes, gaps, hs, hg, ?_⟩
  have := gridInit_ok e5
  rwa [Nat.sub_add_cancel (by omega)]

end Verif
