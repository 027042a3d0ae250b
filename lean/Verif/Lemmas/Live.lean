import Verif.Lemmas.RunParams
import Verif.Spec.Live

/-! # Changing parameters of the package's own processes -/

set_option autoImplicit false
set_option linter.unusedSectionVars false

namespace Verif

open Spec

variable {K A : Type*} {R C : ℕ} [Field K] [LinearOrder K]

theorem Process.setattr_ignored (env : Env R C K) (inp : Inputs K) (name : String) (v : PyValue)
    (p : Process K) (s : ProcState R C K × World R (C + 2) K)
    (h : (p.name, name) ∈ ignoredParameters) : p.setattr env inp name v s = .ok (p, s) := by
  cases p <;> simp [Process.name, ignoredParameters] at h
  · rcases h with rfl | rfl | rfl | rfl | rfl | rfl | rfl <;>
      simp [Process.setattr, seaLevelSetattr]
  · subst h; simp [Process.setattr, subsidenceSetattr]
  · rcases h with rfl | rfl <;> simp [Process.setattr, diffuserSetattr]
  · rcases h with rfl | rfl <;> simp [Process.setattr, fluvialSetattr]
  · subst h; simp [Process.setattr, flexureSetattr]
  · subst h; simp [Process.setattr, flexureSetattr]

theorem setattrNamed_ignored (env : Env R C K) (inp : Inputs K) (comp name : String) (v : PyValue)
    (h : (comp, name) ∈ ignoredParameters) (ps : List (Process K))
    (hc : comp ∈ ps.map Process.name) (s : ProcState R C K × World R (C + 2) K) :
    setattrNamed env inp comp name v ps s = .ok (ps, s) := by
  induction ps with
  | nil => simp at hc
  | cons p ps ih =>
    simp only [setattrNamed]
    split_ifs with hp
    · rw [p.setattr_ignored env inp name v s (by rw [hp]; exact h)]
    · rw [ih (by simpa [Ne.symm hp] using hc)]

theorem Live.setattr_ignored (env : Env R C K) (inp : Inputs K) (comp name : String) (v : PyValue)
    (l : Live R C K A) (h : (comp, name) ∈ ignoredParameters) (hc : comp ∈ componentNames l) :
    l.setattr env inp comp name v = .ok l := by
  unfold Live.setattr
  split_ifs with ho
  · subst ho
    have : name = "clobber" ∨ name = "rows" := by simpa [ignoredParameters] using h
    rcases this with rfl | rfl <;> simp [writerSetattr]
  · rw [setattrNamed_ignored env inp comp name v h l.procs (by
      simpa [componentNames, ho] using hc)]

theorem Live.setSection_ignored (env : Env R C K) (inp : Inputs K) (comp : String)
    (l : Live R C K A) (hc : comp ∈ componentNames l) (d : Doc)
    (h : ∀ k ∈ d.keys, (comp, k) ∈ ignoredParameters) :
    Live.setSection env inp comp d l = .ok l := by
  induction d with
  | nil => rfl
  | leaf k v r ih =>
    simp only [Live.setSection]
    rw [l.setattr_ignored env inp comp k (.inl v) (h k (by simp [Doc.keys])) hc]
    exact ih fun k hk => h k (by simp [Doc.keys, hk])
  | sub k d r _ ih =>
    simp only [Live.setSection]
    rw [l.setattr_ignored env inp comp k (.inr d) (h k (by simp [Doc.keys])) hc]
    exact ih fun k hk => h k (by simp [Doc.keys, hk])

theorem Live.has_iff (l : Live R C K A) (comp : String) :
    l.has comp = true ↔ comp ∈ componentNames l := by
  unfold Live.has componentNames
  simp only [Bool.or_eq_true, decide_eq_true_eq, List.contains_iff_mem, List.mem_append,
    List.mem_singleton]
  exact or_comm

theorem Live.setParams_ignored (env : Env R C K) (inp : Inputs K) (l : Live R C K A) (d : Doc)
    (hd : DistinctKeys d) (hleaf : ∀ k v, d.find? k ≠ some (.inl v))
    (hsub : ∀ k e, d.find? k = some (.inr e) →
      k ∈ componentNames l ∧ ∀ n ∈ e.keys, (k, n) ∈ ignoredParameters) :
    Live.setParams env inp d l = .ok l := by
  induction d with
  | nil => rfl
  | leaf k v r _ => exact absurd (by simp [Doc.find?]) (hleaf k v)
  | sub k e r _ ih =>
    obtain ⟨h1, h2⟩ := hsub k e (by simp [Doc.find?])
    have hr : ∀ k' x, r.find? k' = some x → (Doc.sub k e r).find? k' = some x := by
      intro k' x hx
      have hne : k ≠ k' := by
        rintro rfl
        rw [(Doc.find?_eq_none_iff r k).mpr hd.1] at hx; cases hx
      simpa [Doc.find?, hne] using hx
    simp only [Live.setParams, (l.has_iff k).mpr h1, if_true]
    rw [l.setSection_ignored env inp k h1 e h2]
    exact ih hd.2.2 (fun k' v hv => hleaf k' v (hr k' _ hv)) fun k' e' he => hsub k' e' (hr k' _ he)

theorem mem_keys_of_find? {d : Doc} {k : String} {x : Leaf ⊕ Doc} (h : d.find? k = some x) :
    k ∈ d.keys := by
  by_contra hn
  rw [(Doc.find?_eq_none_iff d k).mpr hn] at h; cases h

theorem find?_of_mem_keys {d : Doc} {k : String} (h : k ∈ d.keys) : ∃ x, d.find? k = some x := by
  cases hf : d.find? k with
  | none => exact absurd h ((Doc.find?_eq_none_iff d k).mp hf)
  | some x => exact ⟨x, rfl⟩

/-- What `update(1)` returns has a value exactly where the configuration changed. -/
theorem update_changes {c : Cfg} {docs : List Doc} (hs : c.times.Pairwise (· ≤ ·))
    (hc : c.dicts = docs.map stored) (hd : ∀ d ∈ docs, DistinctKeys d) (hcons : Consistent docs)
    (hh : Hashable docs) :
    ∃ d c', c.update 1 = .ok (d, c') ∧ c'.times = c.times ∧ c'.dicts = c.dicts ∧
      c'.time = c.time + 1 ∧ DistinctKeys d ∧ NoEmptySub d ∧
      ∀ p v, valueAt d p = some v → configAt (c.times.zip docs) (c.time + 1) p ≠
        configAt (c.times.zip docs) c.time p := by
  unfold Cfg.update
  dsimp only
  split_ifs with hlt
  · obtain ⟨f, hf⟩ := Cfg.diff_total hc hd hh c.time (c.time + 1)
    obtain ⟨e, he1, he2, he3⟩ := Cfg.expand_diff hc hd hcons hf
    rw [hf]
    dsimp only
    rw [he1]
    refine ⟨e, _, rfl, rfl, rfl, rfl, he2, Doc.noEmpty_addItems f .nil e trivial he1, ?_⟩
    intro p v hv heq
    rw [he3, Option.map_eq_some_iff] at hv
    obtain ⟨w, hw, _⟩ := hv
    obtain ⟨h1, h2⟩ := (Cfg.diff_ok hf p w).mp hw
    rw [Cfg.call_eq_configAt hs hc hd] at h1 h2
    rw [heq] at h1
    exact h2 h1
  · exact ⟨.nil, _, rfl, rfl, rfl, rfl, trivial, trivial, fun p v hv => by
      cases p with
      | nil => rw [valueAt_nil] at hv; cases hv
      | cons k p =>
        cases p with
        | nil => rw [valueAt_single] at hv; simp [Doc.find?] at hv
        | cons n p => rw [valueAt_cons] at hv; simp [Doc.find?] at hv⟩

theorem Live.setSection_error (env : Env R C K) (inp : Inputs K) {comp name : String}
    (h : ∀ (v : PyValue) (l : Live R C K A), ∃ err, l.setattr env inp comp name v = .error err)
    (d : Doc) (hd : name ∈ d.keys) (l : Live R C K A) :
    ∃ err, Live.setSection env inp comp d l = .error err := by
  induction d generalizing l with
  | nil => simp [Doc.keys] at hd
  | leaf k v r ih =>
    simp only [Live.setSection]
    cases hs : l.setattr env inp comp k (.inl v) with
    | error e => exact ⟨e, rfl⟩
    | ok l' =>
      apply ih
      have hk : name ≠ k := by
        rintro rfl
        obtain ⟨e, he⟩ := h (.inl v) l
        rw [he] at hs; cases hs
      simpa [Doc.keys, hk] using hd
  | sub k d r _ ih =>
    simp only [Live.setSection]
    cases hs : l.setattr env inp comp k (.inr d) with
    | error e => exact ⟨e, rfl⟩
    | ok l' =>
      apply ih
      have hk : name ≠ k := by
        rintro rfl
        obtain ⟨e, he⟩ := h (.inr d) l
        rw [he] at hs; cases hs
      simpa [Doc.keys, hk] using hd

theorem Live.setParams_error (env : Env R C K) (inp : Inputs K) {comp name : String}
    (h : ∀ (v : PyValue) (l : Live R C K A), ∃ err, l.setattr env inp comp name v = .error err)
    {v : Leaf} (d : Doc) (hv : valueAt d [comp, name] = some v) (l : Live R C K A) :
    ∃ err, Live.setParams env inp d l = .error err := by
  rw [valueAt_cons] at hv
  induction d generalizing l with
  | nil => simp [Doc.find?] at hv
  | leaf k x r ih =>
    simp only [Live.setParams]
    split_ifs
    · exact ⟨_, rfl⟩
    · exact ⟨_, rfl⟩
  | sub k e r _ ih =>
    simp only [Live.setParams]
    split_ifs
    · cases hs : l.setSection env inp k e with
      | error e => exact ⟨e, rfl⟩
      | ok l' =>
        apply ih
        by_cases hk : k = comp
        · exfalso
          subst hk
          simp only [Doc.find?, if_true] at hv
          rw [valueAt_single] at hv
          have hm : name ∈ e.keys := by
            by_contra hn
            rw [(Doc.find?_eq_none_iff e name).mpr hn] at hv; cases hv
          obtain ⟨err, he⟩ := Live.setSection_error env inp h e hm l
          rw [he] at hs; cases hs
        · simpa [Doc.find?, hk] using hv
    · exact ⟨_, rfl⟩

/-- A round in which only ignored parameters change does nothing to the model. -/
theorem liveRound_ignored (env : Env R C K) (inp : Inputs K) {c : Cfg} {docs : List Doc}
    (hs : c.times.Pairwise (· ≤ ·)) (hc : c.dicts = docs.map stored)
    (hd : ∀ d ∈ docs, DistinctKeys d) (hcons : Consistent docs) (hh : Hashable docs)
    (l : Live R C K A)
    (hch : ∀ path, configAt (c.times.zip docs) (c.time + 1) path ≠
      configAt (c.times.zip docs) c.time path →
      ∃ p ∈ ignoredParameters, p.1 ∈ componentNames l ∧ path = [p.1, p.2]) :
    ∃ c', liveRound env inp (c, l) = .ok (c', l) ∧ c'.times = c.times ∧ c'.dicts = c.dicts ∧
      c'.time = c.time + 1 := by
  obtain ⟨d, c', hu, h1, h2, h3, h4, h5, h6⟩ := update_changes hs hc hd hcons hh
  refine ⟨c', ?_, h1, h2, h3⟩
  unfold liveRound
  dsimp only
  rw [hu]
  dsimp only
  rw [l.setParams_ignored env inp d h4 ?_ ?_]
  · intro k v hv
    have hv' : valueAt d [k] = some v := by rw [valueAt_single, hv]
    obtain ⟨p, _, _, hp⟩ := hch _ (h6 _ _ hv')
    simp at hp
  · intro k e he
    obtain ⟨g1, g2⟩ := Doc.noEmpty_find? h5 he
    have key : ∀ q v, valueAt e q = some v →
        ∃ n, q = [n] ∧ (k, n) ∈ ignoredParameters ∧ k ∈ componentNames l := by
      intro q v hv
      cases q with
      | nil => rw [valueAt_nil] at hv; cases hv
      | cons n q =>
        have hv' : valueAt d (k :: n :: q) = some v := by rw [valueAt_cons, he]; exact hv
        obtain ⟨p, hp1, hp2, hp⟩ := hch _ (h6 _ _ hv')
        simp only [List.cons.injEq] at hp
        obtain ⟨rfl, rfl, rfl⟩ := hp
        exact ⟨p.2, rfl, hp1, hp2⟩
    constructor
    · obtain ⟨q, hq⟩ := Doc.exists_value g1 g2
      obtain ⟨v, hv⟩ := Option.ne_none_iff_exists'.mp hq
      obtain ⟨_, _, _, h⟩ := key q v hv
      exact h
    · intro n hn
      obtain ⟨x, hx⟩ := find?_of_mem_keys hn
      cases x with
      | inl v =>
        obtain ⟨m, hm, h, _⟩ := key [n] v (by rw [valueAt_single, hx])
        simp only [List.cons.injEq, and_true] at hm
        subst hm; exact h
      | inr e2 =>
        exfalso
        obtain ⟨g3, g4⟩ := Doc.noEmpty_find? g1 hx
        obtain ⟨q, hq⟩ := Doc.exists_value g3 g4
        obtain ⟨v, hv⟩ := Option.ne_none_iff_exists'.mp hq
        cases q with
        | nil => rw [valueAt_nil] at hv; cases hv
        | cons m q =>
          obtain ⟨_, hm, _⟩ := key (n :: m :: q) v (by rw [valueAt_cons, hx]; exact hv)
          simp at hm

theorem Live.advance_procs {env : Env R C K}
    {view : ProcState R C K → World R (C + 2) K → GridView A} {porosity : LiveState R C K A → K}
    {time dt : K} {l l' : Live R C K A} (h : l.advance env view porosity time dt = .ok l') :
    l'.procs = l.procs := by
  unfold Live.advance at h
  split at h
  · cases h
  · cases h; rfl

theorem Process.setattr_name {env : Env R C K} {inp : Inputs K} {name : String} {v : PyValue}
    {p p' : Process K} {s s' : ProcState R C K × World R (C + 2) K}
    (h : p.setattr env inp name v s = .ok (p', s')) : p'.name = p.name := by
  cases p <;> simp only [Process.setattr] at h
  case compaction => cases h; rfl
  all_goals
    split at h
    · cases h
    · cases h; rfl

/-- The parameters of a diffuser whose load does not depend on sea level. -/
structure InUse (P : DiffuserParams K) (d : Diffuser R C K) : Prop where
  plainSlope : d.plainSlope = P.plainSlope
  waveBase : d.waveBase = P.waveBase
  shorefaceHeight : d.shorefaceHeight = P.shorefaceHeight
  alpha : d.alpha = P.alpha
  shelfSlope : d.shelfSlope = P.shelfSlope
  load0 : d.load0 = P.sedimentLoad
  loadSl : d.loadSl = 0
  loadSl' : P.loadSeaLevel = 0
  basinWidth : d.basinWidth = P.basinWidth
  load : d.load = P.sedimentLoad

theorem diffusivityLoop_inUse (expf : K → K) (dx : K) (x : Fin C → K) (shore : Fin R → K)
    (w : World R C K) {P : DiffuserParams K} (rs : List (Fin R)) (d : Diffuser R C K)
    (h : InUse P d) : InUse P (diffusivityLoop expf dx x shore w rs d) := by
  induction rs generalizing d with
  | nil => exact h
  | cons r rs ih =>
    simp only [diffusivityLoop]
    apply ih
    constructor <;> simp [Diffuser.newLoad, h.plainSlope, h.waveBase, h.shorefaceHeight, h.alpha,
      h.shelfSlope, h.load0, h.loadSl, h.loadSl', h.basinWidth]

theorem diffusivityLoop_kd (expf : K → K) (dx : K) (x : Fin C → K) (shore : Fin R → K)
    (w : World R C K) {P : DiffuserParams K} (rs : List (Fin R)) (d d' : Diffuser R C K)
    (h : InUse P d) (h' : InUse P d') (hk : d.kd = d'.kd) :
    (diffusivityLoop expf dx x shore w rs d).kd = (diffusivityLoop expf dx x shore w rs d').kd := by
  induction rs generalizing d d' with
  | nil => exact hk
  | cons r rs ih =>
    simp only [diffusivityLoop]
    apply ih
    · constructor <;> simp [Diffuser.newLoad, h.plainSlope, h.waveBase, h.shorefaceHeight, h.alpha,
        h.shelfSlope, h.load0, h.loadSl, h.loadSl', h.basinWidth]
    · constructor <;> simp [Diffuser.newLoad, h'.plainSlope, h'.waveBase, h'.shorefaceHeight,
        h'.alpha, h'.shelfSlope, h'.load0, h'.loadSl, h'.loadSl', h'.basinWidth]
    · simp only [wetDiffusivity, landDiffusivity, Diffuser.newLoad, h.plainSlope, h.waveBase,
        h.shorefaceHeight, h.alpha, h.shelfSlope, h.load0, h.loadSl, h.basinWidth, h.load,
        h'.plainSlope, h'.waveBase, h'.shorefaceHeight, h'.alpha, h'.shelfSlope, h'.load0,
        h'.loadSl, h'.basinWidth, h'.load, hk]

theorem diffuserStep_inUse (env : Env R C K) (dt : K) {P : DiffuserParams K}
    {d d' : Diffuser R (C + 2) K} (h : InUse P d) (h' : InUse P d') (hk : d.kd = d'.kd)
    (w : World R (C + 2) K) :
    (∃ e, diffuserStep env.kind env.xtol env.rtol env.expf env.solve env.dx env.x dt d w =
        .error e ∧
      diffuserStep env.kind env.xtol env.rtol env.expf env.solve env.dx env.x dt d' w =
        .error e) ∨
    ∃ e e' we, diffuserStep env.kind env.xtol env.rtol env.expf env.solve env.dx env.x dt d w =
        .ok (e, we) ∧
      diffuserStep env.kind env.xtol env.rtol env.expf env.solve env.dx env.x dt d' w =
        .ok (e', we) ∧ InUse P e ∧ InUse P e' ∧ e.kd = e'.kd := by
  unfold diffuserStep
  cases hs : overRows (fun r => shorelineRow env.kind env.xtol env.rtol (List.ofFn env.x)
      (rowList w.topo r) w.seaLevel) with
  | error e => exact .inl ⟨e, rfl, rfl⟩
  | ok shore =>
    have hreg : d.Regular env.dx w ↔ d'.Regular env.dx w := by
      unfold Diffuser.Regular
      rw [h.plainSlope, h'.plainSlope, h.shorefaceHeight, h'.shorefaceHeight, h.alpha, h'.alpha,
        h.shelfSlope, h'.shelfSlope]
    by_cases hd : d.Regular env.dx w
    swap
    · dsimp only
      rw [if_neg hd, if_neg (fun hd' => hd (hreg.mpr hd'))]
      exact .inl ⟨_, rfl, rfl⟩
    dsimp only
    rw [if_pos hd, if_pos (hreg.mp hd)]
    have hkd := diffusivityLoop_kd env.expf env.dx env.x shore w (List.finRange R) d d' h h' hk
    have hu := diffusivityLoop_inUse env.expf env.dx env.x shore w (List.finRange R) d h
    have hu' := diffusivityLoop_inUse env.expf env.dx env.x shore w (List.finRange R) d' h'
    simp only [calcDiffusionCoef, hkd, hu.plainSlope, hu'.plainSlope]
    split
    · exact .inl ⟨_, rfl, rfl⟩
    · refine .inr ⟨_, _, _, rfl, rfl, ?_, ?_, rfl⟩
      · exact ⟨rfl, hu.waveBase, hu.shorefaceHeight, hu.alpha, hu.shelfSlope, hu.load0, hu.loadSl,
          hu.loadSl', hu.basinWidth, hu.load⟩
      · exact ⟨rfl, hu'.waveBase, hu'.shorefaceHeight, hu'.alpha, hu'.shelfSlope, hu'.load0,
          hu'.loadSl, hu'.loadSl', hu'.basinWidth, hu'.load⟩

end Verif
