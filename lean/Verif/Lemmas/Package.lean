import Verif.Lemmas.Prelude
import Verif.Lemmas.Processes
import Verif.Lemmas.Compaction
import Verif.Spec.Package
import Verif.Props.DriverRun

/-!
# The fields of a model made of the package's own processes
-/

set_option autoImplicit false
set_option linter.unusedSectionVars false

namespace Verif

open Spec Props

variable {K σ : Type*} {R C : ℕ} [Field K] [LinearOrder K] [IsStrictOrderedRing K]

/-- The second grid has every field that the first has. -/
structure Provides (w w' : World R C K) : Prop where
  increment : w.increment.isSome → w'.increment.isSome
  sand : w.sand.isSome → w'.sand.isSome
  sedLoad : w.sedLoad.isSome → w'.sedLoad.isSome
  waterIncr : w.waterIncr.isSome → w'.waterIncr.isSome
  seaIncr : w.seaIncr.isSome → w'.seaIncr.isSome
  rowShore : w.rowShore.isSome → w'.rowShore.isSome
  rowShelf : w.rowShelf.isSome → w'.rowShelf.isSome

theorem provides_refl (w : World R C K) : Provides w w :=
  ⟨id, id, id, id, id, id, id⟩

theorem provides_trans {u v w : World R C K} (h : Provides u v) (g : Provides v w) :
    Provides u w :=
  ⟨g.increment ∘ h.increment, g.sand ∘ h.sand, g.sedLoad ∘ h.sedLoad, g.waterIncr ∘ h.waterIncr,
    g.seaIncr ∘ h.seaIncr, g.rowShore ∘ h.rowShore, g.rowShelf ∘ h.rowShelf⟩

theorem needs_mono {p : Process K} {w w' : World R C K} (h : Provides w w') (hp : Needs p w) :
    Needs p w' := by
  cases p with
  | seaLevel curve start => trivial
  | compaction => trivial
  | diffusion P => trivial
  | subsidence curve => exact h.increment hp
  | fluvial P => exact ⟨h.sand hp.1, h.increment hp.2⟩
  | flexure t => exact ⟨h.sedLoad hp.1, h.increment hp.2⟩
  | waterFlexure t => exact ⟨h.seaIncr hp.1, h.waterIncr hp.2.1, h.increment hp.2.2⟩
  | shoreline alpha => exact ⟨h.rowShore hp.1, h.rowShelf hp.2⟩

theorem frame_provides {p : Process K} {w w' : World R (C + 2) K} (h : Frame p w w') :
    Provides w w' where
  increment := by rw [h.increment]; exact id
  sand := by rw [h.hasSand]; exact id
  sedLoad := by rw [h.sedLoad]; exact id
  waterIncr := by rw [h.waterIncr]; exact id
  seaIncr := h.seaIncr
  rowShore := by rw [h.rowShore]; exact id
  rowShelf := by rw [h.rowShelf]; exact id

theorem addZeros_isSome (f : Option (NodeField R C K)) : (addZeros f).isSome := by
  cases f <;> rfl

/-- A constructor creates the fields that the steps need and removes none. -/
theorem create_provides {env : Env R C K} {p : Process K} {s s' : ProcState R C K × World R (C + 2) K}
    (h : p.create env s = .ok s') : Needs p s'.2 ∧ Provides s.2 s'.2 := by
  cases p with
  | seaLevel curve start => cases h; exact ⟨trivial, provides_refl _⟩
  | compaction => cases h; exact ⟨trivial, provides_refl _⟩
  | subsidence curve =>
    simp only [Process.create] at h
    split at h
    · cases h
    · cases h
      exact ⟨addZeros_isSome _, fun _ => addZeros_isSome _, id, id, id, id, id, id⟩
  | diffusion P =>
    simp only [Process.create, diffuserInit] at h
    split_ifs at h
    · cases h
      exact ⟨trivial, id, id, id, id, id, id, id⟩
  | fluvial P =>
    cases h
    exact ⟨⟨addZeros_isSome _, addZeros_isSome _⟩, fun _ => addZeros_isSome _,
      fun _ => addZeros_isSome _, id, id, id, id, id⟩
  | flexure t =>
    simp only [Process.create] at h
    split at h
    · cases h
    · cases h
      exact ⟨⟨addZeros_isSome _, addZeros_isSome _⟩, fun _ => addZeros_isSome _, id,
        fun _ => addZeros_isSome _, id, id, id, id⟩
  | waterFlexure t =>
    simp only [Process.create] at h
    split at h
    · cases h
    · cases h
      exact ⟨⟨rfl, addZeros_isSome _, addZeros_isSome _⟩, fun _ => addZeros_isSome _, id,
        id, fun _ => addZeros_isSome _, fun _ => rfl, id, id⟩
  | shoreline alpha =>
    simp only [Process.create] at h
    split at h
    · cases h
    · rename_i w hw
      cases h
      obtain ⟨a, b, a', b', -, -, rfl⟩ := shorelineUpdate_world hw
      exact ⟨⟨rfl, rfl⟩, id, id, id, id, id, fun _ => rfl, fun _ => rfl⟩

theorem createAll_provides {env : Env R C K} (ps : List (Process K))
    {s s' : ProcState R C K × World R (C + 2) K} (h : createAll env ps s = .ok s') :
    (∀ p ∈ ps, Needs p s'.2) ∧ Provides s.2 s'.2 := by
  induction ps generalizing s with
  | nil => cases h; exact ⟨by simp, provides_refl _⟩
  | cons p ps ih =>
    rw [createAll] at h
    cases hc : p.create env s with
    | error e => rw [hc] at h; cases h
    | ok s1 =>
      rw [hc] at h
      obtain ⟨h1, h2⟩ := create_provides hc
      obtain ⟨h3, h4⟩ := ih h
      refine ⟨fun q hq => ?_, provides_trans h2 h4⟩
      rcases List.mem_cons.mp hq with rfl | hq
      · exact needs_mono h4 h1
      · exact h3 q hq

/-- The constructors do not touch the layers, the topography, the bedrock and the deposit. -/
theorem create_world {env : Env R C K} {p : Process K} {s s' : ProcState R C K × World R (C + 2) K}
    (h : p.create env s = .ok s') : s'.2.layers = s.2.layers ∧ s'.2.topo = s.2.topo ∧
      s'.2.bedrock = s.2.bedrock ∧ s'.2.deposit = s.2.deposit := by
  cases p with
  | seaLevel curve start => cases h; exact ⟨rfl, rfl, rfl, rfl⟩
  | compaction => cases h; exact ⟨rfl, rfl, rfl, rfl⟩
  | subsidence curve =>
    simp only [Process.create] at h
    split at h
    · cases h
    · cases h; exact ⟨rfl, rfl, rfl, rfl⟩
  | diffusion P =>
    simp only [Process.create, diffuserInit] at h
    split_ifs at h
    · cases h; exact ⟨rfl, rfl, rfl, rfl⟩
  | fluvial P => cases h; exact ⟨rfl, rfl, rfl, rfl⟩
  | flexure t =>
    simp only [Process.create] at h
    split at h
    · cases h
    · cases h; exact ⟨rfl, rfl, rfl, rfl⟩
  | waterFlexure t =>
    simp only [Process.create] at h
    split at h
    · cases h
    · cases h; exact ⟨rfl, rfl, rfl, rfl⟩
  | shoreline alpha =>
    simp only [Process.create] at h
    split at h
    · cases h
    · rename_i w hw
      cases h
      obtain ⟨a, b, a', b', -, -, rfl⟩ := shorelineUpdate_world hw
      exact ⟨rfl, rfl, rfl, rfl⟩

theorem createAll_world {env : Env R C K} (ps : List (Process K))
    {s s' : ProcState R C K × World R (C + 2) K} (h : createAll env ps s = .ok s') :
    s'.2.layers = s.2.layers ∧ s'.2.topo = s.2.topo ∧ s'.2.bedrock = s.2.bedrock ∧
      s'.2.deposit = s.2.deposit := by
  induction ps generalizing s with
  | nil => cases h; exact ⟨rfl, rfl, rfl, rfl⟩
  | cons p ps ih =>
    rw [createAll] at h
    cases hc : p.create env s with
    | error e => rw [hc] at h; cases h
    | ok s1 =>
      rw [hc] at h
      obtain ⟨a1, a2, a3, a4⟩ := create_world hc
      obtain ⟨b1, b2, b3, b4⟩ := ih h
      exact ⟨b1.trans a1, b2.trans a2, b3.trans a3, b4.trans a4⟩

/-- `_update_fields` removes no field and leaves the positions of the shore alone. -/
theorem updateFields_fields {w w' : World R C K} (h : updateFields w = .ok w') :
    Provides w w' ∧ (w'.sedLoad.isSome = w.sedLoad.isSome) ∧ w'.seaIncr = w.seaIncr ∧
      w'.rowShore = w.rowShore ∧ w'.rowShelf = w.rowShelf := by
  unfold updateFields at h
  cases h1 : updateSedLoad w with
  | error e => rw [h1] at h; cases h
  | ok w1 =>
    rw [h1] at h
    have hs : w1.sedLoad.isSome = w.sedLoad.isSome := by
      unfold updateSedLoad at h1
      cases hl : w.sedLoad with
      | none => rw [hl] at h1; cases h1; rw [hl]
      | some l =>
        rw [hl] at h1
        cases h2 : w.sand with
        | none => rw [h2] at h1; cases h1
        | some sand => rw [h2] at h1; cases h1; rfl
    obtain ⟨-, -, e3, -, -, e6, -, e8, e9, e10, -, e12⟩ := updateSedLoad_ok h1
    have hb : ∀ v : World R C K, v = resetTopo (updateBedrock w1) →
        v.increment.isSome = w.increment.isSome ∧ v.sand = w.sand ∧ v.sedLoad = w1.sedLoad ∧
        v.waterIncr = w.waterIncr ∧ v.seaIncr = w.seaIncr ∧ v.rowShore = w.rowShore ∧
        v.rowShelf = w.rowShelf := by
      rintro v rfl
      unfold resetTopo updateBedrock
      rw [← e3]
      cases hi : w1.increment <;> simp [hi, e6, e8, e9, e10, e12]
    obtain ⟨b1, b2, b3, b4, b5, b6, b7⟩ := hb _ rfl
    dsimp only at h
    cases hx : (resetTopo (updateBedrock w1)).waterIncr with
    | none =>
      rw [hx] at h; cases h
      refine ⟨⟨by rw [b1]; exact id, by rw [b2]; exact id, by rw [b3, hs]; exact id,
        by rw [b4]; exact id, by rw [b5]; exact id, by rw [b6]; exact id, by rw [b7]; exact id⟩,
        by rw [b3, hs], b5, b6, b7⟩
    | some f =>
      rw [hx] at h; cases h
      refine ⟨⟨by rw [← b1]; exact id, by rw [← b2]; exact id, by rw [← hs, ← b3]; exact id,
        fun _ => rfl, by rw [← b5]; exact id, by rw [← b6]; exact id, by rw [← b7]; exact id⟩,
        by rw [← hs, ← b3], b5, b6, b7⟩

theorem runComponents_provides {env : Env R C K} (ps : List (Process K)) {dt : K}
    {q q' : ProcState R C K} {w w' : World R (C + 2) K}
    (h : runComponents (ps.map (Process.component env)) dt (q, w) = .ok (q', w')) :
    Provides w w' := by
  induction ps generalizing q w with
  | nil => cases h; exact provides_refl _
  | cons p ps ih =>
    rw [List.map_cons, runComponents] at h
    cases hc : p.component env dt (q, w) with
    | error e => rw [hc] at h; cases h
    | ok s =>
      obtain ⟨q1, w1⟩ := s
      rw [hc] at h
      exact provides_trans (frame_provides (component_frame hc)) (ih h)

theorem advance_provides {env : Env R C K} {ps : List (Process K)} {porosity : ProcState R C K → K}
    {time dt : K} {s s' : ModelState (ProcState R C K) R (C + 2) K}
    (h : advanceComponents (ps.map (Process.component env)) porosity time dt s = .ok s') :
    Provides s.world s'.world := by
  obtain ⟨p, w, ev, w3, a, h1, h2, h3, h4, rfl⟩ := advanceComponents_ok h
  have a1 : Provides s.world (clearDeposit s.world) := ⟨id, id, id, id, id, id, id⟩
  have a2 := runComponents_provides ps h1
  have a3 : Provides w { w with layers := ev } := ⟨id, id, id, id, id, id, id⟩
  have a4 := (updateFields_fields h3).1
  have a5 : Provides w3 { w3 with layers := a.layers } := ⟨id, id, id, id, id, id, id⟩
  exact provides_trans a1 (provides_trans a2 (provides_trans a3 (provides_trans a4 a5)))

theorem history_provides {env : Env R C K} {ps : List (Process K)} {porosity : ProcState R C K → K}
    {s s' : ModelState (ProcState R C K) R (C + 2) K}
    {obs : List (Observation (ProcState R C K) R (C + 2) K)}
    (h : ModelHistory (ps.map (Process.component env)) porosity s obs s') :
    Provides s.world s'.world := by
  induction h with
  | nil s => exact provides_refl _
  | step hc ha hr ih => exact provides_trans (advance_provides ha) ih

theorem modelInit_provides {start : K} {setTime : K → σ → σ} {p : σ} {w : World R C K}
    {s : ModelState σ R C K} (h : modelInit start setTime p w = .ok s) : Provides w s.world := by
  unfold modelInit at h
  cases h1 : w.rowShore with
  | none => rw [h1] at h; cases h
  | some a =>
    cases h2 : w.rowShelf with
    | none => rw [h1, h2] at h; cases h
    | some b =>
      rw [h1, h2] at h
      dsimp only at h
      split at h
      · cases h
      · cases h
        cases w.waterLoad <;> exact ⟨id, id, id, id, id, fun _ => rfl, fun _ => rfl⟩

/-! ### `KeyError` -/

theorem noKeyError_of_ok {α : Type*} {x : Except Err α} {a : α} (h : x = .ok a) : NoKeyError x := by
  intro s hs; rw [h] at hs; cases hs

theorem bisect_noKeyError {f : Curve K} (hf : ∀ v, NoKeyError (f v)) (xtol rtol a b : K) :
    NoKeyError (scipyBisect f xtol rtol a b) := by
  have loop : ∀ (fa : K) (n : ℕ) (a dm : K), NoKeyError (scipyBisectLoop f xtol rtol fa n a dm) := by
    intro fa n
    induction n with
    | zero => intro a dm s h; cases h
    | succ n ih =>
      intro a dm s h
      rw [scipyBisectLoop] at h
      dsimp only at h
      cases hm : f (a + dm / 2) with
      | error e => rw [hm] at h; cases h; exact hf _ s hm
      | ok fm =>
        rw [hm] at h
        dsimp only at h
        split_ifs at h <;> exact ih _ _ s h
  intro s h
  unfold scipyBisect at h
  cases ha : f a with
  | error e => rw [ha] at h; cases h; exact hf _ s ha
  | ok fa =>
    rw [ha] at h
    cases hb : f b with
    | error e => rw [hb] at h; cases h; exact hf _ s hb
    | ok fb =>
      rw [hb] at h
      dsimp only at h
      split_ifs at h <;> first | (cases h; done) | exact loop _ _ _ _ s h

theorem shorelineRow_noKeyError {kind : InterpKind K} (hk : ∀ t, NoKeyError (kind t))
    (hf : ∀ t f, kind t = .ok f → ∀ v, NoKeyError (f v)) (xtol rtol : K) (x z : List K) (sl : K) :
    NoKeyError (shorelineRow kind xtol rtol x z sl) := by
  intro s h
  unfold shorelineRow at h
  cases hi : shorelineIndexRow x.length z sl with
  | error e =>
    have he : e = .shorelineError ∨ e = .indexError := by
      unfold shorelineIndexRow at hi
      dsimp only at hi
      split_ifs at hi
      · cases hi; exact .inl rfl
      · split at hi
        · cases hi
        · cases hi; exact .inr rfl
    rw [hi] at h
    rcases he with rfl | rfl
    · dsimp only at h
      cases hz : z.head? with
      | none => rw [hz] at h; cases h
      | some z0 =>
        rw [hz] at h
        dsimp only at h
        split at h <;> cases h
    · cases h
  | ok i =>
    rw [hi] at h
    dsimp only at h
    split at h
    · rename_i e he
      cases h
      exact hk _ s he
    · rename_i func hfunc
      split at h
      · exact bisect_noKeyError (hf _ _ hfunc) _ _ _ _ s h
      · cases h

theorem overRows_noKeyError {α : Type*} {n : ℕ} {g : Fin n → Except Err α}
    (hg : ∀ i, NoKeyError (g i)) : NoKeyError (overRows g) := by
  induction n with
  | zero => intro s h; cases h
  | succ n ih =>
    intro s h
    rw [overRows] at h
    cases h0 : g 0 with
    | error e => rw [h0] at h; cases h; exact hg 0 s h0
    | ok a =>
      rw [h0] at h
      dsimp only at h
      cases h1 : overRows fun i => g i.succ with
      | error e => rw [h1] at h; cases h; exact ih (fun i => hg i.succ) s h1
      | ok as => rw [h1] at h; cases h

theorem argmax_noKeyError (l : List K) : NoKeyError (argmax l) := by
  intro s h
  cases l <;> cases h

theorem shelfEdge_noKeyError (x dz : List K) (shore alpha : K) :
    NoKeyError (shelfEdge x dz shore alpha) := by
  intro s h
  unfold shelfEdge at h
  dsimp only at h
  split_ifs at h
  · cases h
  · cases h
  · split at h
    · rename_i e he
      cases h
      exact argmax_noKeyError _ s he
    · split at h <;> cases h

theorem finderRow_noKeyError {kind : InterpKind K} (hk : ∀ t, NoKeyError (kind t))
    (hf : ∀ t f, kind t = .ok f → ∀ v, NoKeyError (f v)) (xtol rtol alpha : K) (b : Bool)
    (x z dz : List K) (sl : K) :
    NoKeyError (shorelineFinderRow kind xtol rtol alpha b x z dz sl) := by
  intro s h
  unfold shorelineFinderRow at h
  cases h1 : shorelineRow kind xtol rtol x z sl with
  | error e => rw [h1] at h; cases h; exact shorelineRow_noKeyError hk hf _ _ _ _ _ s h1
  | ok shore =>
    rw [h1] at h
    dsimp only at h
    split at h
    · cases h
    · rename_i e h2 h3
      cases h
      exact shelfEdge_noKeyError _ _ _ _ s h3
    · split_ifs at h <;> cases h

theorem fluvialRow_noKeyError (expf sqrtf : K → K) (P : FluvialParams K) (dx dt : K)
    (x z deposit dz : Fin C → K) (sl : K) (shore : Except Err K) (hs : NoKeyError shore) :
    NoKeyError (fluvialRow expf sqrtf P dx dt x z deposit dz sl shore) := by
  have loop : ∀ (width eps : XNum K) (qw : K) (slope : Fin C → K) (l : List (Fin C)) (mud : XNum K)
      (conc percent : Fin C → XNum K),
      NoKeyError (fluvialLoop expf P width eps dx dt qw slope deposit dz l mud conc percent) := by
    intro width eps qw slope l
    induction l with
    | nil => intro mud conc percent s h; cases h
    | cons i rest ih =>
      intro mud conc percent s h
      rw [fluvialLoop] at h
      dsimp only at h
      split_ifs at h <;> first | (cases h; done) | exact ih _ _ _ s h
  intro s h
  unfold fluvialRow at h
  dsimp only at h
  split_ifs at h with h1 h2 h3
  · cases h
  · cases h
  · cases shore with
    | error e => dsimp only at h; cases h; exact hs s rfl
    | ok v =>
      dsimp only at h
      split at h
      · rename_i e he
        cases h
        exact loop _ _ _ _ _ _ _ _ s he
      · cases h
  · cases shore with
    | error e => dsimp only at h; cases h; exact hs s rfl
    | ok v => cases h

/-- A process that finds its fields raises no `KeyError`. -/
theorem component_noKeyError {env : Env R C K} {ps : List (Process K)} (henv : ExternalsFine env ps)
    {p : Process K} (hp : p ∈ ps) (dt : K) (q : ProcState R C K) (w : World R (C + 2) K)
    (hn : Needs p w) : NoKeyError (p.component env dt (q, w)) := by
  intro s h
  cases p with
  | seaLevel curve start =>
    simp only [Process.component, seaComponent, seaStep] at h
    cases hc : curve (q.seaTime + dt) with
    | error e =>
      simp only [hc] at h
      cases h
      exact henv.curve curve start hp _ s hc
    | ok v => simp only [hc] at h; cases h
  | subsidence curve =>
    obtain ⟨f, hf⟩ := Option.isSome_iff_exists.mp hn
    simp only [Process.component, subsidenceComponent, subsidenceStep, hf] at h
    cases h
  | compaction =>
    simp only [Process.component] at h
    split at h
    · rename_i e he
      cases h
      exact henv.compact _ _ s he
    · cases h
  | diffusion P =>
    simp only [Process.component, diffuserComponent, diffuserStep] at h
    cases h1 : overRows (fun r => shorelineRow env.kind env.xtol env.rtol (List.ofFn env.x)
        (rowList w.topo r) w.seaLevel) with
    | error e =>
      rw [h1] at h
      cases h
      exact overRows_noKeyError
        (fun r => shorelineRow_noKeyError henv.kind henv.interp _ _ _ _ _) s h1
    | ok shore =>
      rw [h1] at h
      dsimp only at h
      split at h
      · rename_i e he
        cases h
        split_ifs at he
        · split at he
          · rename_i e' he'
            cases he
            exact henv.solve _ _ _ s he'
          · cases he
        · cases he
      · cases h
  | fluvial P =>
    obtain ⟨f, hf⟩ := Option.isSome_iff_exists.mp hn.1
    obtain ⟨i, hi⟩ := Option.isSome_iff_exists.mp hn.2
    simp only [Process.component, fluvialComponent, fluvialStep, hf, hi] at h
    split at h
    · rename_i e he
      cases h
      split_ifs at he
      · split at he
        · rename_i e' he'
          cases he
          exact fluvialRow_noKeyError _ _ _ _ _ _ _ _ _ _ _
            (shorelineRow_noKeyError henv.kind henv.interp _ _ _ _ _) s he'
        · split_ifs at he <;> cases he
      · cases he
    · cases h
  | flexure t =>
    obtain ⟨f, hf⟩ := Option.isSome_iff_exists.mp hn.1
    obtain ⟨i, hi⟩ := Option.isSome_iff_exists.mp hn.2
    simp only [Process.component, flexComponent, sedFlexStep, hf, subtractDeflection, hi] at h
    cases h
  | waterFlexure t =>
    obtain ⟨a, ha⟩ := Option.isSome_iff_exists.mp hn.1
    obtain ⟨f, hf⟩ := Option.isSome_iff_exists.mp hn.2.1
    obtain ⟨i, hi⟩ := Option.isSome_iff_exists.mp hn.2.2
    simp only [Process.component, flexComponent, waterFlexStep, ha, hf, subtractDeflection, hi] at h
    cases h
  | shoreline alpha =>
    obtain ⟨a, ha⟩ := Option.isSome_iff_exists.mp hn.1
    obtain ⟨b, hb⟩ := Option.isSome_iff_exists.mp hn.2
    simp only [Process.component, shorelineComponent, shorelineUpdate, ha, hb] at h
    split at h
    · rename_i e he
      cases h
      split at he
      · rename_i e' he'
        cases he
        exact overRows_noKeyError
          (fun r => finderRow_noKeyError henv.kind henv.interp _ _ _ _ _ _ _ _) s he'
      · cases he
    · cases h

theorem runComponents_noKeyError {env : Env R C K} {all : List (Process K)}
    (henv : ExternalsFine env all) (ps : List (Process K)) (hps : ∀ p ∈ ps, p ∈ all) (dt : K)
    (q : ProcState R C K) (w : World R (C + 2) K) (hn : ∀ p ∈ ps, Needs p w) :
    NoKeyError (runComponents (ps.map (Process.component env)) dt (q, w)) := by
  induction ps generalizing q w with
  | nil => intro s h; cases h
  | cons p ps ih =>
    intro s h
    rw [List.map_cons, runComponents] at h
    cases hc : p.component env dt (q, w) with
    | error e =>
      rw [hc] at h
      cases h
      exact component_noKeyError henv (hps p (by simp)) dt q w (hn p (by simp)) s hc
    | ok x =>
      obtain ⟨q1, w1⟩ := x
      rw [hc] at h
      exact ih (fun p hp => hps p (by simp [hp])) q1 w1
        (fun p hp => needs_mono (frame_provides (component_frame hc)) (hn p (by simp [hp]))) s h

end Verif
