import Mathlib.Algebra.Order.Ring.Rat
import Verif.Lemmas.Output

/-!
# Output files: C44, C46 to C49, C72 to C74
-/

set_option autoImplicit false
set_option linter.unusedSectionVars false

namespace Verif.Props

open Verif Spec

variable {K A : Type*} [Field K] [LinearOrder K]

/-! ## C49: the interval -/

/-- C49. The values that the interval setter accepts: the integers from 0 on, and the two
booleans. Everything else is refused. -/
theorem interval_accepted_iff (v : PyNumber K) :
    (∃ n, checkInterval v = .ok n) ↔ (∃ i : ℤ, v = .int i ∧ 0 ≤ i) ∨ ∃ b, v = .bool b := by
  cases v with
  | int i =>
    simp only [checkInterval]
    by_cases h : i < 0
    · rw [if_pos h]
      constructor
      · rintro ⟨n, hn⟩
        cases hn
      · rintro (⟨j, hj, h0⟩ | ⟨b, hb⟩)
        · cases hj
          omega
        · cases hb
    · rw [if_neg h]
      exact ⟨fun _ => .inl ⟨i, rfl, by omega⟩, fun _ => ⟨_, rfl⟩⟩
  | bool b => exact ⟨fun _ => .inr ⟨b, rfl⟩, fun _ => ⟨_, rfl⟩⟩
  | float x =>
    simp only [checkInterval]
    constructor
    · rintro ⟨n, hn⟩
      by_cases h : x < 0
      · rw [if_pos h] at hn
        cases hn
      · rw [if_neg h] at hn
        cases hn
    · rintro (⟨j, hj, _⟩ | ⟨b, hb⟩)
      · cases hj
      · cases hb
  | nan =>
    constructor
    · rintro ⟨n, hn⟩
      cases hn
    · rintro (⟨j, hj, _⟩ | ⟨b, hb⟩)
      · cases hj
      · cases hb
  | other =>
    constructor
    · rintro ⟨n, hn⟩
      cases hn
    · rintro (⟨j, hj, _⟩ | ⟨b, hb⟩)
      · cases hj
      · cases hb

/-- C49. An accepted integer is stored as it is. -/
theorem interval_stored (i : ℕ) : checkInterval (.int i : PyNumber K) = .ok i := by
  have : ¬ ((i : ℤ) < 0) := by omega
  simp only [checkInterval, this, if_false, Int.toNat_natCast]

/-- C49 is false: an interval of 0 is accepted, and then every step fails. -/
theorem interval_zero_fails (w : Writer K) (fs : FileSystem K A) (g : GridView A) (dt : Option K) :
    checkInterval (.int 0 : PyNumber K) = .ok 0 ∧
    writerStep g dt ({ w with interval := 0 }, fs) = .error .zeroDivision := by
  constructor
  · exact interval_stored 0
  · simp [writerStep]

theorem npIndex_error {a : List A} {i : ℤ} {e : Err} (h : npIndex a i = .error e) :
    e = .indexError := by
  unfold npIndex at h
  dsimp only at h
  generalize (if i < 0 then i + (a.length : ℤ) else i) = j at h
  by_cases hj : j < 0
  · rw [if_pos hj] at h
    cases h
    rfl
  · rw [if_neg hj] at h
    cases ha : a[j.toNat]? with
    | none => rw [ha] at h; cases h; rfl
    | some v => rw [ha] at h; cases h

theorem mapM_error {α β : Type*} {f : α → Except Err β} {e0 : Err}
    (hf : ∀ a e, f a = .error e → e = e0) : ∀ (l : List α) (e : Err),
    l.mapM f = .error e → e = e0 := by
  intro l
  induction l with
  | nil => intro e h; cases h
  | cons a l ih =>
    intro e h
    rw [List.mapM_cons] at h
    cases ha : f a with
    | error e' =>
      rw [ha] at h
      cases h
      exact hf a _ ha
    | ok b =>
      rw [ha] at h
      cases hl : l.mapM f with
      | error e' =>
        rw [hl] at h
        cases h
        exact ih _ hl
      | ok bs =>
        rw [hl] at h
        cases h

theorem takeIds_error {a : List A} {ids : Ids} {e : Err} (h : takeIds a ids = .error e) :
    e = .indexError := by
  cases ids with
  | all => cases h
  | list l => exact mapM_error (fun _ _ h => npIndex_error h) l e h

theorem setGridCoordinates_error {g : GridView A} {loc : String} {ids : Ids} {root : Dataset K A}
    {e : Err} (h : setGridCoordinates g loc ids root = .error e) : e ≠ .zeroDivision := by
  unfold setGridCoordinates at h
  split_ifs at h
  · cases h; simp
  · cases hy : takeIds (g.yOf loc) ids with
    | error e' => rw [hy] at h; cases h; rw [takeIds_error hy]; simp
    | ok y => rw [hy] at h; cases h
  · cases hy : takeIds (g.xOf loc) ids with
    | error e' => rw [hy] at h; cases h; rw [takeIds_error hy]; simp
    | ok y => rw [hy] at h; cases h
  · cases hx : takeIds (g.xOf loc) ids with
    | error e' => rw [hx] at h; cases h; rw [takeIds_error hx]; simp
    | ok x =>
      rw [hx] at h
      cases hy : takeIds (g.yOf loc) ids with
      | error e' => rw [hy] at h; cases h; rw [takeIds_error hy]; simp
      | ok y => rw [hy] at h; cases h
  · cases h; simp

theorem forLocs_error {f : String → Dataset K A → Except Err (Dataset K A)}
    (hf : ∀ loc root e, f loc root = .error e → e ≠ .zeroDivision) :
    ∀ (locs : List String) (root : Dataset K A) (e : Err),
    forLocs f locs root = .error e → e ≠ .zeroDivision := by
  intro locs
  induction locs with
  | nil => intro root e h; cases h
  | cons loc locs ih =>
    intro root e h
    simp only [forLocs] at h
    cases hl : f loc root with
    | error e' => rw [hl] at h; cases h; exact hf _ _ _ hl
    | ok root' => rw [hl] at h; exact ih root' e h

theorem setOneField_error {g : GridView A} {loc : String} {ids : Ids} {name : String}
    {root : Dataset K A} {e : Err} (h : setOneField g loc ids name root = .error e) :
    e ≠ .zeroDivision := by
  unfold setOneField at h
  cases hv : g.field loc name with
  | none => rw [hv] at h; cases h; simp
  | some v =>
    rw [hv] at h
    dsimp only at h
    cases ht : (if loc = "grid" then (.ok v : Except Err (List A)) else takeIds v ids) with
    | error e' =>
      rw [ht] at h
      cases h
      by_cases hl : loc = "grid"
      · rw [if_pos hl] at ht; cases ht
      · rw [if_neg hl] at ht; rw [takeIds_error ht]; simp
    | ok values =>
      rw [ht] at h
      dsimp only at h
      cases hd : root.dims loc with
      | none => rw [hd] at h; cases h; simp
      | some n =>
        rw [hd] at h
        dsimp only at h
        cases hb : broadcastTo n values with
        | ok s => rw [hb] at h; cases h
        | error e' =>
          rw [hb] at h
          cases h
          unfold broadcastTo at hb
          split_ifs at hb
          split at hb
          · cases hb
          · cases hb; simp

theorem setField_error {g : GridView A} {loc : String} {ids : Ids} {names : List String}
    {root : Dataset K A} {e : Err} (h : setField g loc ids names root = .error e) :
    e ≠ .zeroDivision := by
  unfold setField at h
  generalize fieldNames g loc names = ns at h
  induction ns generalizing root with
  | nil => cases h
  | cons n ns ih =>
    simp only [setFieldNames] at h
    cases hl : setOneField g loc ids n root with
    | error e' => rw [hl] at h; cases h; exact setOneField_error hl
    | ok root' => rw [hl] at h; exact ih h

theorem setLayerVar_error {R C r c : ℕ} {data : List (List A)} {old : ℕ → Option (List A)} {e : Err}
    (h : setLayerVar R C r c data old = .error e) : e = .valueError := by
  unfold setLayerVar at h
  cases hm : data.mapM (broadcastLayer R C r c) with
  | ok s => rw [hm] at h; cases h
  | error e' =>
    rw [hm] at h
    cases h
    refine mapM_error (fun a e he => ?_) data _ hm
    unfold broadcastLayer at he
    split_ifs at he
    cases he
    rfl

theorem setLayerVars_error {g : GridView A} {r c : ℕ} {e : Err} : ∀ (names : List String)
    (vars : String → Option (ℕ → Option (List A))),
    setLayerVars g r c names vars = .error e → e = .valueError := by
  intro names
  induction names with
  | nil => intro vars h; cases h
  | cons n ns ih =>
    intro vars h
    simp only [setLayerVars] at h
    cases hl : setLayerVar g.rows (g.cols - 2) r c (g.layer n) ((vars n).getD fun _ => none) with
    | error e' => rw [hl] at h; cases h; exact setLayerVar_error hl
    | ok v => rw [hl] at h; exact ih _ h

theorem setLayers_error {g : GridView A} {root : Dataset K A} {e : Err}
    (h : setLayers g root = .error e) : e ≠ .zeroDivision := by
  unfold setLayers at h
  cases hr : root.dims "row" with
  | none => rw [hr] at h; cases h; simp
  | some r =>
    cases hc : root.dims "column" with
    | none => rw [hr, hc] at h; cases h; simp
    | some c =>
      rw [hr, hc] at h
      dsimp only at h
      cases hv : setLayerVars g r c g.tracking root.layerVars with
      | error e' => rw [hv] at h; cases h; rw [setLayerVars_error _ _ hv]; simp
      | ok vars =>
        rw [hv] at h
        dsimp only at h
        cases hz : setLayerVar g.rows (g.cols - 2) r c g.dz ((vars "thickness").getD fun _ => none) with
        | error e' => rw [hz] at h; cases h; rw [setLayerVar_error hz]; simp
        | ok v => rw [hz] at h; cases h

theorem toNetcdf_error {g : GridView A} {path : String} {mode : Mode} {b : Bool} {time : K}
    {at_ : List String} {ids : IdsArg} {names : Names} {l : Bool} {fs : FileSystem K A} {e : Err}
    (h : toNetcdf g path mode b time at_ ids names l fs = .error e) : e ≠ .zeroDivision := by
  unfold toNetcdf at h
  split_ifs at h
  · cases h; simp
  · cases ho : openDataset g mode at_ ids (fs path) with
    | error e' =>
      rw [ho] at h
      cases h
      unfold openDataset at ho
      split at ho
      · cases ho; simp
      · exact forLocs_error (fun _ _ _ h => setGridCoordinates_error h) _ _ _ ho
      · cases ho
      · cases ho; simp
    | ok root =>
      rw [ho] at h
      dsimp only at h
      cases ha : appendSlice g time at_ ids names l root with
      | ok r => rw [ha] at h; cases h
      | error e' =>
        rw [ha] at h
        cases h
        unfold appendSlice at ha
        dsimp only at ha
        cases h1 : forLocs (fun loc => setField g loc (ids.get loc) (namesDict g at_ names loc)) at_
            { root with times := root.times ++ [time] } with
        | error e' =>
          rw [h1] at ha
          cases ha
          exact forLocs_error (fun _ _ _ h => setField_error h) _ _ _ h1
        | ok r2 =>
          rw [h1] at ha
          dsimp only at ha
          cases h2 : setField g "row" ids.row ["x_of_shore", "x_of_shelf_edge"] r2 with
          | error e' => rw [h2] at ha; cases ha; exact setField_error h2
          | ok r3 =>
            rw [h2] at ha
            dsimp only at ha
            split_ifs at ha
            exact setLayers_error ha

/-- C49, the part that holds: with a positive interval no step raises a `ZeroDivisionError`. -/
theorem interval_positive_partial (w : Writer K) (hw : 0 < w.interval) (fs : FileSystem K A)
    (g : GridView A) (dt : Option K) : writerStep g dt (w, fs) ≠ .error .zeroDivision := by
  intro h
  unfold writerStep at h
  dsimp only at h
  rw [if_neg (by omega)] at h
  by_cases hm : w.count % w.interval = 0
  · rw [if_pos hm] at h
    cases ht : toNetcdf g w.filepath .a true w.time defaultLocations
        { row := .list w.rows, column := .list ((List.range (g.cols - 2)).map Int.ofNat) }
        (.dict [("node", some w.fields)]) true fs with
    | ok fs' => rw [ht] at h; cases h
    | error e =>
      rw [ht] at h
      cases h
      exact toNetcdf_error ht rfl
  · rw [if_neg hm] at h
    cases h

/-! ## C48: existing files -/

/-- C48. Without `clobber` a regular file at the new path makes the setter fail, and neither the
file system nor the path of the writer changes. -/
theorem existing_file_kept (old : Option String) (new : String) (fs : FileSystem K A)
    (h : (fs new).isFile = true) :
    setFilepath false old new fs = ((old, fs), .error .runtimeError) := by
  simp [setFilepath, h]

/-- C48. In all cases only the entry at the new path can change, and if it does, it is gone and the
path is set. A regular file changes only with `clobber`. -/
theorem filepath_touches_only (clobber : Bool) (old : Option String) (new : String)
    (fs : FileSystem K A) (p : String)
    (h : (setFilepath clobber old new fs).1.2 p ≠ fs p) :
    p = new ∧ (setFilepath clobber old new fs).1.2 p = .absent ∧
      setFilepath clobber old new fs = ((some new, Function.update fs new .absent), .ok ()) ∧
      ((fs new).isFile = true → clobber = true) := by
  by_cases hc : (fs new).isFile = true ∧ ¬ clobber = true
  · exfalso
    apply h
    simp [setFilepath, hc.1, hc.2]
  · have himp : (fs new).isFile = true → clobber = true := by
      intro h1
      by_contra h2
      exact hc ⟨h1, h2⟩
    have hset : setFilepath clobber old new fs =
        ((some new, Function.update fs new .absent), .ok ()) := by
      unfold setFilepath at h ⊢
      rw [if_neg hc] at h ⊢
      cases he : fs new with
      | dir => rw [he] at h; exact absurd rfl h
      | absent => rw [he] at h; exact absurd rfl h
      | dataset d => rfl
      | raw => rfl
      | danglingLink => rfl
    rw [hset] at h ⊢
    have hp : p = new := by
      by_contra hne
      exact h (Function.update_of_ne hne _ _)
    subst hp
    exact ⟨rfl, Function.update_self .., rfl, himp⟩

/-- C48. When the setter succeeds there is no file at the path any more. -/
theorem filepath_ok (clobber : Bool) (old : Option String) (new : String) (fs : FileSystem K A)
    (h : (setFilepath clobber old new fs).2 = .ok ()) :
    (setFilepath clobber old new fs).1 = (some new, Function.update fs new .absent) := by
  unfold setFilepath at h ⊢
  by_cases hc : (fs new).isFile = true ∧ ¬ clobber = true
  · rw [if_pos hc] at h
    cases h
  · rw [if_neg hc] at h ⊢
    cases he : fs new with
    | dir => rw [he] at h; cases h
    | absent =>
      dsimp only
      rw [← he, Function.update_eq_self]
    | dataset d => rfl
    | raw => rfl
    | danglingLink => rfl

/-- A constructor that succeeds: the writer starts at time 0 and there is no file at its path. -/
theorem writerInit_ok {R : ℕ} {path : String} {interval : PyNumber K} {fields : List String}
    {clobber : Bool} {rows : Option (List ℤ)} {fs fs0 : FileSystem K A} {w0 : Writer K}
    (h : writerInit R path interval fields clobber rows fs = (fs0, .ok w0)) :
    fs0 = Function.update fs path .absent ∧ w0.filepath = path ∧ w0.time = 0 ∧ w0.count = 0 ∧
      w0.fields = fields ∧ checkInterval interval = .ok w0.interval ∧
      (rows = none → w0.rows = allRows R) ∧
      (∀ l, rows = some l → w0.rows = l.map (· - 1)) ∧ ((fs path).isFile = true → clobber = true) := by
  unfold writerInit at h
  cases hi : checkInterval interval with
  | error e => rw [hi] at h; cases h
  | ok n =>
    rw [hi] at h
    dsimp only at h
    have hcl : (setFilepath clobber none path fs).2 = .ok () → (fs path).isFile = true →
        clobber = true := by
      intro hok hf
      by_contra hc
      have := existing_file_kept (K := K) none path fs hf
      rw [Bool.not_eq_true] at hc
      rw [hc, this] at hok
      cases hok
    cases hs : setFilepath clobber none path fs with
    | mk a b =>
      rw [hs] at h
      cases b with
      | error e => cases h
      | ok u =>
        obtain ⟨p, fs'⟩ := a
        have hok : (setFilepath clobber none path fs).2 = .ok () := by rw [hs]
        have h1 := filepath_ok clobber none path fs hok
        rw [hs] at h1
        cases h1
        cases h
        refine ⟨rfl, rfl, rfl, rfl, rfl, rfl, ?_, ?_, hcl hok⟩
        · rintro rfl
          rfl
        · rintro l rfl
          rfl

/-- C48. A constructor that fails because of the interval has not touched the file. -/
theorem bad_interval_keeps_file (R : ℕ) (path : String) (interval : PyNumber K)
    (fields : List String) (clobber : Bool) (rows : Option (List ℤ)) (fs : FileSystem K A)
    (e : Err) (h : checkInterval interval = .error e) :
    writerInit R path interval fields clobber rows fs = (fs, .error e) := by
  simp only [writerInit, h]

/-! ## C44, C46: what is in the file -/

/-- C44 and C46. A writer created for all rows, run for any calls with positive intervals on grids
of the same sizes, never fails. Its file then holds exactly one time slice for each call whose
number is a multiple of the interval in force, labelled with the length of the calls before it,
with the fields as they were at that call. Nothing that was in the file before is left, and no
other file has changed. -/
theorem writer_history {z : Sizes} {path : String} {interval : PyNumber K} {fields : List String}
    {clobber : Bool} {fs fs0 : FileSystem K A} {w0 : Writer K}
    (hi : writerInit z.rows path interval fields clobber none fs = (fs0, .ok w0))
    (calls : List (Call K A)) (hne : calls ≠ [])
    (hcalls : ∀ c ∈ calls, 0 < c.interval ∧ HasSizes z c.view) :
    ∃ w fs' d, writerRun (w0, fs0) (calls.flatMap Call.ops) = .ok (w, fs') ∧
      fs' path = .dataset d ∧ Records d (writesOf calls) ∧ LayerRecords d (writesOf calls) ∧
      ∀ p, p ≠ path → fs' p = fs p := by
  obtain ⟨h1, h2, h3, h4, -, -, h5, -, -⟩ := writerInit_ok hi
  obtain ⟨w, fs', r1, r2⟩ := after_run (z := z) (fs0 := fs0) (h5 rfl) h3 h4
    (by rw [h1, h2, Function.update_self]) calls hcalls
  obtain ⟨c, cs, rfl⟩ := List.exists_cons_of_ne_nil hne
  obtain ⟨d, f1, f2, -⟩ := r2.file
  refine ⟨w, fs', d, r1, ?_, f2.records, f2.layers, ?_⟩
  · rw [← h2]
    exact f1
  · intro p hp
    rw [r2.others p (by rw [h2]; exact hp), h1, Function.update_of_ne hp]

/-- C46. Later calls do not change the slices that are in the file. -/
theorem slices_kept {z : Sizes} {path : String} {interval : PyNumber K} {fields : List String}
    {clobber : Bool} {fs fs0 : FileSystem K A} {w0 : Writer K}
    (hi : writerInit z.rows path interval fields clobber none fs = (fs0, .ok w0))
    (calls more : List (Call K A)) (hne : calls ≠ [])
    (hcalls : ∀ c ∈ calls ++ more, 0 < c.interval ∧ HasSizes z c.view) :
    ∃ w fs' d w1 fs1 d1,
      writerRun (w0, fs0) (calls.flatMap Call.ops) = .ok (w, fs') ∧ fs' path = .dataset d ∧
      writerRun (w, fs') (more.flatMap Call.ops) = .ok (w1, fs1) ∧ fs1 path = .dataset d1 ∧
      d.times <+: d1.times ∧
      ∀ i < d.times.length, ∀ loc name, slice d1 loc name i = slice d loc name i := by
  obtain ⟨w, fs', d, a1, a2, a3, -, -⟩ := writer_history hi calls hne
    (fun c hc => hcalls c (List.mem_append_left _ hc))
  obtain ⟨w1, fs1, d1, b1, b2, b3, -, -⟩ := writer_history hi (calls ++ more)
    (by simp [hne]) hcalls
  have hpre : ∀ more : List (Call K A), writesOf calls <+: writesOf (calls ++ more) := by
    intro more
    induction more using List.reverseRecOn with
    | nil => rw [List.append_nil]
    | append_singleton more c ih =>
      rw [← List.append_assoc, writesOf_append]
      exact ih.trans (List.prefix_append _ _)
  obtain ⟨ws, hws⟩ := hpre more
  refine ⟨w, fs', d, w1, fs1, d1, a1, a2, ?_, b2, ?_, ?_⟩
  · rw [List.flatMap_append, writerRun_append, a1] at b1
    exact b1
  · rw [a3.times, b3.times, ← hws, List.map_append]
    exact List.prefix_append _ _
  · intro i hilt loc name
    rw [a3.times, List.length_map] at hilt
    have g1 : (writesOf calls)[i]? = some (writesOf calls)[i] := List.getElem?_eq_getElem hilt
    have g2 : (writesOf (calls ++ more))[i]? = some (writesOf calls)[i] := by
      rw [← hws, List.getElem?_append_left hilt, g1]
    by_cases hr : Requested (writesOf calls)[i].fields loc name
    · rw [a3.requested i _ g1 loc name hr, b3.requested i _ g2 loc name hr]
    · rw [a3.others i _ g1 loc name hr, b3.others i _ g2 loc name hr]

/-- C44 for a fixed interval and time step: the times in the file are `0, interval * dt,
2 * interval * dt, ...`, one for each started interval. -/
theorem fixed_interval_times (n interval : ℕ) (hi : 0 < interval) (dt : K)
    (calls : List (Call K A)) (hn : calls.length = n)
    (hc : ∀ c ∈ calls, c.interval = interval ∧ c.dt = some dt) :
    (writesOf calls).map (·.time) =
      (List.range ((n + interval - 1) / interval)).map fun k => ((k * interval : ℕ) : K) * dt := by
  subst hn
  induction calls using List.reverseRecOn with
  | nil =>
    simp [writesOf]
    omega
  | append_singleton calls c ih =>
    have ih' := ih fun c hc' => hc c (List.mem_append_left _ hc')
    have hcc := hc c (by simp)
    rw [writesOf_append, List.map_append, ih', List.length_append, List.length_singleton, hcc.1]
    have hel : ∀ cs : List (Call K A), (∀ c ∈ cs, c.interval = interval ∧ c.dt = some dt) →
        elapsed cs = (cs.length : K) * dt := by
      intro cs
      induction cs using List.reverseRecOn with
      | nil => intro _; simp [elapsed]
      | append_singleton cs c ih =>
        intro h
        rw [elapsed_append, ih fun c hc' => h c (List.mem_append_left _ hc'), (h c (by simp)).2]
        simp only [Option.getD_some, List.length_append, List.length_singleton]
        push_cast
        ring
    by_cases hd : interval ∣ calls.length
    · rw [if_pos hd]
      obtain ⟨q, hq⟩ := hd
      have e1 : (calls.length + interval - 1) / interval = q := by
        rw [hq, Nat.add_sub_assoc hi, Nat.mul_add_div hi, Nat.div_eq_of_lt (by omega), add_zero]
      have e2 : (calls.length + 1 + interval - 1) / interval = q + 1 := by
        rw [hq, show interval * q + 1 + interval - 1 = interval * (q + 1) by
          rw [Nat.mul_succ]; omega, Nat.mul_div_cancel_left _ hi]
      rw [e1, e2, List.range_succ, List.map_append]
      congr 1
      simp only [List.map_cons, List.map_nil]
      rw [hel calls fun c hc' => hc c (List.mem_append_left _ hc'), hq, mul_comm interval q]
    · rw [if_neg hd]
      have e : (calls.length + 1 + interval - 1) / interval =
          (calls.length + interval - 1) / interval := by
        have h1 : calls.length % interval ≠ 0 := fun h => hd (Nat.dvd_of_mod_eq_zero h)
        have h2 := Nat.div_add_mod calls.length interval
        have h3 := Nat.mod_lt calls.length hi
        rw [← h2]
        generalize calls.length % interval = r at *
        generalize calls.length / interval = q at *
        rw [show interval * q + r + 1 + interval - 1 = interval * (q + 1) + r by
            rw [Nat.mul_succ]; omega,
          show interval * q + r + interval - 1 = interval * (q + 1) + (r - 1) by
            rw [Nat.mul_succ]; omega,
          Nat.mul_add_div hi, Nat.mul_add_div hi, Nat.div_eq_of_lt h3,
          Nat.div_eq_of_lt (by omega)]
      rw [e]
      simp

/-! ## C47: layers in the file -/

/-- C47, exactly when it holds: right after a write, the layers in the file are those of the grid
if and only if no earlier write had more layers. Otherwise the file has too many layers. -/
theorem layers_after_write_iff {d : Dataset K A} {ws : List (Write K A)} {w : Write K A}
    (h : LayerRecords d (ws ++ [w])) :
    LayersAre d w.view ↔ ∀ v ∈ ws, v.view.nLayers ≤ w.view.nLayers := by
  have hdim : d.layerDim = max ((ws.map (·.view.nLayers)).foldl max 0) w.view.nLayers := by
    rw [h.dim]
    simp
  have hmax : ∀ (l : List ℕ) (a n : ℕ), l.foldl max a ≤ n ↔ a ≤ n ∧ ∀ x ∈ l, x ≤ n := by
    intro l
    induction l with
    | nil => intro a n; simp
    | cons x l ih =>
      intro a n
      rw [List.foldl_cons, ih]
      simp only [List.mem_cons, forall_eq_or_imp, max_le_iff]
      tauto
  constructor
  · intro hl v hv
    have := hl.count
    rw [hdim] at this
    have hle : (ws.map (·.view.nLayers)).foldl max 0 ≤ w.view.nLayers := by omega
    exact ((hmax _ _ _).mp hle).2 _ (List.mem_map_of_mem hv)
  · intro hall
    refine ⟨?_, ?_, ?_⟩
    · rw [hdim]
      apply max_eq_right
      rw [hmax]
      refine ⟨Nat.zero_le _, ?_⟩
      intro x hx
      obtain ⟨v, hv, rfl⟩ := List.mem_map.mp hx
      exact hall v hv
    · intro name hname hne k hk
      rw [h.layer name hne, List.reverse_append]
      simp [hname, hk]
    · intro k hk
      rw [h.thickness, List.reverse_append]
      simp [hk]

/-- C47, what is there when it does not hold: above the layers of the grid the file still has the
layers of the last write that had so many. -/
theorem stale_layers {d : Dataset K A} {ws : List (Write K A)} {v w : Write K A}
    (h : LayerRecords d (ws ++ [v, w])) {k : ℕ} (hk : w.view.nLayers ≤ k) (hv : k < v.view.nLayers) :
    k < d.layerDim ∧ layerSlice d "thickness" k = v.view.dz[k]? := by
  constructor
  · rw [h.dim]
    simp only [List.map_append, List.map_cons, List.map_nil, List.foldl_append, List.foldl_cons,
      List.foldl_nil]
    omega
  · rw [h.thickness, List.reverse_append]
    have : ¬ k < w.view.nLayers := by omega
    simp [this, hv]

/-! ## C72: coordinates -/

/-- C72. The coordinates in the file of a writer for all rows. -/
theorem file_coordinates {z : Sizes} {path : String} {interval : PyNumber K} {fields : List String}
    {clobber : Bool} {fs fs0 : FileSystem K A} {w0 : Writer K}
    (hi : writerInit z.rows path interval fields clobber none fs = (fs0, .ok w0))
    (c : Call K A) (calls : List (Call K A))
    (hcalls : ∀ a ∈ c :: calls, 0 < a.interval ∧ HasSizes z a.view) :
    ∃ w fs' d, writerRun (w0, fs0) ((c :: calls).flatMap Call.ops) = .ok (w, fs') ∧
      fs' path = .dataset d ∧
      d.yOf "row" = some ((c.view.yOf "row").take z.rows) ∧
      d.xOf "column" = some ((c.view.xOf "column").take (z.cols - 2)) ∧
      ∀ loc ∈ ["node", "link", "face", "cell"],
        d.xOf loc = some (c.view.xOf loc) ∧ d.yOf loc = some (c.view.yOf loc) := by
  obtain ⟨h1, h2, h3, h4, -, -, h5, -, -⟩ := writerInit_ok hi
  obtain ⟨w, fs', r1, r2⟩ := after_run (z := z) (fs0 := fs0) (h5 rfl) h3 h4
    (by rw [h1, h2, Function.update_self]) (c :: calls) hcalls
  obtain ⟨d, f1, -, f3, f4, f5⟩ := r2.file
  exact ⟨w, fs', d, r1, by rw [← h2]; exact f1, f3, f4, f5⟩

/-- C72 is false on every grid. The layers stored for row `r` and column `c` of the file are those
of the cells in row `r + 1` and column `c + 1` of the nodes, but the file gives them the
coordinates of row `r` and column `c` of the nodes, which are smaller. -/
theorem coordinates_shifted [LinearOrder A] {z : Sizes} {path : String} {interval : PyNumber K}
    {fields : List String} {clobber : Bool} {fs fs0 : FileSystem K A} {w0 : Writer K}
    (hi : writerInit z.rows path interval fields clobber none fs = (fs0, .ok w0))
    (c : Call K A) (calls : List (Call K A))
    (hcalls : ∀ a ∈ c :: calls, 0 < a.interval ∧ HasSizes z a.view)
    (hy : (c.view.yOf "row").Pairwise (· < ·)) (hx : (c.view.xOf "column").Pairwise (· < ·)) :
    ∃ w fs' d xs ys, writerRun (w0, fs0) ((c :: calls).flatMap Call.ops) = .ok (w, fs') ∧
      fs' path = .dataset d ∧ d.yOf "row" = some ys ∧ d.xOf "column" = some xs ∧
      ys.length = z.rows ∧ xs.length = z.cols - 2 ∧
      (∀ r a b, ys[r]? = some a → (c.view.yOf "row")[r + 1]? = some b → a < b) ∧
      (∀ r a b, xs[r]? = some a → (c.view.xOf "column")[r + 1]? = some b → a < b) := by
  obtain ⟨w, fs', d, r1, r2, r3, r4, -⟩ := file_coordinates hi c calls hcalls
  have hs := (hcalls c (List.mem_cons_self ..)).2
  have key : ∀ (l : List A) (n : ℕ), l.Pairwise (· < ·) → ∀ r a b,
      (l.take n)[r]? = some a → l[r + 1]? = some b → a < b := by
    intro l n hl r a b ha hb
    rw [List.getElem?_take] at ha
    split_ifs at ha
    obtain ⟨h1, rfl⟩ := List.getElem?_eq_some_iff.mp ha
    obtain ⟨h2, rfl⟩ := List.getElem?_eq_some_iff.mp hb
    exact List.pairwise_iff_getElem.mp hl _ _ _ _ (Nat.lt_succ_self r)
  refine ⟨w, fs', d, _, _, r1, r2, r3, r4, ?_, ?_, key _ _ hy, key _ _ hx⟩
  · rw [List.length_take, hs.yRow]
    omega
  · rw [List.length_take, hs.xCol]
    omega

/-! ## C73: the rows keyword -/

theorem setGridCoordinates_dims {g : GridView A} {loc : String} {ids : Ids} {d d' : Dataset K A}
    (h : setGridCoordinates g loc ids d = .ok d') :
    (∀ l, l ≠ loc → d'.dims l = d.dims l) ∧
    (loc = "row" → ∃ y, takeIds (g.yOf "row") ids = .ok y ∧ d'.dims "row" = some y.length) ∧
    (loc = "column" → ∃ x, takeIds (g.xOf "column") ids = .ok x ∧
      d'.dims "column" = some x.length) := by
  unfold setGridCoordinates at h
  split_ifs at h with h1 h2 h3 h4 h5
  · cases h
    subst h2
    exact ⟨fun l hl => by simp [hl], by simp, by simp⟩
  · subst h4
    cases hy : takeIds (g.yOf "row") ids with
    | error e => rw [hy] at h; cases h
    | ok y =>
      rw [hy] at h
      cases h
      exact ⟨fun l hl => by simp [hl], fun _ => ⟨y, rfl, by simp⟩, by simp⟩
  · subst h5
    cases hy : takeIds (g.xOf "column") ids with
    | error e => rw [hy] at h; cases h
    | ok y =>
      rw [hy] at h
      cases h
      exact ⟨fun l hl => by simp [hl], by simp, fun _ => ⟨y, rfl, by simp⟩⟩
  · cases hx : takeIds (g.xOf loc) ids with
    | error e => rw [hx] at h; cases h
    | ok x =>
      cases hy : takeIds (g.yOf loc) ids with
      | error e => rw [hx, hy] at h; cases h
      | ok y =>
        rw [hx, hy] at h
        cases h
        exact ⟨fun l hl => by simp [hl], fun e => absurd e h4, fun e => absurd e h5⟩

theorem setFieldNames_dims {g : GridView A} {loc : String} {ids : Ids} :
    ∀ (names : List String) (d d' : Dataset K A), setFieldNames g loc ids names d = .ok d' →
    d'.dims = d.dims := by
  intro names
  induction names with
  | nil => intro d d' h; cases h; rfl
  | cons n ns ih =>
    intro d d' h
    simp only [setFieldNames] at h
    cases hl : setOneField g loc ids n d with
    | error e' => rw [hl] at h; cases h
    | ok d1 =>
      rw [hl] at h
      rw [ih d1 d' h]
      unfold setOneField at hl
      cases hv : g.field loc n with
      | none => rw [hv] at hl; cases hl
      | some v =>
        rw [hv] at hl
        dsimp only at hl
        cases ht : (if loc = "grid" then (.ok v : Except Err (List A)) else takeIds v ids) with
        | error e' => rw [ht] at hl; cases hl
        | ok values =>
          rw [ht] at hl
          dsimp only at hl
          cases hd : d.dims loc with
          | none => rw [hd] at hl; cases hl
          | some n =>
            rw [hd] at hl
            dsimp only at hl
            cases hb : broadcastTo n values with
            | ok s => rw [hb] at hl; cases hl; rfl
            | error e' => rw [hb] at hl; cases hl

theorem forLocs_invariant {f : String → Dataset K A → Except Err (Dataset K A)}
    (P : Dataset K A → Prop) : ∀ (locs : List String) (d d' : Dataset K A),
    (∀ loc ∈ locs, ∀ a b, f loc a = .ok b → P a → P b) → forLocs f locs d = .ok d' →
    P d → P d' := by
  intro locs
  induction locs with
  | nil => intro d d' _ h hp; cases h; exact hp
  | cons loc locs ih =>
    intro d d' hf h hp
    simp only [forLocs] at h
    cases hl : f loc d with
    | error e' => rw [hl] at h; cases h
    | ok d1 =>
      rw [hl] at h
      exact ih d1 d' (fun l hl => hf l (List.mem_cons_of_mem _ hl)) h
        (hf loc (List.mem_cons_self ..) d d1 hl hp)

theorem takeIds_length {a b : List A} {l : List ℤ} (h : takeIds a (.list l) = .ok b) :
    b.length = l.length := by
  simp only [takeIds] at h
  induction l generalizing b with
  | nil => cases h; rfl
  | cons i l ih =>
    rw [List.mapM_cons] at h
    cases hi : npIndex a i with
    | error e => rw [hi] at h; cases h
    | ok v =>
      rw [hi] at h
      cases hl : l.mapM (npIndex a) with
      | error e => rw [hl] at h; cases h
      | ok bs =>
        rw [hl] at h
        cases h
        simp [ih hl]

/-- The sizes of the dimensions of a new file. -/
theorem newDataset_dims {g : GridView A} {rows cols : List ℤ} {d : Dataset K A}
    (h : newDataset g defaultLocations { row := .list rows, column := .list cols } = .ok d) :
    d.dims "row" = some rows.length ∧ d.dims "column" = some cols.length := by
  unfold newDataset at h
  simp only [forLocs] at h
  cases h1 : setGridCoordinates g "row" (IdsArg.get { row := .list rows, column := .list cols } "row")
      (Dataset.new : Dataset K A) with
  | error e => rw [h1] at h; cases h
  | ok d1 =>
    rw [h1] at h
    dsimp only at h
    cases h2 : setGridCoordinates g "column"
        (IdsArg.get { row := .list rows, column := .list cols } "column") d1 with
    | error e => rw [h2] at h; cases h
    | ok d2 =>
      rw [h2] at h
      dsimp only at h
      obtain ⟨y, y1, y2⟩ := (setGridCoordinates_dims h1).2.1 rfl
      obtain ⟨x, x1, x2⟩ := (setGridCoordinates_dims h2).2.2 rfl
      have e1 := (setGridCoordinates_dims h2).1 "row" (by decide)
      have ly := takeIds_length (show takeIds (g.yOf "row") (.list rows) = .ok y from y1)
      have lx := takeIds_length (show takeIds (g.xOf "column") (.list cols) = .ok x from x1)
      rw [ly] at y2
      rw [lx] at x2
      refine forLocs_invariant
        (fun d => d.dims "row" = some rows.length ∧ d.dims "column" = some cols.length)
        defaultLocations d2 d ?_ h ⟨by rw [e1, y2], x2⟩
      intro loc hl a b hab hp
      have hne : loc ≠ "row" ∧ loc ≠ "column" := by
        constructor <;> rintro rfl <;> exact absurd hl (by decide)
      have hd := (setGridCoordinates_dims hab).1
      exact ⟨by rw [hd _ hne.1.symm]; exact hp.1, by rw [hd _ hne.2.symm]; exact hp.2⟩

/-- C73 is false: a writer for some of the rows of a grid with several rows cannot write. Its
first step fails as soon as the grid has a layer, whatever the rows are. -/
theorem some_rows_fail {path : String} {interval : PyNumber K} {fields : List String}
    {clobber : Bool} {rows : List ℤ} {fs fs0 : FileSystem K A} {w0 : Writer K} {z : Sizes}
    (hi : writerInit z.rows path interval fields clobber (some rows) fs = (fs0, .ok w0))
    (g : GridView A) (hg : HasSizes z g) (dt : Option K) (hn : 0 < g.nLayers)
    (hcols : 2 < z.cols) (hmany : 1 < z.rows) (hrows : rows.length ≠ z.rows) :
    ∃ e, writerStep g dt (w0, fs0) = .error e := by
  obtain ⟨h1, h2, -, h4, -, -, -, h6, -⟩ := writerInit_ok hi
  have hlen : w0.rows.length = rows.length := by
    rw [h6 rows rfl, List.length_map]
  cases hs : writerStep g dt (w0, fs0) with
  | error e => exact ⟨e, rfl⟩
  | ok s =>
    exfalso
    unfold writerStep at hs
    dsimp only at hs
    by_cases hz : w0.interval = 0
    · rw [if_pos hz] at hs
      cases hs
    rw [if_neg hz, h4, if_pos (Nat.zero_mod _)] at hs
    cases ht : toNetcdf g w0.filepath .a true w0.time defaultLocations
        { row := .list w0.rows, column := .list ((List.range (g.cols - 2)).map Int.ofNat) }
        (.dict [("node", some w0.fields)]) true fs0 with
    | error e => rw [ht] at hs; cases hs
    | ok fs' =>
      unfold toNetcdf at ht
      rw [if_neg (by simp)] at ht
      have habs : fs0 w0.filepath = .absent := by
        rw [h1, h2, Function.update_self]
      rw [habs] at ht
      cases ho : openDataset g .a defaultLocations
          { row := .list w0.rows, column := .list ((List.range (g.cols - 2)).map Int.ofNat) }
          (.absent : Entry K A) with
      | error e => rw [ho] at ht; cases ht
      | ok d0 =>
        rw [ho] at ht
        dsimp only at ht
        have hd0 := newDataset_dims (K := K) (show newDataset g defaultLocations _ = .ok d0 from ho)
        cases ha : appendSlice g w0.time defaultLocations
            { row := .list w0.rows, column := .list ((List.range (g.cols - 2)).map Int.ofNat) }
            (.dict [("node", some w0.fields)]) true d0 with
        | error e => rw [ha] at ht; cases ht
        | ok d4 =>
          unfold appendSlice at ha
          dsimp only at ha
          split at ha
          · cases ha
          · rename_i d2 hf
            have hd2 : d2.dims = d0.dims :=
              forLocs_invariant (fun d => d.dims = d0.dims) _ _ _
                (fun loc _ a b hab hp => (setFieldNames_dims _ _ _ hab).trans hp) hf rfl
            split at ha
            · cases ha
            · rename_i d3 hf3
              have hd3 : d3.dims = d0.dims := (setFieldNames_dims _ _ _ hf3).trans hd2
              rw [if_pos rfl] at ha
              unfold setLayers at ha
              rw [hd3, hd0.1, hd0.2] at ha
              dsimp only at ha
              split at ha
              · cases ha
              · split at ha
                · cases ha
                · rename_i v hv
                  unfold setLayerVar at hv
                  obtain ⟨l, ls, hl⟩ := List.exists_cons_of_ne_nil
                    (l := g.dz) (by
                      intro e
                      have := hg.dz.1
                      rw [e] at this
                      simp at this
                      omega)
                  rw [hl, List.mapM_cons] at hv
                  have hb : broadcastLayer g.rows (g.cols - 2) w0.rows.length
                      ((List.range (g.cols - 2)).map Int.ofNat).length l = .error .valueError := by
                    unfold broadcastLayer
                    rw [hg.rows, hg.cols, hlen, List.length_map, List.length_range]
                    rw [if_neg, if_neg]
                    · omega
                    · intro e
                      exact hrows (Nat.eq_of_mul_eq_mul_right (by omega) e)
                  rw [hb] at hv
                  cases hv

/-! ## C74: the fields -/

/-- C74, the part that holds: if node fields are asked for in every call, a slice holds those and
no others. -/
theorem fields_exact_partial {d : Dataset K A} {ws : List (Write K A)} (h : Records d ws) (i : ℕ)
    (w : Write K A) (hw : ws[i]? = some w) (hf : w.fields ≠ []) (name : String) :
    slice d "node" name i = if name ∈ w.fields then w.view.field "node" name else none := by
  by_cases hn : name ∈ w.fields
  · rw [if_pos hn]
    exact h.requested i w hw "node" name (.inl ⟨rfl, .inr hn⟩)
  · rw [if_neg hn]
    refine h.others i w hw "node" name ?_
    simp [Requested, hf, hn]

/-- C74 is false: a writer that is asked for no node field writes all of them. -/
theorem no_fields_means_all {d : Dataset K A} {ws : List (Write K A)} (h : Records d ws) (i : ℕ)
    (w : Write K A) (hw : ws[i]? = some w) (hf : w.fields = []) (name : String) :
    slice d "node" name i = w.view.field "node" name :=
  h.requested i w hw "node" name (.inl ⟨rfl, .inl hf⟩)

/-! ## Examples -/

/-- A grid with one row of four columns of nodes, a node field and `n` layers. -/
def exView (n : ℕ) (v : ℚ) : GridView ℚ where
  rows := 1
  cols := 4
  xOf := fun loc => if loc = "node" then [0, 1, 2, 3, 0, 1, 2, 3, 0, 1, 2, 3]
    else if loc = "cell" then [1, 2] else if loc = "column" then [0, 1, 2, 3] else []
  yOf := fun loc => if loc = "node" then [0, 0, 0, 0, 1, 1, 1, 1, 2, 2, 2, 2]
    else if loc = "cell" then [1, 1] else if loc = "row" then [0, 1, 2] else []
  fields := fun loc => if loc = "node" then [("z", List.replicate 12 v), ("b", List.replicate 12 0)]
    else if loc = "row" then [("x_of_shore", [v])] else []
  tracking := ["age"]
  nLayers := n
  layer := fun _ => List.replicate n [v, v]
  dz := List.replicate n [1, v]

/-- The sizes of that grid. -/
def exSizes : Sizes := ⟨1, 4, fun loc => if loc = "node" then 12 else if loc = "cell" then 2 else 0⟩

theorem exView_sizes (n : ℕ) (v : ℚ) : HasSizes exSizes (exView n v) where
  rows := rfl
  cols := rfl
  x := by
    intro loc hl
    simp only [List.mem_cons, List.not_mem_nil, or_false] at hl
    rcases hl with rfl | rfl | rfl | rfl <;> simp [exView, exSizes]
  y := by
    intro loc hl
    simp only [List.mem_cons, List.not_mem_nil, or_false] at hl
    rcases hl with rfl | rfl | rfl | rfl <;> simp [exView, exSizes]
  yRow := by simp [exView, exSizes]
  xCol := by simp [exView, exSizes]
  fields := by
    intro loc name a ha
    by_cases h1 : loc = "node"
    · subst h1
      by_cases hz : name = "z"
      · subst hz
        simp [GridView.field, exView] at ha
        subst ha
        simp [exSizes, Sizes.at]
      · by_cases hb : name = "b"
        · subst hb
          simp [GridView.field, exView] at ha
          subst ha
          simp [exSizes, Sizes.at]
        · have e1 : ("z" == name) = false := by simpa using fun e => hz e.symm
          have e2 : ("b" == name) = false := by simpa using fun e => hb e.symm
          simp [GridView.field, exView, e1, e2] at ha
    · by_cases h2 : loc = "row"
      · subst h2
        by_cases hz : name = "x_of_shore"
        · subst hz
          simp [GridView.field, exView] at ha
          subst ha
          simp [exSizes, Sizes.at]
        · have e1 : ("x_of_shore" == name) = false := by simpa using fun e => hz e.symm
          simp [GridView.field, exView, e1] at ha
      · simp [GridView.field, exView, h1, h2] at ha
  layer := by
    intro name _
    refine ⟨by simp [exView], ?_⟩
    intro l hl
    simp only [exView, List.mem_replicate] at hl
    rw [hl.2]
    rfl
  dz := by
    refine ⟨by simp [exView], ?_⟩
    intro l hl
    simp only [exView, List.mem_replicate] at hl
    rw [hl.2]
    rfl

/-- Three calls with interval 2. -/
def exCalls : List (Call ℚ ℚ) :=
  [⟨2, ["z"], exView 5 7, some 10⟩, ⟨2, ["z"], exView 6 8, some 10⟩, ⟨2, ["z"], exView 3 9, some 10⟩]

/-- A file system with one old file. -/
def exFiles : FileSystem ℚ ℚ := fun p => if p = "out.nc" then .raw else .absent

example : ∃ w fs' d, writerRun
      ((writerInit 1 "out.nc" (.int 2) ["z"] true none exFiles).2.toOption.getD ⟨true, 1, [], "", [], 0, 0⟩,
        (writerInit 1 "out.nc" (.int 2) ["z"] true none exFiles).1)
      (exCalls.flatMap Call.ops) = .ok (w, fs') ∧ fs' "out.nc" = .dataset d ∧
    d.times = [0, 20] ∧ slice d "node" "z" 1 = some (List.replicate 12 9) ∧
    slice d "node" "b" 1 = none ∧ d.layerDim = 5 ∧ ¬ LayersAre d (exView 3 9) := by
  obtain ⟨w, fs', d, h1, h2, h3, h4, -⟩ := writer_history (z := exSizes) (K := ℚ) (A := ℚ)
    (path := "out.nc") (interval := .int 2) (fields := ["z"]) (clobber := true) (fs := exFiles)
    (fs0 := Function.update exFiles "out.nc" .absent)
    (w0 := ⟨true, 2, ["z"], "out.nc", [0], 0, 0⟩) (by
      simp [writerInit, checkInterval, setFilepath, exFiles, Entry.isFile, exSizes])
    exCalls (by simp [exCalls]) (by
      intro c hc
      simp only [exCalls, List.mem_cons, List.not_mem_nil, or_false] at hc
      rcases hc with rfl | rfl | rfl <;> exact ⟨by norm_num, exView_sizes _ _⟩)
  have hw : writesOf exCalls = [⟨0, ["z"], exView 5 7⟩] ++ [⟨20, ["z"], exView 3 9⟩] := by
    simp [writesOf, exCalls, elapsed, List.range_succ]
    norm_num
  rw [hw] at h3 h4
  refine ⟨w, fs', d, ?_, h2, ?_, ?_, ?_, ?_, ?_⟩
  · rw [← h1]
    simp [writerInit, checkInterval, setFilepath, exFiles, Entry.isFile, Except.toOption]
  · rw [h3.times]
    rfl
  · rw [fields_exact_partial h3 1 ⟨20, ["z"], exView 3 9⟩ rfl (by simp) "z"]
    rfl
  · rw [fields_exact_partial h3 1 ⟨20, ["z"], exView 3 9⟩ rfl (by simp) "b"]
    simp
  · rw [h4.dim]
    rfl
  · rw [layers_after_write_iff h4]
    simp [exView]

/-- The hypotheses of `coordinates_shifted` hold for that grid. -/
example : ((exView 5 7).yOf "row").Pairwise (· < ·) ∧ ((exView 5 7).xOf "column").Pairwise (· < ·) := by
  simp only [exView]
  decide +kernel

/-- A grid with two rows of three columns, no fields and one layer. -/
def exView2 : GridView ℚ where
  rows := 2
  cols := 3
  xOf := fun loc => if loc = "column" then [0, 1, 2] else []
  yOf := fun loc => if loc = "row" then [0, 1, 2, 3] else []
  fields := fun _ => []
  tracking := []
  nLayers := 1
  layer := fun _ => []
  dz := [[1, 2]]

/-- Only the first row is asked for. -/
example : ∃ e, writerStep exView2 (some (1 : ℚ))
    (⟨true, 1, [], "out.nc", [0], 0, 0⟩, Function.update exFiles "out.nc" .absent) = .error e := by
  refine some_rows_fail (z := ⟨2, 3, fun _ => 0⟩) (path := "out.nc") (interval := .int 1)
    (fields := []) (clobber := true) (rows := [1]) (fs := exFiles) ?_ exView2 ?_ _ ?_ ?_ ?_ ?_
  · simp [writerInit, checkInterval, setFilepath, exFiles, Entry.isFile]
  · refine ⟨rfl, rfl, ?_, ?_, rfl, rfl, ?_, ?_, ⟨rfl, ?_⟩⟩
    · intro loc hl
      simp only [List.mem_cons, List.not_mem_nil, or_false] at hl
      rcases hl with rfl | rfl | rfl | rfl <;> simp [exView2]
    · intro loc hl
      simp only [List.mem_cons, List.not_mem_nil, or_false] at hl
      rcases hl with rfl | rfl | rfl | rfl <;> simp [exView2]
    · intro loc name v hv
      simp [GridView.field, exView2] at hv
    · intro name hn
      simp [exView2] at hn
    · intro l hl
      simp only [exView2, List.mem_cons, List.not_mem_nil, or_false] at hl
      rw [hl]
      rfl
  · simp [exView2]
  · simp
  · simp
  · simp

/-- The old file survives without `clobber`, and a bad interval does not remove it with it. -/
example : setFilepath false none "out.nc" exFiles = ((none, exFiles), .error .runtimeError) ∧
    writerInit 1 "out.nc" (.int (-1) : PyNumber ℚ) [] true none exFiles =
      (exFiles, .error .typeError) :=
  ⟨existing_file_kept none "out.nc" exFiles rfl,
    bad_interval_keeps_file 1 "out.nc" (.int (-1)) [] true none exFiles .typeError (by
      simp [checkInterval])⟩

/-- With `clobber` it is removed. -/
example : (setFilepath true none "out.nc" exFiles).1 =
    (some "out.nc", Function.update exFiles "out.nc" .absent) :=
  filepath_ok true none "out.nc" exFiles (by simp [setFilepath, exFiles])

example : (writesOf exCalls).map (·.time) = [0, 20] := by
  rw [fixed_interval_times 3 2 (by norm_num) 10 exCalls rfl (by
    intro c hc
    simp only [exCalls, List.mem_cons, List.not_mem_nil, or_false] at hc
    rcases hc with rfl | rfl | rfl <;> exact ⟨rfl, rfl⟩)]
  simp [List.range_succ]
  norm_num

end Verif.Props
