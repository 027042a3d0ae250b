import Verif.Lemmas.Prelude
import Verif.Spec.Unfinished

/-! # Calls of `to_netcdf` that fail: lemmas -/

set_option autoImplicit false

namespace Verif.Props

open Verif Verif.Spec

variable {K A : Type*}

theorem andThen_invariant {P : Dataset K A → Prop} {w : Written K A}
    {f : Dataset K A → Written K A} (hw : P w.1) (hf : ∀ d, P d → P (f d).1) :
    P (w.andThen f).1 := by
  unfold Written.andThen
  cases h : w.2 with
  | some e => exact hw
  | none => exact hf _ hw

theorem writeEach_invariant {α : Type*} {P : Dataset K A → Prop}
    {f : α → Dataset K A → Written K A} : ∀ (l : List α),
    (∀ a ∈ l, ∀ d, P d → P (f a d).1) → ∀ d, P d → P (writeEach f l d).1 := by
  intro l
  induction l with
  | nil => intro _ d hd; exact hd
  | cons a l ih =>
    intro hf d hd
    exact andThen_invariant (hf a (List.mem_cons_self ..) d hd)
      (ih fun b hb => hf b (List.mem_cons_of_mem _ hb))

theorem statement_invariant {P : Dataset K A → Prop} {f : Dataset K A → Except Err (Dataset K A)}
    {d : Dataset K A} (hf : ∀ d', f d = .ok d' → P d') (hd : P d) : P (statement f d).1 := by
  unfold statement
  cases h : f d with
  | error e => exact hd
  | ok d' => exact hf d' h

/-- The dataset with the last slice of a variable assigned. -/
def assigned (d : Dataset K A) (loc name : String) (s : List A) : Dataset K A :=
  { d with vars := fun k => if k = (loc, name) then some fun j => if j = d.times.length - 1 then some s
      else ((d.vars (loc, name)).getD fun _ => none) j else d.vars k }

/-- What a successful assignment of a field does. -/
theorem setOneField_effect {g : GridView A} {loc name : String} {ids : Ids} {d d' : Dataset K A}
    (h : setOneField g loc ids name d = .ok d') :
    ∃ v values n s, g.field loc name = some v ∧
      (if loc = "grid" then (.ok v : Except Err (List A)) else takeIds v ids) = .ok values ∧
      d.dims loc = some n ∧ broadcastTo n values = .ok s ∧
      d' = assigned d loc name s := by
  unfold setOneField at h
  cases hv : g.field loc name with
  | none => rw [hv] at h; cases h
  | some v =>
    rw [hv] at h
    dsimp only at h
    cases ht : (if loc = "grid" then (.ok v : Except Err (List A)) else takeIds v ids) with
    | error e => rw [ht] at h; cases h
    | ok values =>
      rw [ht] at h
      dsimp only at h
      cases hd : d.dims loc with
      | none => rw [hd] at h; cases h
      | some n =>
        rw [hd] at h
        dsimp only at h
        cases hb : broadcastTo n values with
        | error e => rw [hb] at h; cases h
        | ok s =>
          rw [hb] at h
          cases h
          exact ⟨v, values, n, s, rfl, ht, rfl, hb, rfl⟩

theorem setOneField_slice {d : Dataset K A} {loc name : String} {s : List A} (l n : String) (i : ℕ) :
    slice (assigned d loc name s) l n i =
      if l = loc ∧ n = name ∧ i = d.times.length - 1 then some s else slice d l n i := by
  unfold slice assigned
  by_cases h : (l, n) = (loc, name)
  · obtain ⟨rfl, rfl⟩ := Prod.mk.inj h
    simp only [if_true, Option.bind_some, true_and]
    by_cases hi : i = d.times.length - 1
    · simp [hi]
    · rw [if_neg hi, if_neg hi]
      cases d.vars (l, n) <;> rfl
  · simp only [if_neg h]
    rw [if_neg]
    rintro ⟨rfl, rfl, -⟩
    exact h rfl

theorem createOneField_effect (loc name : String) (d : Dataset K A) :
    (∀ l n i, slice (createOneField loc name d).1 l n i = slice d l n i) ∧
    (createOneField loc name d).1.times = d.times ∧ (createOneField loc name d).1.xOf = d.xOf ∧
    (createOneField loc name d).1.yOf = d.yOf ∧ (createOneField loc name d).1.dims = d.dims ∧
    (createOneField loc name d).1.layerVars = d.layerVars := by
  unfold createOneField
  cases hv : d.vars (loc, name) with
  | some f => exact ⟨fun _ _ _ => rfl, rfl, rfl, rfl, rfl, rfl⟩
  | none =>
    cases hd : d.dims loc with
    | none => exact ⟨fun _ _ _ => rfl, rfl, rfl, rfl, rfl, rfl⟩
    | some n =>
      refine ⟨fun l m i => ?_, rfl, rfl, rfl, rfl, rfl⟩
      unfold slice
      dsimp only
      by_cases h : (l, m) = (loc, name)
      · rw [if_pos h, h, hv]
        rfl
      · rw [if_neg h]

theorem createOneLayer_effect (name : String) (d : Dataset K A) :
    (∀ n k, layerSlice (createOneLayer name d).1 n k = layerSlice d n k) ∧
    (createOneLayer name d).1.times = d.times ∧ (createOneLayer name d).1.xOf = d.xOf ∧
    (createOneLayer name d).1.yOf = d.yOf ∧ (createOneLayer name d).1.dims = d.dims ∧
    (createOneLayer name d).1.vars = d.vars := by
  unfold createOneLayer
  cases hv : d.layerVars name with
  | some f => exact ⟨fun _ _ => rfl, rfl, rfl, rfl, rfl, rfl⟩
  | none =>
    cases hr : d.dims "row" with
    | none => exact ⟨fun _ _ => rfl, rfl, rfl, rfl, rfl, rfl⟩
    | some r =>
      cases hc : d.dims "column" with
      | none => exact ⟨fun _ _ => rfl, rfl, rfl, rfl, rfl, rfl⟩
      | some c =>
        refine ⟨fun n k => ?_, rfl, rfl, rfl, rfl, rfl⟩
        unfold layerSlice
        dsimp only
        by_cases h : n = name
        · rw [if_pos h, h, hv]
          rfl
        · rw [if_neg h]

theorem setOneLayer_effect {g : GridView A} {name : String} {data : List (List A)}
    {d d' : Dataset K A} (h : setOneLayer g name data d = .ok d') :
    ∃ r c v, d.dims "row" = some r ∧ d.dims "column" = some c ∧
      setLayerVar g.rows (g.cols - 2) r c data ((d.layerVars name).getD fun _ => none) = .ok v ∧
      d' = { d with
        layerDim := max d.layerDim g.nLayers
        layerVars := fun n => if n = name then some v else d.layerVars n } := by
  unfold setOneLayer at h
  cases hr : d.dims "row" with
  | none => rw [hr] at h; cases h
  | some r =>
    cases hc : d.dims "column" with
    | none => rw [hr, hc] at h; cases h
    | some c =>
      rw [hr, hc] at h
      dsimp only at h
      cases hv : setLayerVar g.rows (g.cols - 2) r c data ((d.layerVars name).getD fun _ => none) with
      | error e => rw [hv] at h; cases h
      | ok v =>
        rw [hv] at h
        cases h
        exact ⟨r, c, v, rfl, rfl, hv, rfl⟩

/-! ### Without an error the result is that of `toNetcdf` -/

/-- The dataset with some variables created. -/
def created (loc : String) (names : List String) (d : Dataset K A) : Dataset K A :=
  { d with vars := fun k => if k.1 = loc ∧ k.2 ∈ names then some ((d.vars k).getD fun _ => none)
      else d.vars k }

theorem created_cons (loc name : String) (names : List String) (d : Dataset K A) :
    created loc names (created loc [name] d) = created loc (name :: names) d := by
  unfold created
  congr 1
  funext k
  dsimp only
  by_cases h1 : k.1 = loc
  · by_cases h2 : k.2 ∈ names
    · by_cases h3 : k.2 = name
      · simp [h1, h2, h3]
      · simp [h1, h2, h3]
    · by_cases h3 : k.2 = name
      · subst h3; simp [h1, h2]
      · simp [h1, h2, h3]
  · simp [h1]

theorem created_of_some {loc : String} {names : List String} {d : Dataset K A}
    (h : ∀ n ∈ names, (d.vars (loc, n)).isSome) : created loc names d = d := by
  have : (created loc names d).vars = d.vars := by
    funext k
    unfold created
    dsimp only
    by_cases hk : k.1 = loc ∧ k.2 ∈ names
    · rw [if_pos hk]
      have := h k.2 hk.2
      rw [← hk.1] at this
      cases hv : d.vars k with
      | none => rw [show (k.1, k.2) = k from rfl, hv] at this; cases this
      | some f => rfl
    · rw [if_neg hk]
  unfold created at this ⊢
  dsimp only at this
  rw [this]

theorem createOneField_created {loc name : String} {d : Dataset K A} {n : ℕ}
    (hd : d.dims loc = some n) : createOneField loc name d = (created loc [name] d, none) := by
  unfold createOneField
  cases hv : d.vars (loc, name) with
  | some f =>
    dsimp only
    rw [created_of_some]
    intro m hm
    rw [List.mem_singleton] at hm
    rw [hm, hv]
    rfl
  | none =>
    rw [hd]
    dsimp only
    congr 1
    unfold created
    congr 1
    funext k
    by_cases hk : k = (loc, name)
    · subst hk
      simp [hv]
    · have : ¬ (k.1 = loc ∧ k.2 ∈ [name]) := by
        rintro ⟨h1, h2⟩
        rw [List.mem_singleton] at h2
        exact hk (Prod.ext h1 h2)
      rw [if_neg hk, if_neg this]

theorem writeEach_created {loc : String} : ∀ (names : List String) {d : Dataset K A} {n : ℕ},
    d.dims loc = some n → writeEach (createOneField loc) names d = (created loc names d, none) := by
  intro names
  induction names with
  | nil =>
    intro d n _
    rw [created_of_some (fun _ h => by cases h)]
    rfl
  | cons a names ih =>
    intro d n hd
    unfold writeEach
    rw [createOneField_created hd]
    show writeEach (createOneField loc) names (created loc [a] d) = _
    rw [ih (d := created loc [a] d) (n := n) hd, created_cons]

theorem setOneField_created (g : GridView A) (loc : String) (ids : Ids) (name : String)
    (names : List String) (d : Dataset K A) :
    setOneField g loc ids name (created loc names d) =
      (setOneField g loc ids name d).map (created loc names) := by
  unfold setOneField
  cases hv : g.field loc name with
  | none => rfl
  | some v =>
    dsimp only
    cases ht : (if loc = "grid" then (.ok v : Except Err (List A)) else takeIds v ids) with
    | error e => rfl
    | ok values =>
      dsimp only
      rw [show (created loc names d).dims = d.dims from rfl]
      cases hd : d.dims loc with
      | none => rfl
      | some n =>
        dsimp only
        cases hb : broadcastTo n values with
        | error e => rfl
        | ok s =>
          dsimp only [Except.map]
          congr 1
          unfold created
          congr 1
          funext k
          dsimp only
          by_cases hk : k = (loc, name)
          · subst hk
            by_cases hn : name ∈ names
            · simp [hn]
            · simp [hn]
          · rw [if_neg hk, if_neg hk]

theorem setFieldNames_created (g : GridView A) (loc : String) (ids : Ids) (names : List String) :
    ∀ (ns : List String) (d : Dataset K A), setFieldNames g loc ids ns (created loc names d) =
      (setFieldNames g loc ids ns d).map (created loc names) := by
  intro ns
  induction ns with
  | nil => intro d; rfl
  | cons a ns ih =>
    intro d
    simp only [setFieldNames]
    rw [setOneField_created]
    cases h : setOneField g loc ids a d with
    | error e => rfl
    | ok d1 => exact ih d1

theorem setFieldNames_some {g : GridView A} {loc : String} {ids : Ids} :
    ∀ (ns : List String) (d d' : Dataset K A), setFieldNames g loc ids ns d = .ok d' →
      (∀ n ∈ ns, (d'.vars (loc, n)).isSome) ∧
      ∀ k, (d.vars k).isSome → (d'.vars k).isSome := by
  intro ns
  induction ns with
  | nil =>
    intro d d' h
    cases h
    exact ⟨fun _ h => (by cases h), fun _ h => h⟩
  | cons a ns ih =>
    intro d d' h
    simp only [setFieldNames] at h
    cases h1 : setOneField g loc ids a d with
    | error e => rw [h1] at h; cases h
    | ok d1 =>
      rw [h1] at h
      obtain ⟨i1, i2⟩ := ih d1 d' h
      obtain ⟨v, values, n, s, -, -, -, -, rfl⟩ := setOneField_effect h1
      refine ⟨fun m hm => ?_, fun k hk => i2 k ?_⟩
      · rcases List.mem_cons.mp hm with rfl | hm
        · apply i2
          simp [assigned]
        · exact i1 m hm
      · unfold assigned
        dsimp only
        split_ifs
        · rfl
        · exact hk

theorem writeEach_statement {g : GridView A} {loc : String} {ids : Ids} :
    ∀ (ns : List String) (d : Dataset K A),
      (∀ d', setFieldNames g loc ids ns d = .ok d' →
        writeEach (fun name => statement (setOneField g loc ids name)) ns d = (d', none)) ∧
      (∀ e, setFieldNames g loc ids ns d = .error e →
        (writeEach (fun name => statement (setOneField g loc ids name)) ns d).2 = some e) := by
  intro ns
  induction ns with
  | nil =>
    intro d
    exact ⟨fun d' h => by cases h; rfl, fun e h => by cases h⟩
  | cons a ns ih =>
    intro d
    simp only [setFieldNames, writeEach, statement]
    cases h1 : setOneField g loc ids a d with
    | error e =>
      refine ⟨fun d' h => (by cases h), fun e' h => ?_⟩
      cases h
      rfl
    | ok d1 => exact ih d1

/-- `_set_field` as a whole. -/
theorem writeField_outcome (g : GridView A) (loc : String) (ids : Ids) (names : List String)
    (d : Dataset K A) :
    (∀ d', setField g loc ids names d = .ok d' → writeField id g loc ids names d = (d', none)) ∧
    (∀ e, setField g loc ids names d = .error e →
      ∃ e', (writeField id g loc ids names d).2 = some e') := by
  unfold setField writeField
  simp only [id]
  generalize fieldNames g loc names = ns
  cases hd : d.dims loc with
  | some n =>
    rw [writeEach_created ns hd]
    obtain ⟨w1, w2⟩ := writeEach_statement (g := g) (loc := loc) (ids := ids) ns (created loc ns d)
    rw [setFieldNames_created] at w1 w2
    constructor
    · intro d' h
      have := w1 d' (by
        rw [h]
        show Except.ok (created loc ns d') = _
        rw [created_of_some (setFieldNames_some ns d d' h).1])
      exact this
    · intro e h
      exact ⟨e, w2 e (by rw [h]; rfl)⟩
  | none =>
    cases ns with
    | nil =>
      refine ⟨fun d' h => (by cases h; rfl), fun e h => (by cases h)⟩
    | cons a ns =>
      have hno : ∀ d' : Dataset K A, setFieldNames g loc ids (a :: ns) d ≠ .ok d' := by
        intro d' h
        simp only [setFieldNames] at h
        cases h1 : setOneField g loc ids a d with
        | error e => rw [h1] at h; cases h
        | ok d1 =>
          obtain ⟨v, values, n, s, -, -, hn, -⟩ := setOneField_effect h1
          rw [hd] at hn
          cases hn
      refine ⟨fun d' h => absurd h (hno d'), fun e h => ?_⟩
      have hsame : (writeEach (createOneField loc) (a :: ns) d).1 = d := by
        apply writeEach_invariant (P := fun x => x = d) (a :: ns) _ d rfl
        rintro b - x rfl
        unfold createOneField
        cases x.vars (loc, b) with
        | some f => rfl
        | none => rw [hd]
      unfold Written.andThen
      cases h2 : (writeEach (createOneField loc) (a :: ns) d).2 with
      | some e' => exact ⟨e', rfl⟩
      | none =>
        dsimp only
        rw [hsame]
        exact ⟨e, (writeEach_statement (a :: ns) d).2 e h⟩

theorem forLocs_outcome {f : String → Dataset K A → Except Err (Dataset K A)}
    {w : String → Dataset K A → Written K A}
    (h : ∀ loc d, (∀ d', f loc d = .ok d' → w loc d = (d', none)) ∧
      (∀ e, f loc d = .error e → ∃ e', (w loc d).2 = some e')) :
    ∀ (locs : List String) (d : Dataset K A),
      (∀ d', forLocs f locs d = .ok d' → writeEach w locs d = (d', none)) ∧
      (∀ e, forLocs f locs d = .error e → ∃ e', (writeEach w locs d).2 = some e') := by
  intro locs
  induction locs with
  | nil =>
    intro d
    exact ⟨fun d' h => (by cases h; rfl), fun e h => (by cases h)⟩
  | cons loc locs ih =>
    intro d
    obtain ⟨h1, h2⟩ := h loc d
    simp only [forLocs, writeEach]
    cases hf : f loc d with
    | error e =>
      obtain ⟨e', he'⟩ := h2 e hf
      refine ⟨fun d' h => (by cases h), fun e'' _ => ⟨e', ?_⟩⟩
      unfold Written.andThen
      rw [he']
    | ok d1 =>
      rw [h1 d1 hf]
      exact ih d1

/-- The dataset with some layer variables created. -/
def createdLayers (names : List String) (d : Dataset K A) : Dataset K A :=
  { d with layerVars := fun n => if n ∈ names then some ((d.layerVars n).getD fun _ => none)
      else d.layerVars n }

theorem createdLayers_of_some {names : List String} {d : Dataset K A}
    (h : ∀ n ∈ names, (d.layerVars n).isSome) : createdLayers names d = d := by
  have : (createdLayers names d).layerVars = d.layerVars := by
    funext k
    unfold createdLayers
    dsimp only
    by_cases hk : k ∈ names
    · rw [if_pos hk]
      have := h k hk
      cases hv : d.layerVars k with
      | none => rw [hv] at this; cases this
      | some f => rfl
    · rw [if_neg hk]
  unfold createdLayers at this ⊢
  dsimp only at this
  rw [this]

theorem writeEach_createdLayers : ∀ (names : List String) {d : Dataset K A} {r c : ℕ},
    d.dims "row" = some r → d.dims "column" = some c →
    writeEach createOneLayer names d = (createdLayers names d, none) := by
  intro names
  induction names with
  | nil =>
    intro d r c _ _
    rw [createdLayers_of_some (fun _ h => by cases h)]
    rfl
  | cons a names ih =>
    intro d r c hr hc
    have h1 : createOneLayer a d = (createdLayers [a] d, none) := by
      unfold createOneLayer
      cases hv : d.layerVars a with
      | some f =>
        dsimp only
        rw [createdLayers_of_some]
        intro m hm
        rw [List.mem_singleton] at hm
        rw [hm, hv]
        rfl
      | none =>
        rw [hr, hc]
        dsimp only
        congr 1
        unfold createdLayers
        congr 1
        funext k
        by_cases hk : k = a
        · subst hk
          simp [hv]
        · simp [hk]
    unfold writeEach
    rw [h1]
    show writeEach createOneLayer names (createdLayers [a] d) = _
    rw [ih (d := createdLayers [a] d) (r := r) (c := c) hr hc]
    congr 1
    unfold createdLayers
    congr 1
    funext k
    dsimp only
    by_cases h2 : k ∈ names
    · by_cases h3 : k = a
      · subst h3; simp [h2]
      · simp [h2, h3]
    · by_cases h3 : k = a
      · subst h3; simp [h2]
      · simp [h2, h3]

/-- The assignment of the tracked properties. -/
theorem writeEach_layers {g : GridView A} {r c : ℕ} {S : List String} : ∀ (ns : List String)
    (d : Dataset K A), d.dims "row" = some r → d.dims "column" = some c →
      (∀ vars, setLayerVars g r c ns d.layerVars = .ok vars →
        ∃ m, max m g.nLayers = max d.layerDim g.nLayers ∧
        writeEach (fun name => statement (setOneLayer g name (g.layer name))) ns
            (createdLayers S d) =
          (createdLayers S { d with layerDim := m, layerVars := vars }, none)) ∧
      (∀ e, setLayerVars g r c ns d.layerVars = .error e →
        (writeEach (fun name => statement (setOneLayer g name (g.layer name))) ns
          (createdLayers S d)).2 = some e) := by
  intro ns
  induction ns with
  | nil =>
    intro d _ _
    refine ⟨fun vars h => ?_, fun e h => (by cases h)⟩
    cases h
    exact ⟨d.layerDim, rfl, rfl⟩
  | cons a ns ih =>
    intro d hr hc
    have hget : ((createdLayers S d).layerVars a).getD (fun _ => none) =
        (d.layerVars a).getD fun _ => none := by
      unfold createdLayers
      dsimp only
      by_cases ha : a ∈ S
      · rw [if_pos ha]; rfl
      · rw [if_neg ha]
    have hone : setOneLayer g a (g.layer a) (createdLayers S d) =
        match setLayerVar g.rows (g.cols - 2) r c (g.layer a)
          ((d.layerVars a).getD fun _ => none) with
        | .error e => .error e
        | .ok v => .ok (createdLayers S { d with
            layerDim := max d.layerDim g.nLayers
            layerVars := fun n => if n = a then some v else d.layerVars n }) := by
      unfold setOneLayer
      rw [show (createdLayers S d).dims = d.dims from rfl, hr, hc, hget]
      dsimp only
      cases setLayerVar g.rows (g.cols - 2) r c (g.layer a) ((d.layerVars a).getD fun _ => none) with
      | error e => rfl
      | ok v =>
        dsimp only
        congr 1
        unfold createdLayers
        congr 1
        funext n
        dsimp only
        by_cases hn : n = a
        · subst hn
          by_cases hS : n ∈ S <;> simp [hS]
        · simp [hn]
    simp only [setLayerVars, writeEach, statement, hone]
    cases hv : setLayerVar g.rows (g.cols - 2) r c (g.layer a)
        ((d.layerVars a).getD fun _ => none) with
    | error e =>
      refine ⟨fun vars h => (by cases h), fun e' h => ?_⟩
      cases h
      rfl
    | ok v =>
      obtain ⟨i1, i2⟩ := ih { d with
        layerDim := max d.layerDim g.nLayers
        layerVars := fun n => if n = a then some v else d.layerVars n } hr hc
      refine ⟨fun vars h => ?_, fun e h => i2 e h⟩
      obtain ⟨m, m1, m2⟩ := i1 vars h
      refine ⟨m, ?_, m2⟩
      rw [m1]
      dsimp only
      rw [max_assoc, max_self]

theorem setLayerVars_some {g : GridView A} {r c : ℕ} : ∀ (ns : List String)
    (vars vars' : String → Option (ℕ → Option (List A))),
    setLayerVars g r c ns vars = .ok vars' →
      (∀ n ∈ ns, (vars' n).isSome) ∧ ∀ n, (vars n).isSome → (vars' n).isSome := by
  intro ns
  induction ns with
  | nil =>
    intro vars vars' h
    cases h
    exact ⟨fun _ h => (by cases h), fun _ h => h⟩
  | cons a ns ih =>
    intro vars vars' h
    simp only [setLayerVars] at h
    split at h
    · cases h
    · obtain ⟨i1, i2⟩ := ih _ _ h
      refine ⟨fun n hn => ?_, fun n hn => i2 n ?_⟩
      · rcases List.mem_cons.mp hn with rfl | hn
        · apply i2
          simp
        · exact i1 n hn
      · split_ifs
        · rfl
        · exact hn

/-- `_set_layers` as a whole. -/
theorem writeLayers_outcome (g : GridView A) (d : Dataset K A) :
    (∀ d', setLayers g d = .ok d' → writeLayers g d = (d', none)) ∧
    (∀ e, setLayers g d = .error e → ∃ e', (writeLayers g d).2 = some e') := by
  have hlast : ∀ w : Written K A, (∀ x, w.2 = none → w.1.dims x = d.dims x) →
      (d.dims "row" = none ∨ d.dims "column" = none) →
      ∃ e, (w.andThen (statement (setOneLayer g "thickness" g.dz))).2 = some e := by
    intro w hw hd
    unfold Written.andThen
    cases h : w.2 with
    | some e => exact ⟨e, rfl⟩
    | none =>
      unfold statement
      cases h1 : setOneLayer g "thickness" g.dz w.1 with
      | error e => exact ⟨e, by simp only [h1]⟩
      | ok d1 =>
        obtain ⟨r, c, v, e1, e2, -⟩ := setOneLayer_effect h1
        rw [hw _ h] at e1 e2
        rcases hd with hd | hd
        · rw [hd] at e1; cases e1
        · rw [hd] at e2; cases e2
  have hdims : ((writeEach createOneLayer (g.tracking ++ ["thickness"]) d).andThen
      (writeEach (fun name => statement (setOneLayer g name (g.layer name))) g.tracking)).1.dims =
      d.dims := by
    apply andThen_invariant (P := fun x => x.dims = d.dims)
    · exact writeEach_invariant (P := fun x => x.dims = d.dims) _
        (fun a _ x hx => by rw [(createOneLayer_effect a x).2.2.2.2.1, hx]) d rfl
    · intro x hx
      refine writeEach_invariant (P := fun x => x.dims = d.dims) _ (fun a _ y hy => ?_) x hx
      refine statement_invariant (P := fun x => x.dims = d.dims) (fun y' h => ?_) hy
      obtain ⟨r, c, v, -, -, -, rfl⟩ := setOneLayer_effect h
      exact hy
  unfold setLayers
  cases hr : d.dims "row" with
  | none =>
    refine ⟨fun d' h => (by cases h), fun e _ => ?_⟩
    exact hlast _ (fun x _ => by rw [hdims]) (Or.inl hr)
  | some r =>
    cases hc : d.dims "column" with
    | none =>
      refine ⟨fun d' h => (by cases h), fun e _ => ?_⟩
      exact hlast _ (fun x _ => by rw [hdims]) (Or.inr hc)
    | some c =>
      dsimp only
      obtain ⟨w1, w2⟩ := writeEach_layers (g := g) (r := r) (c := c)
        (S := g.tracking ++ ["thickness"]) g.tracking d hr hc
      unfold writeLayers
      rw [writeEach_createdLayers _ hr hc]
      cases hv : setLayerVars g r c g.tracking d.layerVars with
      | error e =>
        refine ⟨fun d' h => (by cases h), fun e' _ => ⟨e, ?_⟩⟩
        have := w2 e hv
        unfold Written.andThen
        dsimp only
        rw [this]
      | ok vars =>
        obtain ⟨m, m1, m2⟩ := w1 vars hv
        dsimp only
        have hone : setOneLayer g "thickness" g.dz (createdLayers (g.tracking ++ ["thickness"])
            { d with layerDim := m, layerVars := vars }) =
          match setLayerVar g.rows (g.cols - 2) r c g.dz ((vars "thickness").getD fun _ => none) with
          | .error e => .error e
          | .ok v => .ok { d with
              layerDim := max d.layerDim g.nLayers
              layerVars := fun n => if n = "thickness" then some v else vars n } := by
          unfold setOneLayer
          rw [show (createdLayers (g.tracking ++ ["thickness"])
            { d with layerDim := m, layerVars := vars }).dims = d.dims from rfl, hr, hc]
          rw [show ((createdLayers (g.tracking ++ ["thickness"])
            { d with layerDim := m, layerVars := vars }).layerVars "thickness").getD (fun _ => none)
              = (vars "thickness").getD fun _ => none by
            unfold createdLayers
            simp]
          dsimp only
          cases setLayerVar g.rows (g.cols - 2) r c g.dz ((vars "thickness").getD fun _ => none) with
          | error e => rfl
          | ok v =>
            dsimp only
            congr 1
            unfold createdLayers
            dsimp only
            rw [m1]
            congr 1
            funext n
            by_cases hn : n = "thickness"
            · simp [hn]
            · rw [if_neg hn, if_neg hn]
              by_cases ht : n ∈ g.tracking
              · rw [if_pos (List.mem_append_left _ ht)]
                have := (setLayerVars_some _ _ _ hv).1 n ht
                cases hx : vars n with
                | none => rw [hx] at this; cases this
                | some f => rfl
              · rw [if_neg]
                simp [hn, ht]
        show (∀ d', _ → ((writeEach (fun name => statement (setOneLayer g name (g.layer name)))
          g.tracking (createdLayers (g.tracking ++ ["thickness"]) d)).andThen _) = (d', none)) ∧ _
        constructor
        · intro d' h
          rw [m2]
          show statement (setOneLayer g "thickness" g.dz) _ = _
          unfold statement
          rw [hone]
          cases hz : setLayerVar g.rows (g.cols - 2) r c g.dz
              ((vars "thickness").getD fun _ => none) with
          | error e => rw [hz] at h; cases h
          | ok v => rw [hz] at h; cases h; rfl
        · intro e h
          refine ⟨e, ?_⟩
          show ((writeEach (fun name => statement (setOneLayer g name (g.layer name)))
            g.tracking (createdLayers (g.tracking ++ ["thickness"]) d)).andThen _).2 = _
          rw [m2]
          show (statement (setOneLayer g "thickness" g.dz) _).2 = _
          unfold statement
          rw [hone]
          cases hz : setLayerVar g.rows (g.cols - 2) r c g.dz
              ((vars "thickness").getD fun _ => none) with
          | error e' => rw [hz] at h; cases h; rfl
          | ok v => rw [hz] at h; cases h

end Verif.Props
