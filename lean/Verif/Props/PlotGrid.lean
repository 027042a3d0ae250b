import Verif.Props.PlotRun

/-!
# C83: plots of the grid of a `Sequence`
-/

set_option autoImplicit false
set_option linter.unusedSectionVars false

namespace Verif.Props

open Verif Verif.Spec

variable {K σ : Type*} {R C : ℕ} [Field K] [LinearOrder K] [IsStrictOrderedRing K]

/-! ## What a `Sequence` records -/

/-- The shoreline of the only row. -/
def shoreOf (w : World 1 C K) : Option K := w.rowShore.bind (· 0)

/-- The shelf edge of the only row. -/
def shelfOf (w : World 1 C K) : Option K := w.rowShelf.bind (· 0)

/-- Shapes of properties that hold one number per row. -/
def OneNumber (s : RowShape) : Prop := s = .scalar ∨ s = .vector 1

theorem rowValues_one {f : Option (Fin 1 → Option K)} {s : RowShape} (hs : OneNumber s)
    {v : Fin 3 → List (Option K)} (h : rowValues 3 s (rowArgument f) = .ok v) :
    v 0 = [f.bind (· 0)] := by
  cases f with
  | none =>
    rcases hs with rfl | rfl
    · simp [rowValues, rowArgument] at h
      rw [← h]
      rfl
    · simp [rowValues, rowArgument] at h
  | some f =>
    rcases hs with rfl | rfl
    · simp [rowValues, rowArgument] at h
      rw [← h]
      rfl
    · simp [rowValues, rowArgument] at h
      rw [← h]
      rfl

theorem rowShape_one (f : Option (Fin 1 → Option K)) :
    OneNumber (rowShapeOf 3 (rowArgument f).length) := by
  cases f with
  | none => left; simp [rowShapeOf, rowArgument]
  | some f => right; simp [rowShapeOf, rowArgument]

/-- What has been recorded by a `Sequence` on a grid with one row: time, shoreline and shelf
edge. -/
structure Recorded (s : SeqState σ 1 C K) (recs : List (K × Option K × Option K)) : Prop where
  grid : s.gridLayers.map (·.age) = recs.map (·.1)
  shore : s.rowLayers.layers.map (fun l => l.shore 0) = recs.map fun r => [r.2.1]
  shelf : s.rowLayers.layers.map (fun l => l.shelf 0) = recs.map fun r => [r.2.2]
  shapes : ∀ p, s.rowLayers.shapes = some p → OneNumber p.1 ∧ OneNumber p.2
  events : ∃ es, Archive.run ⟨EventLayers.empty, 0⟩ es = .ok ⟨s.world.layers, s.archived⟩ ∧
    (∀ e ∈ es, "age" ∈ e.kw.map (·.1) ∧ ∀ p ∈ e.kw, p.1 ∈ knownProperties) ∧
    ∀ c, es.map (recorded "age" c) = recs.map (·.1)

theorem recorded_add {s s' : SeqState σ 1 C K} {recs : List (K × Option K × Option K)}
    (h : Recorded s recs) {time : K} {dz : Cell 1 C → K} (ha : seqAddLayer time s dz = .ok s') :
    Recorded s' (recs ++ [(time, shoreOf s.world, shelfOf s.world)]) := by
  obtain ⟨ev, rl, a, g1, g2, g3, rfl⟩ := seqAddLayer_ok ha
  unfold RowLayers.add at g2
  dsimp only at g2
  generalize hsh : s.rowLayers.shapes.getD _ = sh at g2
  have hone : OneNumber sh.1 ∧ OneNumber sh.2 := by
    cases hs : s.rowLayers.shapes with
    | none =>
      rw [hs] at hsh
      rw [← hsh]
      exact ⟨rowShape_one _, rowShape_one _⟩
    | some p =>
      rw [hs] at hsh
      rw [← hsh]
      exact h.shapes p hs
  cases h1 : rowValues 3 sh.1 (rowArgument s.world.rowShore) with
  | error e => rw [h1] at g2; cases g2
  | ok u =>
    cases h2 : rowValues 3 sh.2 (rowArgument s.world.rowShelf) with
    | error e => rw [h1, h2] at g2; cases g2
    | ok v =>
      rw [h1, h2] at g2
      cases g2
      obtain ⟨es, e1, e2, e3⟩ := h.events
      refine ⟨?_, ?_, ?_, ?_, ?_⟩
      · simp [h.grid]
      · simp only [List.map_append, h.shore, List.map_cons, List.map_nil]
        rw [rowValues_one hone.1 h1]
        rfl
      · simp only [List.map_append, h.shelf, List.map_cons, List.map_nil]
        rw [rowValues_one hone.2 h2]
        rfl
      · intro p hp
        cases hp
        exact hone
      · refine ⟨es ++ [⟨dz, layerProperties time (1/2)
          { s.world with topo := setCells s.world.topo fun c => atCells s.world.topo c + dz c }⟩],
          ?_, ?_, ?_⟩
        · exact archive_run_snoc es _ e1
            (addLayer_of (st := ⟨s.world.layers, s.archived⟩) g1 g3)
        · intro e he
          rcases List.mem_append.mp he with he | he
          · exact e2 e he
          · simp only [List.mem_singleton] at he
            subst he
            exact ⟨by simp [layerProperties], layerProperties_names _ _ _⟩
        · intro c
          rw [List.map_append, List.map_append, e3 c]
          simp [recorded, layerProperties]

/-- What the updates record. -/
def recordsOf (obs : List (Observation σ 1 C K)) : List (K × Option K × Option K) :=
  obs.map fun o => (o.time, shoreOf o.world, shelfOf o.world)

/-- What is recorded at the beginning: if there is sediment anywhere, a layer of time 0. -/
def initialRecord (hasBedrock : Bool) (w : World 1 C K) : List (K × Option K × Option K) :=
  if ∃ c : Cell 1 C, (if hasBedrock then w else loadBedrock w).bedrock (nodeAtCell c) <
      w.topo (nodeAtCell c) then [(0, shoreOf w, shelfOf w)] else []

theorem recorded_history (comps : List (Component σ 1 C K))
    (hk : ∀ c ∈ comps, Keeps c World.layers) {s s' : SeqState σ 1 C K}
    {obs : List (Observation σ 1 C K)} (h : SeqHistory comps s obs s')
    {recs : List (K × Option K × Option K)} (hs : Recorded s recs) :
    Recorded s' (recs ++ recordsOf obs) := by
  induction h generalizing recs with
  | nil s => simpa [recordsOf] using hs
  | @step s s1 s2 time dt p w obs hc ha hr ih =>
    unfold seqUpdate at ha
    rw [hc] at ha
    dsimp only at ha
    cases h2 : seqAddLayer time { s with comps := p, world := w } (atCells w.deposit) with
    | error e => rw [h2] at ha; cases ha
    | ok s3 =>
      rw [h2] at ha
      cases ha
      have hwl : w.layers = s.world.layers := runComponents_keeps World.layers comps hk hc
      have hs' : Recorded { s with comps := p, world := w } recs :=
        ⟨hs.grid, hs.shore, hs.shelf, hs.shapes, by
          dsimp only
          rw [hwl]
          exact hs.events⟩
      have h3 := recorded_add hs' h2
      have := ih (recs := recs ++ [(time, shoreOf w, shelfOf w)])
        ⟨h3.grid, h3.shore, h3.shelf, h3.shapes, h3.events⟩
      rw [List.append_assoc] at this
      exact this

theorem recorded_init {p : σ} {w : World 1 C K} {hasBedrock : Bool}
    (hempty : w.layers = EventLayers.empty) {s : SeqState σ 1 C K}
    (h : seqInit p w hasBedrock = .ok s) : Recorded s (initialRecord hasBedrock w) := by
  unfold seqInit at h
  dsimp only at h
  unfold initialRecord
  have hlb : (if hasBedrock = true then w else loadBedrock w).layers = w.layers ∧
      (if hasBedrock = true then w else loadBedrock w).topo = w.topo ∧
      (if hasBedrock = true then w else loadBedrock w).rowShore = w.rowShore ∧
      (if hasBedrock = true then w else loadBedrock w).rowShelf = w.rowShelf := by
    split_ifs <;> exact ⟨rfl, rfl, rfl, rfl⟩
  generalize (if hasBedrock = true then w else loadBedrock w) = w1 at h hlb ⊢
  obtain ⟨l1, l2, l3, l4⟩ := hlb
  have h0 : Recorded (⟨p, w1, 0, [], ⟨none, []⟩⟩ : SeqState σ 1 C K) [] :=
    ⟨rfl, rfl, rfl, fun _ h => (by cases h), [], by rw [l1, hempty]; rfl, by simp, by simp⟩
  have hex : (∃ c : Cell 1 C, 0 < atCells w1.topo c - atCells w1.bedrock c) ↔
      ∃ c : Cell 1 C, w1.bedrock (nodeAtCell c) < w.topo (nodeAtCell c) := by
    simp only [atCells, sub_pos, l2]
  by_cases hx : ∃ c : Cell 1 C, w1.bedrock (nodeAtCell c) < w.topo (nodeAtCell c)
  · rw [if_pos (hex.mpr hx)] at h
    rw [if_pos hx]
    cases h2 : seqAddLayer 0 (⟨p, w1, 0, [], ⟨none, []⟩⟩ : SeqState σ 1 C K)
        (fun c => atCells w1.topo c - atCells w1.bedrock c) with
    | error e => rw [h2] at h; cases h
    | ok s2 =>
      rw [h2] at h
      cases h
      have h3 := recorded_add h0 h2
      have e1 : shoreOf w1 = shoreOf w := by unfold shoreOf; rw [l3]
      have e2 : shelfOf w1 = shelfOf w := by unfold shelfOf; rw [l4]
      dsimp only at h3
      rw [e1, e2] at h3
      exact ⟨h3.grid, h3.shore, h3.shelf, h3.shapes, h3.events⟩
  · rw [if_neg fun hc => hx (hex.mp hc)] at h
    rw [if_neg hx]
    cases h
    exact ⟨h0.grid, h0.shore, h0.shelf, h0.shapes, h0.events⟩

/-! ## C83 -/

/-- Every age of a stored layer is one of the recorded times. -/
theorem isMerge_max_mem {a : ℕ} {raw merged : List K} (h : IsMerge IsMaxOf a raw merged) {k : ℕ}
    {v : K} (hk : merged[k]? = some v) : v ∈ raw := by
  by_cases hka : k < a
  · obtain ⟨-, u, u1, u2⟩ := h.2.1 k hka
    rw [hk] at u1
    cases u1
    exact List.mem_of_mem_drop (List.mem_of_mem_take u2.1)
  · rw [h.2.2 k (by omega)] at hk
    exact List.mem_of_getElem? hk

/-- Reading a table at one of its nodes. -/
theorem interp_node {times : List K} (hp : times.Pairwise (· < ·)) {y : List (Option K)}
    (hl : y.length = times.length) {j : ℕ} {t : K} {v : Option K} (ht : times[j]? = some t)
    (hv : y[j]? = some v) : interpFloats times y (some t) = .ok v := by
  have hj : j < times.length := (List.getElem?_eq_some_iff.mp ht).1
  have hne : times ≠ [] := by intro h; rw [h] at hj; simp at hj
  have hf : ∀ i < times.length, y[i]? = some ((y[i]?).join) := by
    intro i hi
    rw [List.getElem?_eq_getElem (by omega)]
    rfl
  have ha : times.head? = some (times.head hne) := List.head?_eq_some_head hne
  have hb : times.getLast? = some (times.getLast hne) := List.getLast?_eq_some_getLast hne
  obtain ⟨h1, h2⟩ := interp_series hp hl hf ha hb (some t)
  have hle : times.Pairwise (· ≤ ·) := hp.imp fun h => h.le
  have hmem : t ∈ times := List.mem_of_getElem? ht
  obtain ⟨u, hu⟩ := h1.mpr (by
    intro t' ht'
    cases ht'
    refine ⟨?_, ?_⟩
    · clear h1 h2 ha hb hf ht hj hl hp
      obtain ⟨b, l, rfl⟩ := List.exists_cons_of_ne_nil hne
      rw [List.head_cons]
      rcases List.mem_cons.mp hmem with e | hm
      · exact e ▸ le_refl _
      · exact (List.pairwise_cons.mp hle).1 t hm
    · exact List.Pairwise.rel_getLast_of_rel_getLast_getLast hle hmem (le_refl _))
  rw [hu, ((h2 u hu).2 t rfl).1 j ht]
  dsimp only
  rw [hv]
  rfl

/-- `x_of_shore[:, row].squeeze()` of what has been recorded. -/
theorem rowColumn_ok {R : ℕ} {name : String} {layers : List (RowLayer R K)}
    {get : RowLayer R K → Fin (R + 2) → List (Option K)} {row : Fin (R + 2)} {vs : List (Option K)}
    (h : layers.map (fun l => get l row) = vs.map fun v => [v]) :
    rowColumn name layers get row =
      if vs.length = 0 then .error (.keyError name) else if vs.length = 1 then .error .valueError
      else .ok vs := by
  have hlen : layers.length = vs.length := by
    have := congrArg List.length h
    simpa using this
  match layers, vs, h, hlen with
  | [], [], _, _ => rfl
  | [_], [_], _, _ => rfl
  | a :: b :: ls, u :: v :: vs, h, _ =>
    have hf : ∀ (ls : List (RowLayer R K)) (vs : List (Option K)),
        ls.map (fun l => get l row) = vs.map (fun v => [v]) →
        ls.mapM (fun l => match get l row with
          | [v] => (.ok v : Except Err (Option K))
          | _ => .error .valueError) = .ok vs := by
      intro ls vs h
      rw [mapM_ok_iff]
      refine ⟨by simpa using congrArg List.length h, ?_⟩
      intro i l hl
      have := congrArg (fun x => x[i]?) h
      simp only [List.getElem?_map, hl, Option.map_some] at this
      obtain ⟨v, hv, e⟩ := Option.map_eq_some_iff.mp this.symm
      exact ⟨v, hv, by rw [← e]⟩
    rw [if_neg (by simp), if_neg (by simp)]
    exact hf _ _ h

/-- C83 for grids with several rows and more than one column of stacks: `plot_grid` always
fails. -/
theorem plot_grid_rows (s : SeqState σ (R + 2) (C + 4) K) (x : Fin (C + 4) → K) :
    plotGrid (R := R + 1) (C := C + 1) s x = .error .valueError := by
  unfold plotGrid
  dsimp only
  rw [if_pos]
  refine ⟨?_, by omega⟩
  intro h
  have : (R + 1 + 1) * (C + 1 + 1) = (C + 1 + 1) + (R + 1) * (C + 1 + 1) := by ring
  have h2 : 0 < (R + 1) * (C + 1 + 1) := by positivity
  omega

/-- C83 for grids with one row: `plot_grid` fails as long as there are less than two layers;
afterwards every layer is drawn where it is and with the shoreline and the shelf edge that were
recorded at the time of the layer. -/
theorem plot_grid_run {p : σ} {w : World 1 (C + 3) K} {hasBedrock : Bool}
    (hempty : w.layers = EventLayers.empty) {s s' : SeqState σ 1 (C + 3) K}
    (hi : seqInit p w hasBedrock = .ok s) (comps : List (Component σ 1 (C + 3) K))
    (hk : ∀ c ∈ comps, Keeps c World.layers) (obs : List (Observation σ 1 (C + 3) K))
    (h : SeqHistory comps s obs s')
    (htime : ((initialRecord hasBedrock w ++ recordsOf obs).map (·.1)).Pairwise (· < ·))
    (x : Fin (C + 3) → K) :
    ((initialRecord hasBedrock w ++ recordsOf obs).length = 0 →
      plotGrid (R := 0) s' x = .error (.keyError "x_of_shore")) ∧
    ((initialRecord hasBedrock w ++ recordsOf obs).length = 1 →
      plotGrid (R := 0) s' x = .error .valueError) ∧
    (2 ≤ (initialRecord hasBedrock w ++ recordsOf obs).length →
      ∃ args, plotGrid (R := 0) s' x = .ok args ∧
        args.elevation.length = s'.world.layers.n ∧ args.shore.length = s'.world.layers.n ∧
        args.shelf.length = s'.world.layers.n ∧
        args.x = (List.finRange (C + 1)).map (fun c => some (x c.succ.castSucc)) ∧
        (∀ k < s'.world.layers.n, ∀ c : Fin (C + 1),
          (args.elevation[k]?).bind (·[c.val]?) = some (some (layerTop s'.world k 0 c))) ∧
        ∀ k < s'.world.layers.n,
          ∃ r ∈ initialRecord hasBedrock w ++ recordsOf obs,
            (s'.world.layers.prop "age" (0, ⟨0, by omega⟩))[k]? = some r.1 ∧
            args.shore[k]? = some r.2.1 ∧ args.shelf[k]? = some r.2.2) := by
  have hrec := recorded_history comps hk h (recorded_init hempty hi)
  generalize initialRecord hasBedrock w ++ recordsOf obs = recs at hrec htime ⊢
  have hR : ¬ ((0 + 1) * (C + 1) ≠ C + 1 ∧ C + 1 ≠ 1) := by
    intro hc
    exact hc.1 (by omega)
  unfold plotGrid
  dsimp only
  rw [if_neg hR, rowColumn_ok (name := "x_of_shore") (vs := recs.map (·.2.1))
    (by rw [List.map_map]; exact hrec.shore), rowColumn_ok (name := "x_of_shelf_edge")
    (vs := recs.map (·.2.2)) (by rw [List.map_map]; exact hrec.shelf)]
  simp only [List.length_map]
  refine ⟨?_, ?_, ?_⟩
  · intro h0
    rw [if_pos h0]
  · intro h1
    rw [if_neg (by omega), if_pos h1]
  · intro h2
    rw [if_neg (by omega), if_neg (by omega), if_neg (by omega), if_neg (by omega)]
    dsimp only
    rw [hrec.grid]
    obtain ⟨es, e1, e2, e3⟩ := hrec.events
    have hlen : es.length = recs.length := by
      have := congrArg List.length (e3 (0, ⟨0, by omega⟩))
      simpa using this
    obtain ⟨e, es', rfl⟩ : ∃ e es', es = e :: es' := by
      cases es with
      | nil => simp only [List.length_nil] at hlen; omega
      | cons e es' => exact ⟨e, es', rfl⟩
    have hknown : ∀ e' ∈ e :: es', ∀ p ∈ e'.kw, p.1 ∈ knownProperties := fun e' he => (e2 e' he).2
    have hm := (archive_properties e es' hknown e1 (0, ⟨0, by omega⟩)).1 (e2 e (by simp)).1
    rw [e3] at hm
    dsimp only at hm
    have hn : (s'.world.layers.prop "age" (0, ⟨0, by omega⟩)).length = s'.world.layers.n := by
      obtain ⟨c1, c2, -, -, -⟩ := archive_count _ hknown e1
      have hl := hm.1
      rw [List.length_map, ← hlen] at hl
      dsimp only at c1 c2
      by_cases h20 : (e :: es').length < 20
      · have := c1 h20; omega
      · have := c2 (by omega); omega
    -- every layer has a record
    have hrecord : ∀ k < s'.world.layers.n, ∃ (j : ℕ) (r : K × Option K × Option K), recs[j]? = some r ∧
        (s'.world.layers.prop "age" (0, ⟨0, by omega⟩))[k]? = some r.1 := by
      intro k hk
      obtain ⟨v, hv⟩ : ∃ v, (s'.world.layers.prop "age" (0, ⟨0, by omega⟩))[k]? = some v :=
        ⟨_, List.getElem?_eq_getElem (by rw [hn]; exact hk)⟩
      obtain ⟨r, r1, r2⟩ := List.mem_map.mp (isMerge_max_mem hm hv)
      obtain ⟨j, hj⟩ := List.mem_iff_getElem?.mp r1
      exact ⟨j, r, hj, by rw [hv, r2]⟩
    have hread : ∀ (get : K × Option K × Option K → Option K), ∃ ys,
        interpAll (recs.map (·.1)) (recs.map get) ((List.range s'.world.layers.n).map fun k =>
          (s'.world.layers.prop "age" (0, ⟨0, by omega⟩))[k]?) = .ok ys ∧
        ys.length = s'.world.layers.n ∧
        ∀ (k j : ℕ) (r : K × Option K × Option K), k < s'.world.layers.n → recs[j]? = some r →
          (s'.world.layers.prop "age" (0, ⟨0, by omega⟩))[k]? = some r.1 → ys[k]? = some (get r) := by
      intro get
      have hnode : ∀ (j : ℕ) r, recs[j]? = some r →
          interpFloats (recs.map (·.1)) (recs.map get) (some r.1) = .ok (get r) := by
        intro j r hj
        exact interp_node htime (by simp) (by rw [List.getElem?_map, hj]; rfl)
          (by rw [List.getElem?_map, hj]; rfl)
      obtain ⟨ys, hys⟩ : ∃ ys, interpAll (recs.map (·.1)) (recs.map get)
          ((List.range s'.world.layers.n).map fun k =>
            (s'.world.layers.prop "age" (0, ⟨0, by omega⟩))[k]?) = .ok ys := by
        refine mapM_total fun a ha => ?_
        obtain ⟨k, hk, rfl⟩ := List.mem_map.mp ha
        obtain ⟨j, r, hj, hr⟩ := hrecord k (List.mem_range.mp hk)
        exact ⟨get r, by rw [hr]; exact hnode j r hj⟩
      obtain ⟨y1, y2⟩ := mapM_ok_iff.mp hys
      refine ⟨ys, hys, by simpa using y1.symm, ?_⟩
      intro k j r hk hj hr
      obtain ⟨b, b1, b2⟩ := y2 k (some r.1) (by
        rw [List.getElem?_map, List.getElem?_range hk, Option.map_some, hr])
      rw [hnode j r hj] at b2
      cases b2
      exact b1
    obtain ⟨ys, y1, y2, y3⟩ := hread (·.2.1)
    obtain ⟨zs, z1, z2, z3⟩ := hread (·.2.2)
    rw [y1, z1]
    refine ⟨_, rfl, by simp, y2, z2, rfl, ?_, ?_⟩
    · intro k hk c
      dsimp only
      rw [List.getElem?_map, List.getElem?_range hk]
      have hrow : (List.finRange (0 + 1)) = [0] := rfl
      rw [hrow]
      simp only [List.flatMap_cons, List.flatMap_nil, List.append_nil, Option.map_some,
        Option.bind_some, List.getElem?_map]
      rw [List.getElem?_eq_getElem (l := List.finRange (C + 1)) (i := c.val)
        (by rw [List.length_finRange]; exact c.isLt)]
      simp only [List.getElem_finRange, Option.map_some]
      rfl
    · intro k hk
      obtain ⟨j, r, hj, hr⟩ := hrecord k hk
      exact ⟨r, List.mem_of_getElem? hj, hr, y3 k j r hk hj hr, z3 k j r hk hj hr⟩

/-! ### An example: three updates on one row with one stack -/

/-- A `Sequence` on the tilted plane of `exTilted` after `n` updates of 100 years. -/
def exSequence : ℕ → Except Err (SeqState ℕ 1 3 ℚ)
  | 0 => seqInit 0 exTilted true
  | n + 1 =>
    match exSequence n with
    | .error e => .error e
    | .ok s => seqUpdate [exMove] 100 (100 * (n + 1)) s

/-- What `plot_grid` makes of it. -/
def exPlotGrid (n : ℕ) : Option (Except Err (PlotArgs ℚ)) :=
  match exSequence n with
  | .error _ => none
  | .ok s => some (plotGrid (R := 0) (C := 0) s fun c => 1000 * c.val)

theorem seqHistory_snoc {comps : List (Component σ R C K)} {s s1 s2 : SeqState σ R C K}
    {obs : List (Observation σ R C K)} (h : SeqHistory comps s obs s1) {time dt : K} {p : σ}
    {w : World R C K} (hc : runComponents comps dt (s1.comps, s1.world) = .ok (p, w))
    (ha : seqUpdate comps dt time s1 = .ok s2) :
    SeqHistory comps s (obs ++ [⟨time, dt, p, w⟩]) s2 := by
  induction h with
  | nil s => exact .step hc ha (.nil _)
  | step h1 h2 _ ih => exact .step h1 h2 (ih hc ha)

theorem seqUpdate_comps {comps : List (Component σ R C K)} {s s' : SeqState σ R C K}
    {time dt : K} {p : σ} {w : World R C K}
    (hc : runComponents comps dt (s.comps, s.world) = .ok (p, w))
    (ha : seqUpdate comps dt time s = .ok s') : s'.comps = p := by
  unfold seqUpdate at ha
  rw [hc] at ha
  dsimp only at ha
  cases h2 : seqAddLayer time { s with comps := p, world := w } (atCells w.deposit) with
  | error e => rw [h2] at ha; cases ha
  | ok s3 =>
    rw [h2] at ha
    cases ha
    obtain ⟨_, _, _, -, -, -, rfl⟩ := seqAddLayer_ok h2
    rfl

/-- These are runs in the sense of the theorem. -/
theorem exSequence_history (n : ℕ) {s' : SeqState ℕ 1 3 ℚ} (h : exSequence n = .ok s') :
    ∃ s obs, seqInit 0 exTilted true = .ok s ∧ SeqHistory [exMove] s obs s' ∧
      recordsOf obs = (List.range n).map fun i : ℕ =>
        ((100 * (i + 1) : ℚ), some (10 * (i + 1) : ℚ), some (10 * (i + 1) + 1 : ℚ)) := by
  have key : ∀ n (s' : SeqState ℕ 1 3 ℚ), exSequence n = .ok s' →
      ∃ s obs, seqInit 0 exTilted true = .ok s ∧ SeqHistory [exMove] s obs s' ∧ s'.comps = n ∧
        recordsOf obs = (List.range n).map fun i : ℕ =>
          ((100 * (i + 1) : ℚ), some (10 * (i + 1) : ℚ), some (10 * (i + 1) + 1 : ℚ)) := by
    intro n
    induction n with
    | zero =>
      intro s' h
      refine ⟨s', [], h, .nil _, ?_, rfl⟩
      have hc : (seqInit 0 exTilted true).toOption.map (fun s : SeqState ℕ 1 3 ℚ => s.comps) =
          some 0 := by decide +kernel
      rw [show seqInit 0 exTilted true = .ok s' from h] at hc
      exact Option.some.inj hc
    | succ n ih =>
      intro s' h
      unfold exSequence at h
      cases h1 : exSequence n with
      | error e => rw [h1] at h; cases h
      | ok s1 =>
        rw [h1] at h
        obtain ⟨s, obs, a1, a2, a3, a4⟩ := ih s1 h1
        have hrun : runComponents [exMove] 100 (s1.comps, s1.world) =
          .ok (s1.comps + 1, { s1.world with
            deposit := fun n => s1.world.deposit n + 2
            rowShore := some fun _ => some (10 * (s1.comps + 1))
            rowShelf := some fun _ => some (10 * (s1.comps + 1) + 1) }) := rfl
        refine ⟨s, _, a1, seqHistory_snoc a2 hrun h, ?_, ?_⟩
        · rw [seqUpdate_comps hrun h, a3]
        · unfold recordsOf at a4 ⊢
          rw [List.map_append, a4, List.range_succ, List.map_append]
          simp [shoreOf, shelfOf, a3]
  obtain ⟨s, obs, h1, h2, -, h3⟩ := key n s' h
  exact ⟨s, obs, h1, h2, h3⟩

/-- C83: after no update there is one layer, and nothing can be plotted. -/
example : exPlotGrid 0 = some (.error .valueError) := by decide +kernel

/-- C83: three updates. The first layer has no shoreline: none had been found yet. -/
example : exPlotGrid 3 = some (.ok ⟨[[some (-6)], [some (-4)], [some (-2)], [some 0]], [some 1000],
    [none, some 10, some 20, some 30], [none, some 11, some 21, some 31]⟩) := by decide +kernel

/-- C83: after 24 updates the first ten layers are one, with the shoreline of the last of them. -/
example : (exPlotGrid 24).map (fun r => r.toOption.map fun a => (a.elevation.length, a.shore.take 3)) =
    some (some (16, [some 90, some 100, some 110])) := by decide +kernel

/-- The example is an instance of the theorem. -/
example (n : ℕ) {s' : SeqState ℕ 1 3 ℚ} (h : exSequence n = .ok s') (hn : 1 ≤ n) :
    ∃ args, plotGrid (R := 0) (C := 0) s' (fun c => 1000 * c.val) = .ok args ∧
      args.elevation.length = s'.world.layers.n := by
  obtain ⟨s, obs, h1, h2, h3⟩ := exSequence_history n h
  have h0 : initialRecord true exTilted = [((0 : ℚ), none, none)] := by
    unfold initialRecord
    rw [if_pos ⟨(0, ⟨0, by omega⟩), by simp [exTilted, nodeAtCell]; norm_num⟩]
    rfl
  obtain ⟨args, a1, a2, -⟩ := (plot_grid_run (C := 0) (by rfl) h1 [exMove] (by
    intro c hc dt p w p' w' h
    simp only [List.mem_singleton] at hc
    subst hc
    cases h
    rfl) obs h2 (by
      rw [h0, h3, List.singleton_append, List.map_cons, List.map_map, List.pairwise_cons]
      refine ⟨?_, ?_⟩
      · intro x hx
        obtain ⟨i, -, rfl⟩ := List.mem_map.mp hx
        simp only [Function.comp]
        positivity
      · rw [List.pairwise_map]
        refine List.pairwise_lt_range.imp fun {a b} hab => ?_
        have : (a : ℚ) < b := by exact_mod_cast hab
        simp only [Function.comp]
        linarith) fun c => 1000 * c.val).2.2 (by rw [h0, h3]; simp; omega)
  exact ⟨args, a1, a2⟩

/-- C83: two rows of two stacks. -/
example (s : SeqState ℕ 2 4 ℚ) (x : Fin 4 → ℚ) :
    plotGrid (R := 1) (C := 1) s x = .error .valueError := plot_grid_rows s x

end Verif.Props
