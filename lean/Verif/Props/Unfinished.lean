import Verif.Lemmas.Unfinished
import Verif.Props.Output

/-! # C139: what a call of `to_netcdf` that fails leaves in the file -/

set_option autoImplicit false
set_option linter.unusedSectionVars false

namespace Verif.Props

open Verif Verif.Spec

variable {K A : Type*}

/-- C139: without an error the file is that of `toNetcdf`; and there is an error exactly if there
is one there. -/
theorem write_outcome (g : GridView A) (path : String) (mode : Mode) (b : Bool) (time : K)
    (at_ : List String) (ids : IdsArg) (names : Names) (wl : Bool) (fs : FileSystem K A) :
    (∀ fs', toNetcdf g path mode b time at_ ids names wl fs = .ok fs' ↔
      writeNetcdf id g path mode b time at_ ids names wl fs = (fs', none)) := by
  have key : (∀ fs', toNetcdf g path mode b time at_ ids names wl fs = .ok fs' →
      writeNetcdf id g path mode b time at_ ids names wl fs = (fs', none)) ∧
      (∀ e, toNetcdf g path mode b time at_ ids names wl fs = .error e →
        ∃ e', (writeNetcdf id g path mode b time at_ ids names wl fs).2 = some e') := by
    have hslice : ∀ d : Dataset K A,
        (∀ d', appendSlice g time at_ ids names wl d = .ok d' →
          writeSlice id g time at_ ids names wl d = (d', none)) ∧
        (∀ e, appendSlice g time at_ ids names wl d = .error e →
          ∃ e', (writeSlice id g time at_ ids names wl d).2 = some e') := by
      intro d
      obtain ⟨f1, f2⟩ := forLocs_outcome
        (f := fun loc => setField g loc (ids.get loc) (namesDict g at_ names loc))
        (w := fun loc => writeField id g loc (ids.get loc) (namesDict g at_ names loc))
        (fun loc d => writeField_outcome g loc (ids.get loc) (namesDict g at_ names loc) d) at_
        { d with times := d.times ++ [time] }
      unfold appendSlice writeSlice
      dsimp only
      cases h1 : forLocs (fun loc => setField g loc (ids.get loc) (namesDict g at_ names loc)) at_
          { d with times := d.times ++ [time] } with
      | error e =>
        obtain ⟨e', he'⟩ := f2 e h1
        refine ⟨fun d' h => (by cases h), fun e'' _ => ⟨e', ?_⟩⟩
        unfold Written.andThen
        rw [he']
      | ok d2 =>
        rw [f1 d2 h1]
        dsimp only
        obtain ⟨r1, r2⟩ := writeField_outcome g "row" ids.row ["x_of_shore", "x_of_shelf_edge"] d2
        show (∀ d', _ → Written.andThen (writeField id g "row" ids.row
          ["x_of_shore", "x_of_shelf_edge"] d2) _ = (d', none)) ∧
          ∀ e, _ → ∃ e', (Written.andThen (writeField id g "row" ids.row
          ["x_of_shore", "x_of_shelf_edge"] d2) _).2 = some e'
        cases h2 : setField g "row" ids.row ["x_of_shore", "x_of_shelf_edge"] d2 with
        | error e =>
          obtain ⟨e', he'⟩ := r2 e h2
          refine ⟨fun d' h => (by cases h), fun e'' _ => ⟨e', ?_⟩⟩
          unfold Written.andThen
          rw [he']
        | ok d3 =>
          rw [r1 d3 h2]
          show (∀ d', _ → (if wl then writeLayers g d3 else (d3, none)) = (d', none)) ∧
            ∀ e, _ → ∃ e', (if wl then writeLayers g d3 else (d3, none)).2 = some e'
          cases wl with
          | true => exact writeLayers_outcome g d3
          | false =>
            refine ⟨fun d' h => ?_, fun e h => (by cases h)⟩
            cases h
            rfl
    unfold toNetcdf writeNetcdf
    by_cases hw : wl = true ∧ ¬ b = true
    · rw [if_pos hw, if_pos hw]
      exact ⟨fun fs' h => (by cases h), fun e h => ⟨_, rfl⟩⟩
    · rw [if_neg hw, if_neg hw]
      have hopen : (∀ d, openDataset g mode at_ ids (fs path) = .ok d →
          openWritten g mode at_ ids (fs path) = some (d, none)) ∧
          (∀ e, openDataset g mode at_ ids (fs path) = .error e →
            openWritten g mode at_ ids (fs path) = none ∨
            ∃ d e', openWritten g mode at_ ids (fs path) = some (d, some e')) := by
        have hnew : (∀ d, newDataset g at_ ids = .ok d →
            some (writeEach (fun loc => statement (setGridCoordinates g loc (ids.get loc)))
              ("row" :: "column" :: at_) (Dataset.new : Dataset K A)) = some (d, none)) ∧
            (∀ e, (newDataset g at_ ids : Except Err (Dataset K A)) = .error e →
              some (writeEach (fun loc => statement (setGridCoordinates g loc (ids.get loc)))
                ("row" :: "column" :: at_) (Dataset.new : Dataset K A)) = none ∨
              ∃ d e', some (writeEach (fun loc => statement (setGridCoordinates g loc (ids.get loc)))
                ("row" :: "column" :: at_) (Dataset.new : Dataset K A)) = some (d, some e')) := by
          obtain ⟨f1, f2⟩ := forLocs_outcome
            (f := fun loc => setGridCoordinates (K := K) g loc (ids.get loc))
            (w := fun loc => statement (setGridCoordinates g loc (ids.get loc)))
            (fun loc d => by
              unfold statement
              cases h : setGridCoordinates g loc (ids.get loc) d with
              | error e => exact ⟨fun d' h => (by cases h), fun e _ => ⟨_, rfl⟩⟩
              | ok d1 => exact ⟨fun d' h => (by cases h; rfl), fun e h => (by cases h)⟩)
            ("row" :: "column" :: at_) Dataset.new
          refine ⟨fun d h => by rw [f1 d h], fun e h => Or.inr ?_⟩
          obtain ⟨e', he'⟩ := f2 e h
          exact ⟨_, e', congrArg some (Prod.ext rfl he')⟩
        unfold openDataset openWritten
        cases fs path with
        | absent => cases mode <;> exact hnew
        | dir =>
          cases mode <;> exact ⟨fun d h => (by cases h), fun e _ => Or.inl rfl⟩
        | danglingLink => cases mode <;> exact hnew
        | raw =>
          cases mode with
          | w => exact hnew
          | a => exact ⟨fun d h => (by cases h), fun e _ => Or.inl rfl⟩
        | dataset d0 =>
          cases mode with
          | w => exact hnew
          | a => exact ⟨fun d h => (by cases h; rfl), fun e h => (by cases h)⟩
      cases ho : openDataset g mode at_ ids (fs path) with
      | error e =>
        refine ⟨fun fs' h => (by cases h), fun e' _ => ?_⟩
        rcases hopen.2 e ho with h | ⟨d, e2, h⟩
        · rw [h]
          exact ⟨_, rfl⟩
        · rw [h]
          exact ⟨e2, rfl⟩
      | ok d =>
        rw [hopen.1 d ho]
        dsimp only
        obtain ⟨s1, s2⟩ := hslice d
        show (∀ fs', _ → (Function.update fs path (.dataset
            (writeSlice id g time at_ ids names wl d).1),
            (writeSlice id g time at_ ids names wl d).2) = (fs', none)) ∧
          ∀ e, _ → ∃ e', (writeSlice id g time at_ ids names wl d).2 = some e'
        cases ha : appendSlice g time at_ ids names wl d with
        | error e => exact ⟨fun fs' h => (by cases h), fun e' _ => s2 e ha⟩
        | ok d' =>
          rw [s1 d' ha]
          exact ⟨fun fs' h => (by cases h; rfl), fun e h => (by cases h)⟩
  intro fs'
  refine ⟨key.1 fs', fun h => ?_⟩
  cases ht : toNetcdf g path mode b time at_ ids names wl fs with
  | ok fs'' =>
    have := key.1 fs'' ht
    rw [h] at this
    cases this
    rfl
  | error e =>
    obtain ⟨e', he'⟩ := key.2 e ht
    rw [h] at he'
    cases he'

/-- What a call has done to the slices when it ends. -/
theorem writeSlice_keeps (order : List String → List String) (g : GridView A) (time : K)
    (at_ : List String) (ids : IdsArg) (names : Names) (wl : Bool) (d : Dataset K A) :
    (writeSlice order g time at_ ids names wl d).1.times = d.times ++ [time] ∧
    KeepsRecords d (writeSlice order g time at_ ids names wl d).1 ∧
    OldOrNew d (writeSlice order g time at_ ids names wl d).1 g d.times.length := by
  let P : Dataset K A → Prop := fun x => x.times = d.times ++ [time] ∧ x.xOf = d.xOf ∧
    x.yOf = d.yOf ∧ x.dims = d.dims ∧
    (∀ i < d.times.length, ∀ loc name, slice x loc name i = slice d loc name i) ∧
    OldOrNew d x g d.times.length
  have hfield : ∀ loc (i : Ids) ns x, P x → P (writeField order g loc i ns x).1 := by
    intro loc i ns x hx
    apply andThen_invariant (P := P)
    · refine writeEach_invariant (P := P) _ (fun a _ y hy => ?_) x hx
      obtain ⟨c1, c2, c3, c4, c5, -⟩ := createOneField_effect loc a y
      obtain ⟨y1, y2, y3, y4, y5, y6⟩ := hy
      refine ⟨c2.trans y1, c3.trans y2, c4.trans y3, c5.trans y4,
        fun j hj l n => (c1 l n j).trans (y5 j hj l n), fun l n => ?_⟩
      rw [c1]
      exact y6 l n
    · intro x hx
      refine writeEach_invariant (P := P) _ (fun a _ y hy => ?_) x hx
      refine statement_invariant (P := P) (fun y' h => ?_) hy
      obtain ⟨v, values, n, s, e1, e2, e3, e4, rfl⟩ := setOneField_effect h
      obtain ⟨y1, y2, y3, y4, y5, y6⟩ := hy
      have hlen : y.times.length - 1 = d.times.length := by rw [y1]; simp
      refine ⟨y1, y2, y3, y4, fun j hj l m => ?_, fun l m => ?_⟩
      · rw [setOneField_slice, if_neg, y5 j hj l m]
        rintro ⟨-, -, h3⟩
        omega
      · by_cases hlm : l = loc ∧ m = a
        · obtain ⟨rfl, rfl⟩ := hlm
          right
          refine ⟨v, i, values, n, e1, e2, ?_, ?_⟩
          · rw [setOneField_slice, if_pos ⟨rfl, rfl, hlen.symm⟩]
            exact e4
          · rw [setOneField_slice, if_pos ⟨rfl, rfl, hlen.symm⟩]
            rfl
        · rw [setOneField_slice, if_neg (fun h => hlm ⟨h.1, h.2.1⟩)]
          exact y6 l m
  have hone : ∀ name data x, P x → P (statement (setOneLayer g name data) x).1 := by
    intro name data x hx
    refine statement_invariant (P := P) (fun y' h => ?_) hx
    obtain ⟨r, c, v, -, -, -, rfl⟩ := setOneLayer_effect h
    exact hx
  have hlayers : ∀ x, P x → P (writeLayers g x).1 := by
    intro x hx
    apply andThen_invariant (P := P)
    · apply andThen_invariant (P := P)
      · refine writeEach_invariant (P := P) _ (fun a _ y hy => ?_) x hx
        obtain ⟨-, c2, c3, c4, c5, c6⟩ := createOneLayer_effect a y
        obtain ⟨y1, y2, y3, y4, y5, y6⟩ := hy
        have hs : ∀ l n j, slice (createOneLayer a y).1 l n j = slice y l n j := by
          intro l n j
          unfold slice
          rw [c6]
        refine ⟨c2.trans y1, c3.trans y2, c4.trans y3, c5.trans y4,
          fun j hj l n => (hs l n j).trans (y5 j hj l n), fun l n => ?_⟩
        rw [hs]
        exact y6 l n
      · intro x hx
        exact writeEach_invariant (P := P) _ (fun a _ y hy => hone a _ y hy) x hx
    · intro x hx
      exact hone _ _ x hx
  have hall : P (writeSlice order g time at_ ids names wl d).1 := by
    apply andThen_invariant (P := P)
    · apply andThen_invariant (P := P)
      · refine writeEach_invariant (P := P) _ (fun a _ y hy => hfield _ _ _ y hy) _ ?_
        exact ⟨rfl, rfl, rfl, rfl, fun _ _ _ _ => rfl, fun _ _ => Or.inl rfl⟩
      · intro x hx
        exact hfield _ _ _ x hx
    · intro x hx
      cases wl with
      | true => exact hlayers x hx
      | false => exact hx
  obtain ⟨h1, h2, h3, h4, h5, h6⟩ := hall
  exact ⟨h1, ⟨h1 ▸ List.prefix_append _ _, h5, h2, h3, h4⟩, h6⟩

/-- C139: appending to a file never damages the records in it, whatever goes wrong and in whatever
order python goes through the names. But the time of the call is in the file even if the call
fails: there is then a record, each of whose variables holds the value of the field or nothing. -/
theorem failed_write_keeps_records (order : List String → List String) (g : GridView A)
    (path : String) (b : Bool) (time : K) (at_ : List String) (ids : IdsArg) (names : Names)
    (wl : Bool) (hb : wl = true → b = true) (fs : FileSystem K A) (d : Dataset K A)
    (hd : fs path = .dataset d) :
    ∃ d', (writeNetcdf order g path .a b time at_ ids names wl fs).1 =
        Function.update fs path (.dataset d') ∧
      d'.times = d.times ++ [time] ∧ KeepsRecords d d' ∧ OldOrNew d d' g d.times.length := by
  unfold writeNetcdf
  rw [if_neg (by rintro ⟨h1, h2⟩; exact h2 (hb h1)), hd]
  refine ⟨_, rfl, ?_⟩
  exact writeSlice_keeps order g time at_ ids names wl d

/-- C139: with the wrong format nothing at all happens to the files. -/
theorem wrong_format_writes_nothing (order : List String → List String) (g : GridView A)
    (path : String) (mode : Mode) (time : K) (at_ : List String) (ids : IdsArg) (names : Names)
    (fs : FileSystem K A) :
    writeNetcdf order g path mode false time at_ ids names true fs = (fs, some .valueError) := by
  unfold writeNetcdf
  rw [if_pos ⟨rfl, by decide⟩]

/-- C139: no call changes a file other than its own. -/
theorem write_touches_only (order : List String → List String) (g : GridView A)
    (path : String) (mode : Mode) (b : Bool) (time : K) (at_ : List String) (ids : IdsArg)
    (names : Names) (wl : Bool) (fs : FileSystem K A) (p : String) (hp : p ≠ path) :
    (writeNetcdf order g path mode b time at_ ids names wl fs).1 p = fs p := by
  unfold writeNetcdf
  split_ifs
  · rfl
  · split
    · rfl
    · exact Function.update_of_ne hp _ _

/-- The layers above those of the grid. -/
theorem setLayerVar_above {R C r c : ℕ} {data : List (List A)} {old v : ℕ → Option (List A)}
    (h : setLayerVar R C r c data old = .ok v) (k : ℕ) (hk : data.length ≤ k) : v k = old k := by
  unfold setLayerVar at h
  cases hm : data.mapM (broadcastLayer R C r c) with
  | error e => rw [hm] at h; cases h
  | ok slices =>
    rw [hm] at h
    cases h
    have hlen : slices.length = data.length := by
      clear hk
      induction data generalizing slices with
      | nil => cases hm; rfl
      | cons l ls ih =>
        rw [List.mapM_cons] at hm
        cases h1 : broadcastLayer R C r c l with
        | error e => rw [h1] at hm; cases hm
        | ok x =>
          rw [h1] at hm
          cases h2 : ls.mapM (broadcastLayer R C r c) with
          | error e => rw [h2] at hm; cases hm
          | ok xs =>
            rw [h2] at hm
            cases hm
            simp [ih xs h2]
    dsimp only
    rw [if_neg (by omega)]

/-- C139: nor are layers in the file touched that are above those of the grid. -/
theorem failed_write_keeps_layers (order : List String → List String) (g : GridView A)
    (path : String) (b : Bool) (time : K) (at_ : List String) (ids : IdsArg) (names : Names)
    (wl : Bool) (hlen : ∀ name ∈ g.tracking, (g.layer name).length = g.nLayers)
    (hdz : g.dz.length = g.nLayers) (fs fs' : FileSystem K A) (e : Option Err) (d d' : Dataset K A)
    (hd : fs path = .dataset d)
    (h : writeNetcdf order g path .a b time at_ ids names wl fs = (fs', e))
    (hd' : fs' path = .dataset d') (name : String) (k : ℕ) (hk : g.nLayers ≤ k) :
    layerSlice d' name k = layerSlice d name k := by
  let P : Dataset K A → Prop := fun x => layerSlice x name k = layerSlice d name k
  have hfield : ∀ loc (i : Ids) ns x, P x → P (writeField order g loc i ns x).1 := by
    intro loc i ns x hx
    apply andThen_invariant (P := P)
    · refine writeEach_invariant (P := P) _ (fun a _ y hy => ?_) x hx
      obtain ⟨-, -, -, -, -, c6⟩ := createOneField_effect loc a y
      show layerSlice _ _ _ = _
      unfold layerSlice
      rw [c6]
      exact hy
    · intro x hx
      refine writeEach_invariant (P := P) _ (fun a _ y hy => ?_) x hx
      refine statement_invariant (P := P) (fun y' h => ?_) hy
      obtain ⟨v, values, n, s, -, -, -, -, rfl⟩ := setOneField_effect h
      exact hy
  have hone : ∀ a data x, data.length = g.nLayers → P x →
      P (statement (setOneLayer g a data) x).1 := by
    intro a data x hl hx
    refine statement_invariant (P := P) (fun y' h => ?_) hx
    obtain ⟨r, c, v, -, -, hv, rfl⟩ := setOneLayer_effect h
    show layerSlice _ _ _ = _
    rw [← (show layerSlice x name k = layerSlice d name k from hx)]
    unfold layerSlice
    dsimp only
    by_cases hn : name = a
    · rw [if_pos hn, Option.bind_some, setLayerVar_above hv k (by omega), hn]
      cases x.layerVars a <;> rfl
    · rw [if_neg hn]
  have hlayers : ∀ x, P x → P (writeLayers g x).1 := by
    intro x hx
    apply andThen_invariant (P := P)
    · apply andThen_invariant (P := P)
      · refine writeEach_invariant (P := P) _ (fun a _ y hy => ?_) x hx
        exact ((createOneLayer_effect a y).1 name k).trans hy
      · intro x hx
        exact writeEach_invariant (P := P) _ (fun a ha y hy => hone a _ y (hlen a ha) hy) x hx
    · intro x hx
      exact hone _ _ x hdz hx
  unfold writeNetcdf at h
  by_cases hb : wl = true ∧ ¬ b = true
  · rw [if_pos hb] at h
    cases h
    rw [hd] at hd'
    cases hd'
    rfl
  · rw [if_neg hb, hd] at h
    cases h
    rw [Function.update_self] at hd'
    cases hd'
    show P (writeSlice order g time at_ ids names wl d).1
    apply andThen_invariant (P := P)
    · apply andThen_invariant (P := P)
      · exact writeEach_invariant (P := P) _ (fun a _ y hy => hfield _ _ _ y hy) _ rfl
      · intro x hx
        exact hfield _ _ _ x hx
    · intro x hx
      cases wl with
      | true => exact hlayers x hx
      | false => exact hx

/-- A grid with two rows of two cells, a layer and a field. -/
def exUnfinishedView (v : ℚ) : GridView ℚ where
  rows := 2
  cols := 4
  xOf := fun loc => if loc = "column" then [0, 1, 2, 3] else []
  yOf := fun loc => if loc = "row" then [0, 10, 20, 30] else []
  fields := fun loc => if loc = "grid" then [("sea_level", [v])] else []
  tracking := []
  nLayers := 1
  layer := fun _ => []
  dz := [[v, v, v, v]]

/-- The file that is left by calls for one of two rows. -/
def exUnfinished : FileSystem ℚ ℚ × Option Err :=
  let ids : IdsArg := { row := .list [0], column := .list [0, 1] }
  let fs := (writeNetcdf id (exUnfinishedView 7) "out.nc" .a true 0 ["grid"] ids .all false
    fun _ => .absent).1
  writeNetcdf id (exUnfinishedView 8) "out.nc" .a true 1 ["grid"] ids .all true fs

/-- C139: the second call is for layers and fails, because only one of the rows is in the file. The
first record is as it was; there is a second one, with its time and its field; and no layer. -/
theorem failed_write_leaves_record :
    exUnfinished.2 = some .valueError ∧
    (match exUnfinished.1 "out.nc" with
    | .dataset d => some (d.times, slice d "grid" "sea_level" 0, slice d "grid" "sea_level" 1,
        d.layerDim, (d.layerVars "thickness").isSome)
    | _ => none) = some ([0, 1], some [7], some [8], 0, true) := by decide +kernel

end Verif.Props
