import Verif.Lemmas.ConfigFile

/-!
# Properties of time-varying configurations (C01–C05, C07)

`Leaf.freeze` is the identity except that it turns a list into the tuple with the same elements,
which is how the configuration object stores lists.
-/

set_option autoImplicit false

namespace Verif.Props

open Spec

/-! ### A concrete configuration used in the examples -/

/-- `{"a": 1, "g": {"x": [1, 2], "y": "s"}}` -/
def doc0 : Doc :=
  .leaf "a" (.num 1) (.sub "g" (.leaf "x" (.list [.num 1, .num 2]) (.leaf "y" (.str "s") .nil)) .nil)

/-- `{"g": {"x": [3]}, "b": None}` -/
def doc1 : Doc := .sub "g" (.leaf "x" (.list [.num 3]) .nil) (.leaf "b" .none .nil)

/-- `{"a": 5}` -/
def doc2 : Doc := .leaf "a" (.num 5) .nil

/-- Three sections, at times 0, 10 and 25/2. -/
def cfg : Cfg := ⟨[0, 10, 25 / 2], [stored doc0, stored doc1, stored doc2], 0, stored doc0⟩

theorem cfg_init : Cfg.init [0, 10, 25 / 2] [doc0, doc1, doc2] = .ok cfg := rfl

theorem docs_distinct : ∀ d ∈ [doc0, doc1, doc2], DistinctKeys d := by
  simp [doc0, doc1, doc2, DistinctKeys, Doc.keys]

theorem valueAt_leaf (k : String) (v : Leaf) (r : Doc) (a : String) (p : List String) :
    valueAt (.leaf k v r) (a :: p) =
      if k = a then (if p = [] then some v else none) else valueAt r (a :: p) := by
  split_ifs with h h'
  · subst h; subst h'; rw [valueAt_single]; simp [Doc.find?]
  · subst h
    cases p with
    | nil => exact absurd rfl h'
    | cons n p => rw [valueAt_cons]; simp [Doc.find?]
  · apply valueAt_congr; simp [Doc.find?, h]

theorem valueAt_sub (k : String) (s r : Doc) (a : String) (p : List String) :
    valueAt (.sub k s r) (a :: p) = if k = a then valueAt s p else valueAt r (a :: p) := by
  split_ifs with h
  · subst h
    cases p with
    | nil => rw [valueAt_single, valueAt_nil]; simp [Doc.find?]
    | cons n p => rw [valueAt_cons]; simp [Doc.find?]
  · apply valueAt_congr; simp [Doc.find?, h]

theorem valueAt_empty (p : List String) : valueAt .nil p = none := by
  cases p with
  | nil => exact valueAt_nil _
  | cons k p => exact Doc.valueAt_of_find?_none rfl p

theorem mem_paths {p : List String} {d : Doc} (hd : d ∈ [doc0, doc1, doc2])
    (h : valueAt d p ≠ none) : p ∈ [["a"], ["g", "x"], ["g", "y"], ["b"]] := by
  have := Doc.get?_walk (docs_distinct d hd) p
  rw [← this, Ne, PyDict.get?_eq_none_iff, not_not] at h
  have hsub : ∀ d ∈ [doc0, doc1, doc2], ∀ q ∈ PyDict.keys (d.walk []),
      q ∈ [["a"], ["g", "x"], ["g", "y"], ["b"]] := by decide +kernel
  exact hsub d hd p h

theorem docs_consistent : Consistent [doc0, doc1, doc2] := by
  intro d hd d' hd' p q hp hq hpq
  have key : ∀ p ∈ [["a"], ["g", "x"], ["g", "y"], ["b"]],
      ∀ q ∈ [["a"], ["g", "x"], ["g", "y"], ["b"]], p <+: q → p = q := by decide +kernel
  exact key p (mem_paths hd hp) q (mem_paths hd' hq) hpq

theorem docs_hashable : Hashable [doc0, doc1, doc2] := by
  intro d hd p v hv
  rw [← Doc.get?_walk (docs_distinct d hd)] at hv
  have key : ∀ d ∈ [doc0, doc1, doc2], ∀ x ∈ d.walk [], x.2.freeze.hashable = true := by
    decide +kernel
  exact (hashable_iff _).mp (key d hd _ (PyDict.mem_of_get? hv))

theorem docs_times : ([0, 10, 25 / 2] : List Rat).Pairwise (· < ·) := by
  simp; norm_num

/-! ### C01 -/

/-- C01: the configuration at time `t` holds, for every path, the value of the last section with
time `≤ t` that sets the path. -/
theorem config_latest_wins (times : List Rat) (docs : List Doc) (c : Cfg)
    (hinit : Cfg.init times docs = .ok c) (hs : times.Pairwise (· ≤ ·))
    (hd : ∀ d ∈ docs, DistinctKeys d) (t : Rat) (path : List String) :
    (c.call t).get? path = (configAt (times.zip docs) t path).map Leaf.freeze := by
  obtain ⟨hT, hD, _, _⟩ := Cfg.init_ok hinit
  rw [← hT]
  exact Cfg.call_eq_configAt (by rw [hT]; exact hs) hD hd t path

/-- C01: each path occurs once in the configuration at time `t`. -/
theorem config_no_duplicates (c : Cfg) (t : Rat) : ((c.call t).map (·.1)).Nodup :=
  Cfg.nodup_call c t

example : (cfg.call 11).get? ["g", "x"] = some (.tup [.num 3]) := by
  rw [config_latest_wins _ _ _ cfg_init (docs_times.imp fun h => le_of_lt h) docs_distinct]
  decide +kernel

example : (cfg.call 11).get? ["g", "y"] = some (.str "s") := by decide +kernel
example : (cfg.call (-1)).get? ["a"] = none := by decide +kernel
example : (cfg.call (25 / 2)).get? ["a"] = some (.num 5) := by decide +kernel

/-! ### C02 -/

/-- C02: `diff` returns exactly the parameters whose value changed. -/
theorem diff_exact (c : Cfg) (start stop : Rat) (f : Flat) (h : c.diff start stop = .ok f)
    (path : List String) (v : Leaf) :
    f.get? path = some v ↔
      (c.call stop).get? path = some v ∧ (c.call start).get? path ≠ some v :=
  Cfg.diff_ok h path v

/-- C02: overlaying the difference on the configuration at `start` gives that at `stop`. -/
theorem diff_overlay (times : List Rat) (docs : List Doc) (c : Cfg)
    (hinit : Cfg.init times docs = .ok c) (hs : times.Pairwise (· ≤ ·)) (start stop : Rat)
    (hle : start ≤ stop) (f : Flat) (h : c.diff start stop = .ok f) (path : List String) :
    ((c.call start).update f).get? path = (c.call stop).get? path := by
  obtain ⟨hT, hD, _, _⟩ := Cfg.init_ok hinit
  rw [PyDict.get?_update, PyDict.get?_reverse (Cfg.diff_keys h).1]
  refine Cfg.diff_overlay (by rw [hT]; exact hs) ?_ hle h path
  rw [hD]; intro e he; obtain ⟨d, _, rfl⟩ := List.mem_map.mp he; exact nodup_stored d

/-- C02: `diff` raises only `TypeError`, exactly when a value of one of the two configurations
is a list or holds one. -/
theorem diff_fails_iff (c : Cfg) (start stop : Rat) (e : Err) :
    c.diff start stop = .error e ↔ e = .typeError ∧
      ∃ path v, ((c.call start).get? path = some v ∨ (c.call stop).get? path = some v) ∧
        HoldsList v := by
  have hiff := Cfg.diff_ok_iff c start stop
  constructor
  · intro h
    refine ⟨Cfg.diff_error h, ?_⟩
    by_contra hn
    push Not at hn
    obtain ⟨f, hf⟩ := hiff.mpr fun p v hv => (hashable_iff v).mpr (hn p v hv)
    rw [h] at hf; cases hf
  · rintro ⟨rfl, p, v, hv, hh⟩
    cases hd : c.diff start stop with
    | error e => rw [Cfg.diff_error hd]
    | ok f =>
      exact absurd hh ((hashable_iff v).mp (hiff.mp ⟨f, hd⟩ p v hv))

example : cfg.diff 0 20 = .ok [(["a"], .num 5), (["g", "x"], .tup [.num 3]), (["b"], .none)] := by
  decide +kernel

/-- A list inside a list: comparing the sections fails. -/
def badCfg : Cfg :=
  ⟨[0, 1], [stored (.leaf "a" (.list [.list [.num 1]]) .nil), stored doc2], 0,
    stored (.leaf "a" (.list [.list [.num 1]]) .nil)⟩

example : badCfg.diff 0 1 = .error .typeError := by decide +kernel

/-! ### C03 -/

/-- The current configuration as it is returned by `as_dict`: after a section time in
`(0, T]` was crossed the configuration at time `T`, before that the first section. -/
def CurrentIs (c : Cfg) (times : List Rat) (docs : List Doc) (T : Rat) : Prop :=
  ∃ d, c.asDict = .ok d ∧ ∀ path,
    ((∃ s ∈ times, 0 < s ∧ s ≤ T) → valueAt d path = configAt (times.zip docs) T path) ∧
    ((¬ ∃ s ∈ times, 0 < s ∧ s ≤ T) → valueAt d path = docs.head?.bind (valueAt · path))

theorem thaw_freeze_of_noTuples {d : Doc} (h : NoTuples d) {p : List String} {v : Leaf}
    (hv : valueAt d p = some v) : v.freeze.thaw = v := by
  induction d generalizing p with
  | nil => rw [valueAt_empty] at hv; cases hv
  | leaf k w r ih =>
    cases p with
    | nil => rw [valueAt_nil] at hv; cases hv
    | cons a p =>
      rw [valueAt_leaf] at hv
      split_ifs at hv with h1 h2
      · cases hv
        cases v with
        | tup xs => exact absurd rfl (h.1 xs)
        | _ => rfl
      · exact ih h.2 hv
  | sub k s r ihs ihr =>
    cases p with
    | nil => rw [valueAt_nil] at hv; cases hv
    | cons a p =>
      rw [valueAt_sub] at hv
      split_ifs at hv with h1
      · exact ihs h.1 hv
      · exact ihr h.2 hv

theorem configAt_thaw {times : List Rat} {docs : List Doc} (ht : ∀ d ∈ docs, NoTuples d) (t : Rat)
    (p : List String) :
    ((configAt (times.zip docs) t p).map Leaf.freeze).map Leaf.thaw =
      configAt (times.zip docs) t p := by
  cases h : configAt (times.zip docs) t p with
  | none => rfl
  | some v =>
    unfold configAt at h
    obtain ⟨x, hx, hv⟩ := List.exists_of_findSome?_eq_some h
    have hx' : x ∈ times.zip docs := (List.mem_filter.mp (List.mem_reverse.mp hx)).1
    have : x.2 ∈ docs := (List.of_mem_zip hx').2
    simp [thaw_freeze_of_noTuples (ht _ this) hv]

/-- C03: any history of non-negative `update` calls succeeds, keeps the current configuration in
step with the accumulated time, and the values returned, overlaid in order on the configuration
at time 0, give the configuration at the accumulated time. -/
theorem update_history (times : List Rat) (docs : List Doc) (c : Cfg)
    (hinit : Cfg.init times docs = .ok c) (hs : times.Pairwise (· ≤ ·))
    (hd : ∀ d ∈ docs, DistinctKeys d) (ht : ∀ d ∈ docs, NoTuples d) (hcons : Consistent docs)
    (hh : Hashable docs) (incs : List Rat) (hi : ∀ i ∈ incs, 0 ≤ i) :
    ∃ returned c', c.updates incs = .ok (returned, c') ∧ c'.time = incs.sum ∧
      CurrentIs c' times docs incs.sum ∧
      ∀ path, overlaid (configAt (times.zip docs) 0 path) returned path =
        configAt (times.zip docs) incs.sum path := by
  obtain ⟨hT, hD, h0, d0, ds, rfl, hcur⟩ := Cfg.init_ok hinit
  have hs' : c.times.Pairwise (· ≤ ·) := by rw [hT]; exact hs
  obtain ⟨ret, c', h1, h2, h3, h4, h5, h6⟩ :=
    Cfg.updates_spec hd hcons hh incs hi c hs' hD
  have hcall : ∀ t p, ((c.call t).get? p).map Leaf.thaw = configAt (times.zip (d0 :: ds)) t p := by
    intro t p
    rw [Cfg.call_eq_configAt hs' hD hd, hT, configAt_thaw ht]
  rw [h0, zero_add] at h4 h5 h6
  refine ⟨ret, c', h1, h4, ?_, fun p => by rw [← hcall 0, ← hcall incs.sum]; exact h6 p⟩
  unfold CurrentIs Cfg.asDict
  rw [hT] at h5
  by_cases hx : ∃ s ∈ times, 0 < s ∧ s ≤ incs.sum
  · rw [if_pos hx] at h5
    obtain ⟨k1, k2⟩ := Cfg.keys_ok hcons (Cfg.call_keys_ok hD hd incs.sum)
    obtain ⟨e, he1, _, he3⟩ := Doc.expand_spec (c.call incs.sum) (Cfg.nodup_call c _) k1 k2
    refine ⟨e, by rw [h5, he1], fun p => ⟨fun _ => by rw [he3, hcall], fun h => absurd hx h⟩⟩
  · rw [if_neg hx, hcur] at h5
    have hk : ∀ p ∈ (stored d0).keys, ∃ d ∈ d0 :: ds, valueAt d p ≠ none := by
      intro p hp
      refine ⟨d0, by simp, ?_⟩
      intro hv
      have := get?_stored (hd d0 (by simp)) p
      rw [hv, Option.map_none, PyDict.get?_eq_none_iff] at this
      exact this hp
    obtain ⟨k1, k2⟩ := Cfg.keys_ok hcons hk
    obtain ⟨e, he1, _, he3⟩ := Doc.expand_spec (stored d0) (nodup_stored d0) k1 k2
    refine ⟨e, by rw [h5, he1], fun p => ⟨fun h => absurd h hx, fun _ => ?_⟩⟩
    rw [he3, get?_stored (hd d0 (by simp))]
    simp only [List.head?_cons, Option.bind_some]
    cases hv : valueAt d0 p with
    | none => rfl
    | some v => simp [thaw_freeze_of_noTuples (ht d0 (by simp)) hv]

theorem docs_noTuples : ∀ d ∈ [doc0, doc1, doc2], NoTuples d := by
  simp [doc0, doc1, doc2, NoTuples]

example : ∃ returned c', cfg.updates [4, 7, 0, 5] = .ok (returned, c') ∧ c'.time = 16 ∧
    CurrentIs c' [0, 10, 25 / 2] [doc0, doc1, doc2] 16 := by
  obtain ⟨r, c', h1, h2, h3, _⟩ := update_history _ _ _ cfg_init
    (docs_times.imp fun h => le_of_lt h) docs_distinct docs_noTuples docs_consistent docs_hashable
    [4, 7, 0, 5] (by simp)
  have hsum : ([4, 7, 0, 5] : List Rat).sum = 16 := by norm_num
  rw [hsum] at h2 h3
  exact ⟨r, c', h1, h2, h3⟩

/-! ### C04 -/

/-- C04: a configuration with one section gives the loaded dictionary back, key order included;
only dictionaries that hold no value are dropped. -/
theorem as_dict_roundtrip (times : List Rat) (d : Doc) (hd : DistinctKeys d) (ht : NoTuples d) :
    ∃ c, Cfg.init times [d] = .ok c ∧ c.asDict = .ok (prune d) := by
  refine ⟨⟨times, [stored d], 0, stored d⟩, rfl, ?_⟩
  unfold Cfg.asDict Doc.expand stored
  have := Doc.addItems_walk d .nil hd ht (by simp [Doc.keys])
  rw [Doc.flatten_eq hd]
  exact this

/-- C04: without empty dictionaries inside, exactly the loaded dictionary. -/
theorem as_dict_roundtrip_exact (times : List Rat) (d : Doc) (hd : DistinctKeys d)
    (ht : NoTuples d) (he : NoEmptySub d) :
    ∃ c, Cfg.init times [d] = .ok c ∧ c.asDict = .ok d := by
  obtain ⟨c, h1, h2⟩ := as_dict_roundtrip times d hd ht
  exact ⟨c, h1, by rw [h2, Doc.prune_eq_self he]⟩

example : ∃ c, Cfg.init [0] [doc0] = .ok c ∧ c.asDict = .ok doc0 :=
  as_dict_roundtrip_exact [0] doc0 (docs_distinct doc0 (by simp)) (docs_noTuples doc0 (by simp))
    (by simp [doc0, NoEmptySub])

/-- An empty dictionary is dropped. -/
example : ∃ c, Cfg.init [0] [.sub "g" .nil (.leaf "a" .none .nil)] = .ok c ∧
    c.asDict = .ok (.leaf "a" .none .nil) :=
  as_dict_roundtrip [0] _ (by simp [DistinctKeys, Doc.keys]) (by simp [NoTuples])

/-! ### C05 -/

/-- C05, false in general: with two sections at the same time the second one is lost. -/
theorem dump_load_not_faithful :
    ∃ (times : List Rat) (docs : List Doc) (c : Cfg) (out : List Doc) (c' : Cfg),
      times.Pairwise (· ≤ ·) ∧ times.length = docs.length ∧ (∀ d ∈ docs, DistinctKeys d) ∧
      Consistent docs ∧ Hashable docs ∧ (∀ d ∈ docs, "_time" ∉ d.keys) ∧
      Cfg.init times docs = .ok c ∧ c.dumpDocs = .ok out ∧ Cfg.fromFile out = .ok c' ∧
      ∃ t path, (c'.call t).get? path ≠ (c.call t).get? path := by
  have hd : ∀ d ∈ [doc0, doc2], DistinctKeys d := fun d h => docs_distinct d (by
    simp only [List.mem_cons, List.not_mem_nil, or_false] at h ⊢; tauto)
  have hm : ∀ d ∈ [doc0, doc2], d ∈ [doc0, doc1, doc2] := fun d h => by
    simp only [List.mem_cons, List.not_mem_nil, or_false] at h ⊢; tauto
  refine ⟨[0, 0], [doc0, doc2], ⟨[0, 0], [stored doc0, stored doc2], 0, stored doc0⟩,
    [doc0.setLeaf "_time" (.num 0), .leaf "_time" (.num 0) .nil],
    ⟨[0, 0], [stored doc0, []], 0, stored doc0⟩, by simp, rfl, hd,
    fun d h d' h' => docs_consistent d (hm d h) d' (hm d' h'),
    fun d h => docs_hashable d (hm d h), by simp [doc0, doc2, Doc.keys], rfl, by decide +kernel,
    by decide +kernel, 0, ["a"], by decide +kernel⟩

/-- C05, partial: with strictly increasing times, dumping and loading preserves the configuration
at every time. Missing: sections with equal times, for which the statement is false. -/
theorem dump_load_partial (times : List Rat) (docs : List Doc) (c : Cfg)
    (hinit : Cfg.init times docs = .ok c) (hs : times.Pairwise (· < ·)) (hne : times ≠ [])
    (hd : ∀ d ∈ docs, DistinctKeys d) (hcons : Consistent docs) (hh : Hashable docs)
    (ht : ∀ d ∈ docs, "_time" ∉ d.keys) :
    ∃ out c', c.dumpDocs = .ok out ∧ Cfg.fromFile out = .ok c' ∧
      ∀ t path, (c'.call t).get? path = (c.call t).get? path := by
  obtain ⟨out, c', h1, h2, _, h4⟩ := Cfg.dump_load hinit hs hne hd hcons hh ht
  exact ⟨out, c', h1, h2, h4⟩

example : ∃ out c', cfg.dumpDocs = .ok out ∧ Cfg.fromFile out = .ok c' ∧
    ∀ t path, (c'.call t).get? path = (cfg.call t).get? path :=
  dump_load_partial _ _ _ cfg_init docs_times (by simp) docs_distinct docs_consistent
    docs_hashable (by simp [doc0, doc1, doc2, Doc.keys])

/-! ### C07 -/

/-- C07, false: `sequence run` ignores the later sections of a file. One file found at time 0
with a second section at `_time = 10`: at time 20 that section should be in force. -/
theorem files_sections_ignored :
    ∃ (files : List (Rat × List Doc)) (c : Cfg) (t : Rat) (path : List String),
      (files.map (·.1)).Pairwise (· ≤ ·) ∧ ((sectionsOf files).map (·.1)).Pairwise (· ≤ ·) ∧
      (∀ f ∈ files, ∀ d ∈ f.2, DistinctKeys d) ∧
      Cfg.fromFiles (files.map (·.2)) (some (files.map (·.1))) = .ok c ∧
      (c.call t).get? path ≠ (configAt (sectionsOf files) t path).map Leaf.freeze := by
  refine ⟨[(0, [doc0, doc2.setLeaf "_time" (.num 10)])],
    ⟨[0], [stored doc0, stored doc2], 0, stored doc0⟩, 20, ["a"], by simp, by decide +kernel, ?_,
    by decide +kernel, by decide +kernel⟩
  simp [doc0, doc2, DistinctKeys, Doc.keys, Doc.setLeaf]

theorem loadFiles_single (docs : List Doc) :
    ∀ ds, Cfg.loadFiles (docs.map fun d => [d]) = .ok ds →
      ds.length = docs.length ∧
      ∀ i (h : i < ds.length) (h' : i < docs.length),
        ds[i] = docs[i] ∨ ds[i] = docs[i].erase "_time" := by
  induction docs with
  | nil => intro ds h; simp only [List.map_nil, Cfg.loadFiles, Except.ok.injEq] at h; subst h; simp
  | cons d docs ih =>
    intro ds h
    simp only [List.map_cons, Cfg.loadFiles, Cfg.load] at h
    split at h
    · cases h
    · rename_i tds htd
      split at h
      · cases h
      · rename_i rest hrest
        cases h
        obtain ⟨hl, hi⟩ := ih rest hrest
        have : ∃ t, tds = [(t, d)] ∨ tds = [(t, d.erase "_time")] := by
          split at htd
          · cases htd; exact ⟨_, .inl rfl⟩
          · cases htd; exact ⟨_, .inr rfl⟩
          · cases htd
        obtain ⟨t, rfl | rfl⟩ := this
        · refine ⟨by simp [hl], ?_⟩
          intro i h h'
          cases i with
          | zero => exact .inl rfl
          | succ i => exact hi i (by simpa using h) (by simpa using h')
        · refine ⟨by simp [hl], ?_⟩
          intro i h h'
          cases i with
          | zero => exact .inr rfl
          | succ i => exact hi i (by simpa using h) (by simpa using h')

/-- C07, partial: when each file has a single section, that section is in force from the time of
its file (any `_time` inside the file is ignored). Missing: files with several sections, for
which the statement is false. -/
theorem files_sections_partial (files : List (Rat × Doc)) (c : Cfg)
    (hok : Cfg.fromFiles (files.map fun f => [f.2]) (some (files.map (·.1))) = .ok c)
    (hs : (files.map (·.1)).Pairwise (· ≤ ·)) (hd : ∀ f ∈ files, DistinctKeys f.2) (t : Rat)
    (k : String) (hk : k ≠ "_time") (path : List String) :
    (c.call t).get? (k :: path) = (configAt files t (k :: path)).map Leaf.freeze := by
  unfold Cfg.fromFiles at hok
  split at hok
  · cases hok
  · rename_i ds hds
    have hds' : Cfg.loadFiles ((files.map (·.2)).map fun d => [d]) = .ok ds := by
      rw [List.map_map]; exact hds
    obtain ⟨hl, hi⟩ := loadFiles_single _ ds hds'
    simp only [List.length_map] at hl
    have hval : ∀ i (h : i < ds.length) (h' : i < files.length),
        DistinctKeys ds[i] ∧ valueAt ds[i] (k :: path) = valueAt files[i].2 (k :: path) := by
      intro i h h'
      have hdf := hd files[i] (List.getElem_mem h')
      rcases hi i h (by simpa using h') with e | e
      · rw [e]; simp only [List.getElem_map]; exact ⟨hdf, trivial⟩
      · rw [e]; simp only [List.getElem_map]
        refine ⟨Doc.distinct_erase hdf _, ?_⟩
        apply valueAt_congr
        rw [Doc.find?_erase hdf, if_neg (Ne.symm hk)]
    have hdd : ∀ d ∈ ds, DistinctKeys d := by
      intro d hd'
      obtain ⟨i, h, rfl⟩ := List.getElem_of_mem hd'
      exact (hval i h (by omega)).1
    have h1 := config_latest_wins _ _ c hok hs hdd t (k :: path)
    rw [h1]
    congr 1
    rw [Cfg.configAt_eq _ _ hs]
    have h2 : files = (files.map (·.1)).zip (files.map (·.2)) := by
      clear hok hs hd hds hds' hl hi hval h1
      induction files with
      | nil => rfl
      | cons f fs ih => simp only [List.map_cons, List.zip_cons_cons]; rw [← ih]
    conv_rhs => rw [h2]
    rw [Cfg.configAt_eq _ _ hs]
    have h3 : ds.map (fun d => valueAt d (k :: path)) =
        (files.map (·.2)).map (fun d => valueAt d (k :: path)) := by
      apply List.ext_getElem
      · simp [hl]
      · intro i h h'
        simp only [List.length_map] at h h'
        simp only [List.getElem_map]
        exact (hval i h h').2
    have h4 : ∀ (l : List Doc) (n : Nat),
        (l.take n).reverse.findSome? (fun d => valueAt d (k :: path)) =
          ((l.map fun d => valueAt d (k :: path)).take n).reverse.findSome? id := by
      intro l n
      rw [← List.map_take, ← List.map_reverse, List.findSome?_map]
      rfl
    rw [h4, h4, h3]

example : (⟨[0, 10], [stored doc0, stored doc2], 0, stored doc0⟩ : Cfg).call 11 |>.get? ["a"]
    |> (· = some (.num 5)) := by
  rw [files_sections_partial [(0, doc0), (10, doc2)] _ (by decide +kernel) (by simp)
    (by simp [doc0, doc2, DistinctKeys, Doc.keys]) 11 "a" (by decide) []]
  decide +kernel

/-! ### C84 -/

theorem erase_absent {d : Doc} {k : String} (h : d.find? k = none) : d.erase k = d := by
  induction d with
  | nil => rfl
  | leaf a v r ih =>
    simp only [Doc.find?] at h
    simp only [Doc.erase]
    split_ifs at h ⊢ with ha
    rw [ih h]
  | sub a s r _ ih =>
    simp only [Doc.find?] at h
    simp only [Doc.erase]
    split_ifs at h ⊢ with ha
    rw [ih h]

/-- The sections of a file as they are loaded. -/
theorem load_ok {docs : List Doc} {idx : Nat} {tds : List (Rat × Doc)}
    (h : Cfg.load idx docs = .ok tds) :
    tds = (docs.zipIdx idx).map fun p => (sectionTime p.2 p.1, p.1.erase "_time") := by
  induction docs generalizing idx tds with
  | nil => cases h; rfl
  | cons d ds ih =>
    rw [Cfg.load] at h
    cases hl : Cfg.load (idx + 1) ds with
    | error e => rw [hl] at h; cases h
    | ok rest =>
      rw [hl] at h
      dsimp only at h
      rw [List.zipIdx_cons, List.map_cons, ← ih hl]
      dsimp only
      unfold sectionTime
      rw [valueAt_single]
      split at h
      · rename_i hn
        cases h
        rw [erase_absent hn, hn]
      · rename_i t hn
        cases h
        rw [hn]
      · cases h

/-- C84: a configuration file puts every section in force at its `_time`, or else at the time that
is its number in the file; `_time` itself is no parameter. -/
theorem file_sections (docs : List Doc) (c : Cfg) (hok : Cfg.fromFile docs = .ok c)
    (hs : ((fileSections docs).map (·.1)).Pairwise (· ≤ ·)) (hd : ∀ d ∈ docs, DistinctKeys d)
    (t : Rat) (k : String) (path : List String) :
    (c.call t).get? (k :: path) =
      if k = "_time" then none else (configAt (fileSections docs) t (k :: path)).map Leaf.freeze := by
  unfold Cfg.fromFile at hok
  cases hl : Cfg.load 0 docs with
  | error e => rw [hl] at hok; cases hok
  | ok tds =>
    have htds := load_ok hl
    have hinit : Cfg.init (tds.map (·.1)) (tds.map (·.2)) = .ok c := by
      rw [hl] at hok
      cases tds with
      | nil => cases hok
      | cons a l => exact hok
    have htimes : tds.map (·.1) = (fileSections docs).map (·.1) := by
      rw [htds]
      unfold fileSections
      rw [List.map_map, List.map_map]
      rfl
    have hdocs : tds.map (·.2) = docs.map (Doc.erase "_time") := by
      rw [htds, List.map_map]
      have : (fun p : Doc × Nat => p.1.erase "_time") = Doc.erase "_time" ∘ Prod.fst := rfl
      show docs.zipIdx.map (fun p : Doc × Nat => p.1.erase "_time") = _
      rw [this, ← List.map_map, List.zipIdx_map_fst]
    have hsecs : (fileSections docs).map (·.2) = docs := by
      unfold fileSections
      rw [List.map_map]
      show docs.zipIdx.map Prod.fst = docs
      rw [List.zipIdx_map_fst]
    rw [htimes, hdocs] at hinit
    have hdd : ∀ d ∈ docs.map (Doc.erase "_time"), DistinctKeys d := by
      intro d hd'
      obtain ⟨e, he, rfl⟩ := List.mem_map.mp hd'
      exact Doc.distinct_erase (hd e he) _
    rw [config_latest_wins _ _ c hinit hs hdd, Cfg.configAt_eq _ _ hs]
    have hz : fileSections docs = ((fileSections docs).map (·.1)).zip docs := by
      conv_rhs => rw [← hsecs]
      rw [hsecs, ← List.zip_of_prod rfl hsecs]
    have hfind : ∀ n, ((docs.map (Doc.erase "_time")).take n).reverse.findSome?
        (fun d => valueAt d (k :: path)) =
        if k = "_time" then none else
          (docs.take n).reverse.findSome? fun d => valueAt d (k :: path) := by
      intro n
      rw [← List.map_take, ← List.map_reverse, List.findSome?_map]
      by_cases hk : k = "_time"
      · rw [if_pos hk, List.findSome?_eq_none_iff]
        intro d hd'
        have hm : d ∈ docs := List.mem_of_mem_take (List.mem_reverse.mp hd')
        rw [hk]
        exact Doc.valueAt_of_find?_none (by rw [Doc.find?_erase (hd d hm), if_pos rfl]) path
      · rw [if_neg hk]
        have hm : ∀ d ∈ (docs.take n).reverse, d ∈ docs := fun d hd' =>
          List.mem_of_mem_take (List.mem_reverse.mp hd')
        generalize (docs.take n).reverse = l at hm
        induction l with
        | nil => rfl
        | cons d l ih =>
          rw [List.findSome?_cons, List.findSome?_cons, ih fun d' h' => hm d' (List.mem_cons_of_mem _ h')]
          have : valueAt (d.erase "_time") (k :: path) = valueAt d (k :: path) := by
            apply valueAt_congr
            rw [Doc.find?_erase (hd d (hm d (by simp))), if_neg (Ne.symm hk)]
          simp only [Function.comp]
          rw [this]
    rw [hfind]
    split_ifs with hk
    · rfl
    · rw [hz, List.map_fst_zip (by simp [fileSections]), Cfg.configAt_eq _ _ hs]

/-- C84: without times, the sections of several files are numbered from 0. -/
theorem files_numbered (docs : List Doc) (c : Cfg)
    (hok : Cfg.fromFiles (docs.map fun d => [d]) none = .ok c) :
    c.times = (List.range docs.length).map fun i : Nat => (i : Rat) := by
  unfold Cfg.fromFiles at hok
  cases hl : Cfg.loadFiles (docs.map fun d => [d]) with
  | error e => rw [hl] at hok; cases hok
  | ok ds =>
    rw [hl] at hok
    dsimp only at hok
    rw [(Cfg.init_ok hok).1, (loadFiles_single docs ds hl).1]

/-- C84: sections at 0 (its number), 10 (its `_time`) and 2 would be out of order; at 0, 1 and 10
they are not. -/
example : fileSections [doc0, doc1, doc2.setLeaf "_time" (.num 10)] =
    [(0, doc0), (1, doc1), (10, doc2.setLeaf "_time" (.num 10))] := by decide +kernel

example : ∃ c, Cfg.fromFile [doc0, doc1, doc2.setLeaf "_time" (.num 10)] = .ok c ∧
    (c.call 1).get? ["g", "x"] = some (.tup [.num 3]) ∧ (c.call (1/2)).get? ["g", "x"] =
      some (.tup [.num 1, .num 2]) ∧ (c.call 10).get? ["a"] = some (.num 5) ∧
    (c.call 10).get? ["_time"] = none := by
  refine ⟨⟨[0, 1, 10], [stored doc0, stored doc1, stored doc2], 0, stored doc0⟩, ?_⟩
  decide +kernel

example : ∃ c, Cfg.fromFiles [[doc0], [doc2]] none = .ok c ∧ c.times = [0, 1] :=
  ⟨⟨[0, 1], [stored doc0, stored doc2], 0, stored doc0⟩, by decide +kernel⟩

end Verif.Props
