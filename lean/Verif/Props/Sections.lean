import Verif.Lemmas.Prelude
import Verif.Props.Cli

/-! # C129: options for a whole section -/

set_option autoImplicit false

namespace Verif.Props

open Verif.Spec

/-- The option `section=text` as typed. -/
def sectionTyped (o : String × List Char) : List Char := o.1.toList ++ '=' :: o.2

/-- The name of a section without dots and equal signs, and a text without equal signs. -/
def SectionOption (o : String × List Char) : Prop :=
  '.' ∉ o.1.toList ∧ '=' ∉ o.1.toList ∧ '=' ∉ o.2

theorem load_sections {parse : List Char → Except Err (Leaf ⊕ Doc)}
    {value : String × List Char → Leaf ⊕ Doc} {os : List (String × List Char)}
    (hw : ∀ o ∈ os, SectionOption o) (hp : ∀ o ∈ os, parse o.2 = .ok (value o))
    (hd : ∀ o ∈ os, ∀ d, value o = .inr d → DistinctKeys d) (params : Doc) :
    ∃ r, loadParamsFromStrings parse params (os.map sectionTyped) = .ok r ∧
      ∀ g, r.find? g = ((os.reverse.find? fun o => o.1 = g).map value).or (params.find? g) := by
  induction os generalizing params with
  | nil => exact ⟨params, rfl, fun g => by simp⟩
  | cons o os ih =>
    obtain ⟨w1, w2, w3⟩ := hw o (by simp)
    obtain ⟨r, h1, h2⟩ := ih (fun x hx => hw x (by simp [hx])) (fun x hx => hp x (by simp [hx]))
      (fun x hx => hd x (by simp [hx])) (params.updateWith (dotsToDict [o.1] (value o)))
    refine ⟨r, ?_, fun g => ?_⟩
    · simp only [List.map_cons, sectionTyped, loadParamsFromStrings, splitOn_append w2,
        splitOn_of_notMem w3, hp o (by simp), splitOn_of_notMem w1, List.map_nil,
        String.ofList_toList]
      exact h1
    · rw [h2, Doc.find?_updateWith _ _ (distinct_dotsToDict' _ (hd o (by simp))),
        List.reverse_cons, List.find?_append]
      cases hf : os.reverse.find? fun o => decide (o.1 = g) with
      | some x => simp
      | none =>
        by_cases hg : o.1 = g <;> cases hv : value o <;>
          simp [dotsToDict, Doc.find?, hg, hv]

theorem last_section {os pre post : List (String × List Char)} {o : String × List Char}
    (ho : os = pre ++ o :: post) (hpost : ∀ o' ∈ post, o'.1 ≠ o.1) :
    os.reverse.find? (fun x => decide (x.1 = o.1)) = some o := by
  rw [ho, List.reverse_append, List.reverse_cons, List.append_assoc, List.find?_append]
  have : post.reverse.find? (fun x => decide (x.1 = o.1)) = none := by
    rw [List.find?_eq_none]
    intro x hx
    simpa using hpost x (List.mem_reverse.mp hx)
  rw [this]
  simp

theorem updateGroups_found {cl d : Doc} (hd : OnlyGroups d)
    (h : ∀ g s, d.find? g = some (.inr s) → ∃ s', updateGroup s (cl.find? g) = .ok s')
    (hk : DistinctKeys d) : ∃ r, updateGroups cl d = .ok r := by
  induction d with
  | nil => exact ⟨_, rfl⟩
  | leaf => exact hd.elim
  | sub g s t _ ih =>
    obtain ⟨s', hs⟩ := h g s (by simp [Doc.find?])
    obtain ⟨r, hr⟩ := ih hd (fun g' s' hg' => h g' s' (by
      rw [Doc.find?, if_neg]
      · exact hg'
      · rintro rfl
        have := (Doc.find?_eq_none_iff _ _).mpr hk.1
        rw [this] at hg'
        cases hg')) hk.2.2
    exact ⟨.sub g s' r, by rw [updateGroups, hs, hr]⟩

/-- C129: an option whose value is a dictionary sets every parameter in it, and leaves the others of
the section and the other sections alone. -/
theorem section_options (parse : List Char → Except Err (Leaf ⊕ Doc)) (defaults : Doc)
    (hdef : OnlyGroups defaults) (os : List (String × List Char))
    (dict : String × List Char → Doc) (hw : ∀ o ∈ os, SectionOption o)
    (hp : ∀ o ∈ os, parse o.2 = .ok (.inr (dict o))) (hd : ∀ o ∈ os, DistinctKeys (dict o)) :
    ∃ r, loadModelParams parse defaults (os.map sectionTyped) = .ok r ∧
      (∀ pre o post, os = pre ++ o :: post → (∀ o' ∈ post, o'.1 ≠ o.1) → o.1 ∈ defaults.keys →
        ∀ k p, (k ∈ (dict o).keys → valueAt r (o.1 :: k :: p) = valueAt (dict o) (k :: p)) ∧
          (k ∉ (dict o).keys → valueAt r (o.1 :: k :: p) = valueAt defaults (o.1 :: k :: p))) ∧
      (∀ g p, (∀ o ∈ os, o.1 ≠ g) → valueAt r (g :: p) = valueAt defaults (g :: p)) ∧
      ∀ g, g ∈ r.keys ↔ g ∈ defaults.keys := by
  obtain ⟨cl, hcl, hfind⟩ := load_sections (value := fun o => .inr (dict o)) hw hp (by
    rintro o ho d ⟨⟩; exact hd o ho) .nil
  simp only [Doc.find?, Option.or_none] at hfind
  obtain ⟨r, hr⟩ := updateGroups_total (cl := cl) (by
    intro g
    rw [hfind]
    cases os.reverse.find? fun o => decide (o.1 = g) with
    | none => exact .inl rfl
    | some o => exact .inr ⟨_, rfl⟩) hdef
  refine ⟨r, by simp only [loadModelParams, hcl, hr], ?_, ?_, ?_⟩
  · intro pre o post ho hpost hg k p
    rcases find?_updateGroups hr o.1 with ⟨h1, _⟩ | ⟨s, s', h1, h2, h3⟩
    · rw [Doc.find?_eq_none_iff] at h1; exact absurd hg h1
    rw [hfind, last_section ho hpost] at h3
    simp only [Option.map_some, updateGroup, Except.ok.injEq] at h3
    subst h3
    have hdo := hd o (by rw [ho]; simp)
    constructor
    · intro hk
      rw [valueAt_cons, h2]
      apply valueAt_congr
      rw [Doc.find?_updateWith _ _ hdo]
      cases hf : (dict o).find? k with
      | none => exact absurd hk ((Doc.find?_eq_none_iff _ _).mp hf)
      | some v => rfl
    · intro hk
      rw [valueAt_cons, valueAt_cons, h2, h1]
      apply valueAt_congr
      rw [Doc.find?_updateWith _ _ hdo, (Doc.find?_eq_none_iff _ _).mpr hk]
      rfl
  · intro g p hno
    rcases find?_updateGroups hr g with ⟨h1, h2⟩ | ⟨s, s', h1, h2, h3⟩
    · exact valueAt_congr (h2.trans h1.symm) _
    · apply valueAt_congr
      have : os.reverse.find? (fun x => decide (x.1 = g)) = none := by
        rw [List.find?_eq_none]
        intro x hx
        simpa using hno x (List.mem_reverse.mp hx)
      rw [hfind, this] at h3
      cases h3
      rw [h1, h2]
  · intro g
    rw [Doc.mem_keys_iff, Doc.mem_keys_iff]
    rcases find?_updateGroups hr g with ⟨h1, h2⟩ | ⟨s, s', h1, h2, _⟩
    · rw [h1, h2]
    · rw [h1, h2]; simp

theorem updateItem_iff {v : Leaf} {p : String × Leaf} : updateItem v = .ok p ↔ ItemOf v p := by
  constructor
  · intro h
    unfold updateItem at h
    split at h
    · split at h
      · rename_i t _ a b ht
        cases h
        have : t = String.ofList [a, b] := by rw [← ht, String.ofList_toList]
        rw [this]
        exact .chars a b
      · cases h
    all_goals first | (cases h; constructor) | cases h
  · rintro (_ | _ | ⟨a, b⟩)
    · rfl
    · rfl
    · simp [updateItem]

theorem updateItems_iff {xs : List Leaf} {ps : List (String × Leaf)} :
    updateItems xs = .ok ps ↔ List.Forall₂ ItemOf xs ps := by
  induction xs generalizing ps with
  | nil => simp [updateItems, eq_comm]
  | cons x xs ih =>
    rw [updateItems, List.forall₂_cons_left_iff]
    cases hx : updateItem x with
    | error e =>
      refine ⟨fun h => (by cases h), ?_⟩
      rintro ⟨p, ps', hp, -⟩
      rw [← updateItem_iff, hx] at hp
      cases hp
    | ok p =>
      dsimp only
      cases hxs : updateItems xs with
      | error e =>
        refine ⟨fun h => (by cases h), ?_⟩
        rintro ⟨p', ps', -, hp, -⟩
        rw [← ih, hxs] at hp
        cases hp
      | ok ps' =>
        constructor
        · rintro ⟨⟩
          exact ⟨p, ps', updateItem_iff.mp hx, ih.mp hxs, rfl⟩
        · rintro ⟨q, qs, hq, hqs, rfl⟩
          rw [← updateItem_iff, hx] at hq
          rw [← ih, hxs] at hqs
          cases hq
          cases hqs
          rfl

theorem find?_ofItems (ps : PyDict String Leaf) (k : String) :
    (Doc.ofItems ps).find? k = (ps.get? k).map .inl := by
  induction ps with
  | nil => rfl
  | cons p ps ih =>
    obtain ⟨a, v⟩ := p
    rw [Doc.ofItems, Doc.find?, ih]
    simp only [PyDict.get?, List.find?_cons]
    by_cases h : a = k <;> simp [h]

theorem get?_pairs (ps : List (String × Leaf)) (k : String) :
    (PyDict.ofPairs ps).get? k = (ps.reverse.find? fun p => p.1 = k).map (·.2) := by
  have h : ∀ (ps : List (String × Leaf)) (d : PyDict String Leaf),
      (PyDict.update d ps).get? k =
        ((ps.reverse.find? fun p => p.1 = k).map (·.2)).or (d.get? k) := by
    intro ps
    induction ps with
    | nil => intro d; rfl
    | cons p ps ih =>
      intro d
      have hu : PyDict.update d (p :: ps) = PyDict.update (d.set p.1 p.2) ps := rfl
      rw [hu, ih, List.reverse_cons, List.find?_append, PyDict.get?_set]
      cases ps.reverse.find? fun p => decide (p.1 = k) with
      | some x => rfl
      | none => by_cases hk : p.1 = k <;> simp [hk]
  exact (h ps []).trans (by simp [PyDict.get?])

/-- C129: a list or tuple of items does what the dictionary does; of two items with the same key the
later one counts. -/
theorem section_items (parse : List Char → Except Err (Leaf ⊕ Doc)) (defaults : Doc)
    (hdef : OnlyGroups defaults) (hk : DistinctKeys defaults) (g : String) (text : List Char)
    (hw : SectionOption (g, text)) (hg : g ∈ defaults.keys) {v : Leaf} {ps : List (String × Leaf)}
    (hv : ItemsOf v ps) (hp : parse text = .ok (.inl v)) :
    ∃ r, loadModelParams parse defaults [sectionTyped (g, text)] = .ok r ∧
      ∀ k, valueAt r [g, k] =
        ((ps.reverse.find? fun p => p.1 = k).map (·.2)).or (valueAt defaults [g, k]) := by
  obtain ⟨cl, hcl, hfind⟩ := load_sections (os := [(g, text)])
    (value := fun _ => .inl v) (by simpa using hw)
    (by simpa using hp) (by simp) .nil
  simp only [Doc.find?, Option.or_none, List.reverse_singleton, List.find?_singleton,
    decide_eq_true_eq] at hfind
  have hup : ∀ s, updateGroup s (cl.find? g) =
      .ok (s.updateWith (.ofItems (.ofPairs ps))) := by
    intro s
    rw [hfind, if_pos rfl]
    obtain ⟨xs, rfl | rfl, hxs⟩ := hv <;>
      simp only [Option.map_some, updateGroup, updateLeaf, updateItems_iff.mpr hxs]
  obtain ⟨r, hr⟩ := updateGroups_found (cl := cl) hdef (by
    intro g' s _
    by_cases h : g = g'
    · subst h; exact ⟨_, hup s⟩
    · rw [hfind, if_neg h]; exact ⟨_, rfl⟩) hk
  rw [List.map_cons, List.map_nil] at hcl
  refine ⟨r, by simp only [loadModelParams, hcl, hr], fun k => ?_⟩
  rcases find?_updateGroups hr g with ⟨h1, _⟩ | ⟨s, s', h1, h2, h3⟩
  · rw [Doc.find?_eq_none_iff] at h1; exact absurd hg h1
  rw [hup] at h3
  cases h3
  rw [valueAt_cons, valueAt_cons, h1, h2]
  dsimp only
  rw [valueAt_single, valueAt_single, Doc.find?_updateWith _ _ (distinct_ofPairs _), find?_ofItems]
  rw [get?_pairs]
  cases ps.reverse.find? fun p => decide (p.1 = k) with
  | none => rfl
  | some p => rfl

/-- C129: an option that gives a section anything else than items — a number, null, a text that is
not empty, a list with an element that is not an item — stops the command. -/
theorem section_refused (parse : List Char → Except Err (Leaf ⊕ Doc)) (defaults : Doc)
    (g : String) (text : List Char) (hw : SectionOption (g, text)) (hg : g ∈ defaults.keys)
    (v : Leaf) (hp : parse text = .ok (.inl v))
    (hv : ∀ ps, ¬ ItemsOf v ps) (hne : v ≠ .str "") :
    ∃ e, loadModelParams parse defaults [sectionTyped (g, text)] = .error e := by
  obtain ⟨cl, hcl, hfind⟩ := load_sections (os := [(g, text)]) (value := fun _ => .inl v)
    (by simpa using hw) (by simpa using hp) (by simp) .nil
  rw [List.map_cons, List.map_nil] at hcl
  have hup : ∀ s, ∃ e, updateGroup s (cl.find? g) = .error e := by
    intro s
    rw [hfind]
    simp only [Doc.find?, Option.or_none, List.reverse_singleton, List.find?_singleton,
      decide_true, if_true, Option.map_some, updateGroup]
    have hitems : ∀ xs, v = .list xs ∨ v = .tup xs → ∃ e, updateItems xs = .error e := by
      intro xs hxs
      cases hu : updateItems xs with
      | error e => exact ⟨e, rfl⟩
      | ok ps => exact absurd ⟨xs, hxs, updateItems_iff.mp hu⟩ (hv ps)
    cases v with
    | num x => exact ⟨_, rfl⟩
    | none => exact ⟨_, rfl⟩
    | str t =>
      have ht : t ≠ "" := fun h => hne (by rw [h])
      exact ⟨.valueError, by simp only [updateLeaf, if_neg ht]⟩
    | list xs =>
      obtain ⟨e, he⟩ := hitems xs (.inl rfl)
      exact ⟨e, by simp only [updateLeaf, he]⟩
    | tup xs =>
      obtain ⟨e, he⟩ := hitems xs (.inr rfl)
      exact ⟨e, by simp only [updateLeaf, he]⟩
  simp only [loadModelParams, hcl]
  cases hr : updateGroups cl defaults with
  | error e => exact ⟨e, rfl⟩
  | ok r =>
    rcases find?_updateGroups hr g with ⟨h1, _⟩ | ⟨s, s', h1, h2, h3⟩
    · rw [Doc.find?_eq_none_iff] at h1; exact absurd hg h1
    · obtain ⟨e, he⟩ := hup s
      rw [he] at h3
      cases h3

/-- C129: `--set "clock={start: 1, stop: 5}"` sets both, where two options for the section would set
one (C53). -/
example : ∃ r, loadModelParams (fun _ => .ok (.inr (.leaf "start" (.num 1) (.leaf "stop" (.num 5)
      .nil)))) someDefaults ["clock={start: 1, stop: 5}".toList] = .ok r ∧
    valueAt r ["clock", "start"] = some (.num 1) ∧ valueAt r ["clock", "stop"] = some (.num 5) ∧
    valueAt r ["grid", "n_cols"] = some (.num 100) := by
  obtain ⟨r, h1, h2, h3, -⟩ := section_options (fun _ => .ok (.inr (.leaf "start" (.num 1)
    (.leaf "stop" (.num 5) .nil)))) someDefaults trivial [("clock", "{start: 1, stop: 5}".toList)]
    (fun _ => .leaf "start" (.num 1) (.leaf "stop" (.num 5) .nil))
    (by unfold SectionOption; decide) (by simp) (by simp [DistinctKeys, Doc.keys])
  refine ⟨r, h1, ?_, ?_, ?_⟩
  · exact ((h2 [] _ _ rfl (by simp) (by decide) "start" []).1 (by decide)).trans (by decide +kernel)
  · exact ((h2 [] _ _ rfl (by simp) (by decide) "stop" []).1 (by decide)).trans (by decide +kernel)
  · exact (h3 "grid" ["n_cols"] (by decide)).trans (by decide +kernel)

/-- C129: `--set "clock=[[stop, 5], [stop, 6], ab]"` and `--set clock=5`. -/
example : (∃ r, loadModelParams (fun _ => .ok (.inl (.list [.list [.str "stop", .num 5],
      .list [.str "stop", .num 6], .str "ab"]))) someDefaults
        ["clock=[[stop, 5], [stop, 6], ab]".toList] = .ok r ∧
    valueAt r ["clock", "start"] = some (.num 0) ∧ valueAt r ["clock", "stop"] = some (.num 6) ∧
    valueAt r ["clock", "a"] = some (.str "b")) ∧
    ∃ e, loadModelParams (fun _ => .ok (.inl (.num 5))) someDefaults ["clock=5".toList] =
      .error e := by
  constructor
  · obtain ⟨r, h1, h2⟩ := section_items (fun _ => .ok (.inl (.list [.list [.str "stop", .num 5],
      .list [.str "stop", .num 6], .str "ab"]))) someDefaults trivial
      (by simp [someDefaults, DistinctKeys, Doc.keys]) "clock" "[[stop, 5], [stop, 6], ab]".toList
      (by unfold SectionOption; decide) (by decide)
      (v := .list [.list [.str "stop", .num 5], .list [.str "stop", .num 6], .str "ab"])
      (ps := [("stop", .num 5), ("stop", .num 6), ("a", .str "b")])
      ⟨_, .inl rfl, .cons (.list _ _) (.cons (.list _ _) (.cons (.chars 'a' 'b') .nil))⟩ rfl
    exact ⟨r, h1, (h2 "start").trans (by decide +kernel), (h2 "stop").trans (by decide +kernel),
      (h2 "a").trans (by decide +kernel)⟩
  · refine section_refused _ _ "clock" "5".toList (by unfold SectionOption; decide) (by decide)
      (.num 5) rfl ?_ (by simp)
    rintro ps ⟨xs, h | h, -⟩ <;> cases h

end Verif.Props
