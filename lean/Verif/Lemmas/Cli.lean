import Verif.Lemmas.Prelude
import Verif.Lemmas.Doc
import Verif.Spec.Cli
import Mathlib.Data.List.Lex
import Mathlib.Data.List.TakeWhile
import Mathlib.Data.Char

/-! # Lemmas about the command line -/

set_option autoImplicit false

namespace Verif

open Spec

/-! ### Dictionaries -/

namespace Doc

theorem find?_setItem (d : Doc) (k : String) (x : Leaf ⊕ Doc) (k' : String) :
    (d.setItem k x).find? k' = if k' = k then some x else d.find? k' := by
  induction d with
  | nil => cases x <;> simp [setItem, find?, eq_comm]
  | leaf a v r ih =>
    by_cases h : a = k
    · subst h
      cases x <;> by_cases h' : k' = a <;> simp [setItem, find?, h', eq_comm]
    · by_cases h' : k' = a
      · subst h'; simp [setItem, find?, h]
      · simp only [setItem, if_neg h, find?, ih]
        have h2 : ¬ a = k' := fun e => h' e.symm
        simp only [if_neg h2]
  | sub a s r _ ih =>
    by_cases h : a = k
    · subst h
      cases x <;> by_cases h' : k' = a <;> simp [setItem, find?, h', eq_comm]
    · by_cases h' : k' = a
      · subst h'; simp [setItem, find?, h]
      · simp only [setItem, if_neg h, find?, ih]
        have h2 : ¬ a = k' := fun e => h' e.symm
        simp only [if_neg h2]

theorem mem_keys_iff (d : Doc) (k : String) : k ∈ d.keys ↔ d.find? k ≠ none := by
  rw [Ne, find?_eq_none_iff, not_not]

theorem mem_keys_setItem (d : Doc) (k : String) (x : Leaf ⊕ Doc) (k' : String) :
    k' ∈ (d.setItem k x).keys ↔ k' = k ∨ k' ∈ d.keys := by
  rw [mem_keys_iff, find?_setItem, mem_keys_iff]
  by_cases h : k' = k <;> simp [h]

theorem distinct_setItem {d : Doc} (h : DistinctKeys d) (k : String) (x : Leaf ⊕ Doc)
    (hx : ∀ s, x = .inr s → DistinctKeys s) : DistinctKeys (d.setItem k x) := by
  induction d with
  | nil =>
    cases x with
    | inl v => simp [setItem, DistinctKeys, keys]
    | inr s => simp [setItem, DistinctKeys, keys, hx s rfl]
  | leaf a v r ih =>
    by_cases ha : a = k
    · subst ha
      cases x with
      | inl v => simpa [setItem, DistinctKeys] using h
      | inr s => simp only [setItem, if_true, DistinctKeys]; exact ⟨h.1, hx s rfl, h.2⟩
    · simp only [setItem, if_neg ha, DistinctKeys, mem_keys_setItem, not_or]
      exact ⟨⟨ha, h.1⟩, ih h.2⟩
  | sub a s r _ ih =>
    by_cases ha : a = k
    · subst ha
      cases x with
      | inl v => simp only [setItem, if_true, DistinctKeys]; exact ⟨h.1, h.2.2⟩
      | inr s => simp only [setItem, if_true, DistinctKeys]; exact ⟨h.1, hx s rfl, h.2.2⟩
    · simp only [setItem, if_neg ha, DistinctKeys, mem_keys_setItem, not_or]
      exact ⟨⟨ha, h.1⟩, h.2.1, ih h.2.2⟩

theorem setItem_self {d : Doc} {k : String} {x : Leaf ⊕ Doc} (h : d.find? k = some x) :
    d.setItem k x = d := by
  induction d with
  | nil => simp [find?] at h
  | leaf a v r ih =>
    by_cases ha : a = k
    · subst ha
      simp only [find?, if_true, Option.some.injEq] at h
      subst h; simp [setItem]
    · simp only [find?, if_neg ha] at h
      simp only [setItem, if_neg ha, ih h]
  | sub a s r _ ih =>
    by_cases ha : a = k
    · subst ha
      simp only [find?, if_true, Option.some.injEq] at h
      subst h; simp [setItem]
    · simp only [find?, if_neg ha] at h
      simp only [setItem, if_neg ha, ih h]

theorem find?_updateWith (d e : Doc) (he : DistinctKeys e) (k : String) :
    (d.updateWith e).find? k = (e.find? k).or (d.find? k) := by
  induction e generalizing d with
  | nil => simp [updateWith, find?]
  | leaf a v r ih =>
    simp only [updateWith, ih _ he.2, find?_setItem, find?]
    by_cases ha : k = a
    · subst ha
      rw [(find?_eq_none_iff r k).mpr he.1]; simp
    · rw [if_neg ha, if_neg (fun e => ha e.symm)]
  | sub a s r _ ih =>
    simp only [updateWith, ih _ he.2.2, find?_setItem, find?]
    by_cases ha : k = a
    · subst ha
      rw [(find?_eq_none_iff r k).mpr he.1]; simp
    · rw [if_neg ha, if_neg (fun e => ha e.symm)]

theorem distinct_updateWith {d e : Doc} (hd : DistinctKeys d) (he : DistinctKeys e) :
    DistinctKeys (d.updateWith e) := by
  induction e generalizing d with
  | nil => exact hd
  | leaf a v r ih =>
    exact ih (distinct_setItem hd a (.inl v) (by simp)) he.2
  | sub a s r _ ih =>
    exact ih (distinct_setItem hd a (.inr s) (by
      intro s' h; cases h; exact he.2.1)) he.2.2

theorem updateWith_self {d e : Doc} (he : DistinctKeys e)
    (h : ∀ k x, e.find? k = some x → d.find? k = some x) : d.updateWith e = d := by
  induction e generalizing d with
  | nil => rfl
  | leaf a v r ih =>
    have h1 : d.setItem a (.inl v) = d := setItem_self (h a _ (by simp [find?]))
    simp only [updateWith, h1]
    refine ih he.2 fun k x hk => h k x ?_
    have : a ≠ k := by
      rintro rfl
      rw [(find?_eq_none_iff r a).mpr he.1] at hk; cases hk
    simp [find?, this, hk]
  | sub a s r _ ih =>
    have h1 : d.setItem a (.inr s) = d := setItem_self (h a _ (by simp [find?]))
    simp only [updateWith, h1]
    refine ih he.2.2 fun k x hk => h k x ?_
    have : a ≠ k := by
      rintro rfl
      rw [(find?_eq_none_iff r a).mpr he.1] at hk; cases hk
    simp [find?, this, hk]

theorem updateWith_idem (d : Doc) {e : Doc} (he : DistinctKeys e) :
    (d.updateWith e).updateWith e = d.updateWith e := by
  apply updateWith_self he
  intro k x hk
  rw [find?_updateWith _ _ he, hk]; rfl

end Doc

/-! ### Options -/

theorem distinct_dotsToDict' (names : List String) {x : Leaf ⊕ Doc}
    (hx : ∀ d, x = .inr d → DistinctKeys d) : DistinctKeys (dotsToDict names x) := by
  induction names with
  | nil => simp [dotsToDict, DistinctKeys]
  | cons a names ih =>
    cases names with
    | nil =>
      cases x with
      | inl v => simp [dotsToDict, DistinctKeys, Doc.keys]
      | inr d => simpa [dotsToDict, DistinctKeys, Doc.keys] using hx d rfl
    | cons b names => simpa [dotsToDict, DistinctKeys, Doc.keys] using ih

theorem distinct_dotsToDict (names : List String) (v : Leaf) :
    DistinctKeys (dotsToDict names (.inl v)) :=
  distinct_dotsToDict' names (fun d h => by cases h)

theorem valueAt_dotsToDict (names : List String) (hne : names ≠ []) (v : Leaf) :
    valueAt (dotsToDict names (.inl v)) names = some v := by
  induction names with
  | nil => exact absurd rfl hne
  | cons a names ih =>
    cases names with
    | nil => rw [valueAt_single]; simp [dotsToDict, Doc.find?]
    | cons b names =>
      rw [valueAt_cons]
      simp only [dotsToDict, Doc.find?, if_true]
      exact ih (by simp)

theorem distinct_sub {d s : Doc} {k : String} (hd : DistinctKeys d)
    (h : d.find? k = some (.inr s)) : DistinctKeys s := by
  induction d with
  | nil => simp [Doc.find?] at h
  | leaf a v r ih =>
    by_cases ha : a = k
    · simp [Doc.find?, ha] at h
    · simp only [Doc.find?, if_neg ha] at h; exact ih hd.2 h
  | sub a s' r _ ih =>
    by_cases ha : a = k
    · simp only [Doc.find?, if_pos ha, Option.some.injEq, Sum.inr.injEq] at h
      subst h; exact hd.2.1
    · simp only [Doc.find?, if_neg ha] at h; exact ih hd.2.2 h

theorem loadParamsFromStrings_distinct {parse : List Char → Except Err (Leaf ⊕ Doc)}
    (hparse : GivesDicts parse)
    {opts : List (List Char)} {params r : Doc} (h : DistinctKeys params)
    (hr : loadParamsFromStrings parse params opts = .ok r) : DistinctKeys r := by
  induction opts generalizing params with
  | nil => simp only [loadParamsFromStrings, Except.ok.injEq] at hr; subst hr; exact h
  | cons o opts ih =>
    rw [loadParamsFromStrings.eq_def] at hr
    dsimp only at hr
    split at hr
    · rename_i name value _
      cases hp : parse value with
      | error e => rw [hp] at hr; cases hr
      | ok v =>
        rw [hp] at hr
        exact ih (Doc.distinct_updateWith h
          (distinct_dotsToDict' _ fun d hd => hparse value d (by rw [hp, hd]))) hr
    · cases hr

theorem keys_ofItems (ps : PyDict String Leaf) : (Doc.ofItems ps).keys = ps.keys := by
  induction ps with
  | nil => rfl
  | cons p ps ih => simp [Doc.ofItems, Doc.keys, PyDict.keys, ih]

theorem distinct_ofItems {ps : PyDict String Leaf} (h : ps.keys.Nodup) :
    DistinctKeys (Doc.ofItems ps) := by
  induction ps with
  | nil => trivial
  | cons p ps ih =>
    simp only [PyDict.keys, List.map_cons, List.nodup_cons] at h
    exact ⟨by rw [keys_ofItems]; exact h.1, ih h.2⟩

theorem distinct_ofPairs (ps : List (String × Leaf)) :
    DistinctKeys (Doc.ofItems (PyDict.ofPairs ps)) :=
  distinct_ofItems (PyDict.nodup_ofPairs ps)

theorem updateGroup_idem {g g' : Doc} {new : Option (Leaf ⊕ Doc)}
    (hn : ∀ s, new = some (.inr s) → DistinctKeys s) (h : updateGroup g new = .ok g') :
    updateGroup g' new = .ok g' := by
  unfold updateGroup at h ⊢
  split at h
  · cases h; rfl
  · rename_i d
    simp only [Except.ok.injEq] at h
    subst h
    rw [Doc.updateWith_idem _ (hn _ rfl)]
  · split at h
    · cases h
    · simp only [Except.ok.injEq] at h
      subst h
      rw [Doc.updateWith_idem _ (distinct_ofPairs _)]

theorem updateGroups_idem {cl d r : Doc} (hcl : DistinctKeys cl)
    (h : updateGroups cl d = .ok r) : updateGroups cl r = .ok r := by
  induction d generalizing r with
  | nil => simp only [updateGroups, Except.ok.injEq] at h; subst h; rfl
  | leaf a v t _ => simp [updateGroups] at h
  | sub g s t _ ih =>
    cases h1 : updateGroup s (cl.find? g) with
    | error e => simp [updateGroups, h1] at h
    | ok s' =>
      cases h2 : updateGroups cl t with
      | error e => simp [updateGroups, h1, h2] at h
      | ok t' =>
        simp only [updateGroups, h1, h2, Except.ok.injEq] at h
        subst h
        have h3 := updateGroup_idem (new := cl.find? g)
          (fun s hs => distinct_sub hcl hs) h1
        simp only [updateGroups, h3, ih h2]

theorem loadModelParams_idem {parse : List Char → Except Err (Leaf ⊕ Doc)}
    (hparse : GivesDicts parse) {defaults r : Doc}
    {opts : List (List Char)} (h : loadModelParams parse defaults opts = .ok r) :
    loadModelParams parse r opts = .ok r := by
  unfold loadModelParams at h ⊢
  cases hc : loadParamsFromStrings parse .nil opts with
  | error e => rw [hc] at h; cases h
  | ok cl =>
    rw [hc] at h
    exact updateGroups_idem (loadParamsFromStrings_distinct hparse (by simp [DistinctKeys]) hc) h

theorem find?_updateGroups {cl d r : Doc} (h : updateGroups cl d = .ok r) (g : String) :
    (d.find? g = none ∧ r.find? g = none) ∨
      ∃ s s', d.find? g = some (.inr s) ∧ r.find? g = some (.inr s') ∧
        updateGroup s (cl.find? g) = .ok s' := by
  induction d generalizing r with
  | nil => simp only [updateGroups, Except.ok.injEq] at h; subst h; exact .inl ⟨rfl, rfl⟩
  | leaf a v t _ => simp [updateGroups] at h
  | sub a s t _ ih =>
    cases h1 : updateGroup s (cl.find? a) with
    | error e => simp [updateGroups, h1] at h
    | ok s' =>
      cases h2 : updateGroups cl t with
      | error e => simp [updateGroups, h1, h2] at h
      | ok t' =>
        simp only [updateGroups, h1, h2, Except.ok.injEq] at h
        subst h
        by_cases ha : a = g
        · subst ha
          exact .inr ⟨s, s', by simp [Doc.find?], by simp [Doc.find?], h1⟩
        · simp only [Doc.find?, if_neg ha]
          exact ih h2

/-! ### Splitting strings -/

theorem splitOn_of_notMem {sep : Char} {s : List Char} (h : sep ∉ s) : splitOn sep s = [s] := by
  induction s with
  | nil => rfl
  | cons c cs ih =>
    simp only [List.mem_cons, not_or] at h
    simp only [splitOn, if_neg (Ne.symm h.1), ih h.2]

theorem splitOn_append {sep : Char} {s t : List Char} (h : sep ∉ s) :
    splitOn sep (s ++ sep :: t) = s :: splitOn sep t := by
  induction s with
  | nil => simp [splitOn]
  | cons c cs ih =>
    simp only [List.mem_cons, not_or] at h
    simp only [List.cons_append, splitOn, if_neg (Ne.symm h.1), ih h.2]

theorem intercalate_splitOn (sep : Char) (s : List Char) :
    [sep].intercalate (splitOn sep s) = s := by
  induction s with
  | nil => rfl
  | cons c cs ih =>
    simp only [splitOn]
    split_ifs with h
    · cases hs : splitOn sep cs with
      | nil => rw [hs] at ih; simp only [List.intercalate, List.intersperse, List.flatten_nil] at ih; subst ih; simp [splitOn] at hs
      | cons p ps =>
        rw [hs] at ih
        rw [h]
        simpa [List.intercalate, List.intersperse] using ih
    · cases hs : splitOn sep cs with
      | nil => rw [hs] at ih; simp only [List.intercalate, List.intersperse, List.flatten_nil] at ih; subst ih; simp [splitOn] at hs
      | cons p ps =>
        rw [hs] at ih
        rw [← ih]
        cases ps <;> simp [List.intercalate, List.intersperse]

theorem splitOn_intercalate {sep : Char} {parts : List (List Char)} (hne : parts ≠ [])
    (h : ∀ p ∈ parts, sep ∉ p) : splitOn sep ([sep].intercalate parts) = parts := by
  induction parts with
  | nil => exact absurd rfl hne
  | cons p ps ih =>
    cases ps with
    | nil => simpa [List.intercalate] using splitOn_of_notMem (h p (by simp))
    | cons q ps =>
      have : [sep].intercalate (p :: q :: ps) = p ++ sep :: [sep].intercalate (q :: ps) := by
        simp [List.intercalate, List.intersperse]
      rw [this, splitOn_append (h p (by simp)), ih (by simp) fun x hx => h x (by simp [hx])]

theorem notMem_intercalate {a sep : Char} {parts : List (List Char)} (hs : a ≠ sep)
    (h : ∀ p ∈ parts, a ∉ p) : a ∉ [sep].intercalate parts := by
  induction parts with
  | nil => simp [List.intercalate]
  | cons p ps ih =>
    cases ps with
    | nil => simpa [List.intercalate] using h p (by simp)
    | cons q ps =>
      have : [sep].intercalate (p :: q :: ps) = p ++ sep :: [sep].intercalate (q :: ps) := by
        simp [List.intercalate, List.intersperse]
      rw [this]
      simp only [List.mem_append, List.mem_cons, not_or]
      exact ⟨h p (by simp), hs, ih fun x hx => h x (by simp [hx])⟩

theorem splitOn_typed {o : SetOption} (h : o.WellFormed) :
    splitOn '=' o.typed = [['.'].intercalate (o.path.map String.toList), o.text] := by
  unfold SetOption.typed
  rw [splitOn_append, splitOn_of_notMem h.2.2]
  apply notMem_intercalate (by decide)
  intro p hp
  obtain ⟨k, hk, rfl⟩ := List.mem_map.mp hp
  exact (h.2.1 k hk).2

theorem split_path {o : SetOption} (h : o.WellFormed) :
    (splitOn '.' (['.'].intercalate (o.path.map String.toList))).map String.ofList = o.path := by
  rw [splitOn_intercalate]
  · rw [List.map_map]
    conv_rhs => rw [← List.map_id o.path]
    apply List.map_congr_left
    intro k _
    simp
  · have := h.1
    intro he
    rw [List.map_eq_nil_iff] at he
    rw [he] at this; simp at this
  · intro p hp
    obtain ⟨k, hk, rfl⟩ := List.mem_map.mp hp
    exact (h.2.1 k hk).1

/-- One group of the parsed options: from the last option for the group. -/
theorem load_group {parse : List Char → Except Err (Leaf ⊕ Doc)} {value : SetOption → Leaf}
    {os : List SetOption} (hw : ∀ o ∈ os, o.WellFormed)
    (hp : ∀ o ∈ os, parse o.text = .ok (.inl (value o))) (params : Doc) :
    ∃ r, loadParamsFromStrings parse params (os.map SetOption.typed) = .ok r ∧
      ∀ g, r.find? g = ((os.reverse.find? fun o => o.path.head? = some g).map fun o =>
        (.inr (dotsToDict o.path.tail (.inl (value o))) : Leaf ⊕ Doc)).or (params.find? g) := by
  induction os generalizing params with
  | nil => exact ⟨params, rfl, fun g => by simp⟩
  | cons o os ih =>
    have ho := hw o (by simp)
    obtain ⟨r, h1, h2⟩ := ih (fun x hx => hw x (by simp [hx])) (fun x hx => hp x (by simp [hx]))
      (params.updateWith (dotsToDict o.path (.inl (value o))))
    refine ⟨r, ?_, ?_⟩
    · simp only [List.map_cons, loadParamsFromStrings, splitOn_typed ho, hp o (by simp),
        split_path ho]
      exact h1
    · intro g
      rw [h2, Doc.find?_updateWith _ _ (distinct_dotsToDict _ _), List.reverse_cons,
        List.find?_append]
      have hlen := ho.1
      cases hpath : o.path with
      | nil => rw [hpath] at hlen; simp at hlen
      | cons k ks =>
        cases ks with
        | nil => rw [hpath] at hlen; simp at hlen
        | cons k2 ks =>
          cases hf : os.reverse.find? fun o => decide (o.path.head? = some g) with
          | some x => simp
          | none =>
            simp only [Option.map_none, Option.none_or, dotsToDict, Doc.find?, List.find?_cons,
              hpath, List.head?_cons, Option.some.injEq, List.find?_nil]
            by_cases hg : k = g <;> simp [hg, hpath]

/-! ### Configuration files -/

theorem decimal_eq (ds : List Char) :
    decimal ds = Nat.ofDigits 10 (ds.reverse.map fun c => c.toNat - 48) := by
  have : ∀ (ds : List Char) (n : Nat), ds.foldl (fun n c => 10 * n + (c.toNat - '0'.toNat)) n =
      Nat.ofDigits 10 (ds.reverse.map fun c => c.toNat - 48) + 10 ^ ds.length * n := by
    intro ds
    induction ds with
    | nil => intro n; simp
    | cons c cs ih =>
      intro n
      rw [List.foldl_cons, ih, List.reverse_cons, List.map_append, Nat.ofDigits_append]
      have h48 : '0'.toNat = 48 := rfl
      simp only [List.map_cons, List.map_nil, Nat.ofDigits_singleton, List.length_map,
        List.length_reverse, List.length_cons, h48, pow_succ]
      ring
  unfold decimal
  rw [this]; simp

theorem timeFromFilename_none {n : List Char} :
    timeFromFilename n = none ↔ ∀ c ∈ n, c.isDigit = false := by
  unfold timeFromFilename
  cases h : n.dropWhile (fun c => !c.isDigit) with
  | nil =>
    rw [List.dropWhile_eq_nil_iff] at h
    simp only [true_iff]
    intro c hc; simpa using h c hc
  | cons c cs =>
    simp only [reduceCtorEq, false_iff]
    intro hall
    have : n.dropWhile (fun c => !c.isDigit) = [] := by
      rw [List.dropWhile_eq_nil_iff]
      intro c hc; simp [hall c hc]
    rw [this] at h; cases h

theorem timeFromFilename_some {n : List Char} {t : Nat} (h : timeFromFilename n = some t) :
    FirstNumber n t := by
  unfold timeFromFilename at h
  cases hd : n.dropWhile (fun c => !c.isDigit) with
  | nil => rw [hd] at h; cases h
  | cons c cs =>
    rw [hd] at h
    simp only [Option.some.injEq] at h
    have hc : c.isDigit = true := by
      have := List.head?_dropWhile_not (fun c : Char => !c.isDigit) n
      rw [hd] at this
      simpa using this
    refine ⟨n.takeWhile (fun c => !c.isDigit), (c :: cs).takeWhile Char.isDigit,
      (c :: cs).dropWhile Char.isDigit, ?_, ?_, ?_, ?_, ?_, ?_⟩
    · rw [List.append_assoc, List.takeWhile_append_dropWhile, ← hd,
        List.takeWhile_append_dropWhile]
    · intro x hx
      simpa using List.mem_takeWhile_imp hx
    · simp [List.takeWhile_cons, hc]
    · intro x hx
      exact List.mem_takeWhile_imp hx
    · intro x hx
      have := List.head?_dropWhile_not Char.isDigit (c :: cs)
      rw [Option.mem_def] at hx
      rw [hx] at this
      simpa using this
    · rw [← h, decimal_eq]

theorem getElem_filesTimes (files : List (List Char)) (idx i : Nat)
    (h : i < (filesTimes idx files).length) (h' : i < files.length) :
    (filesTimes idx files)[i] = (timeFromFilename files[i]).getD (idx + i) := by
  induction files generalizing idx i with
  | nil => simp at h'
  | cons n ns ih =>
    cases i with
    | zero =>
      simp only [filesTimes, List.getElem_cons_zero, Nat.add_zero]
      cases timeFromFilename n <;> rfl
    | succ i =>
      simp only [filesTimes, List.getElem_cons_succ]
      rw [ih (idx + 1) i _ (by simpa using h')]
      congr 1; omega

theorem length_filesTimes (idx : Nat) (files : List (List Char)) :
    (filesTimes idx files).length = files.length := by
  induction files generalizing idx with
  | nil => rfl
  | cons n ns ih => simp [filesTimes, ih]

theorem countP_lt_of_sorted {files : List (List Char)} (hs : files.Pairwise (· ≤ ·))
    (hn : files.Nodup) (i : Nat) (h : i < files.length) :
    files.countP (fun n => decide (n < files[i])) = i := by
  induction files generalizing i with
  | nil => simp at h
  | cons a l ih =>
    rw [List.pairwise_cons] at hs
    rw [List.nodup_cons] at hn
    cases i with
    | zero =>
      simp only [List.getElem_cons_zero]
      rw [List.countP_eq_zero]
      intro x hx
      simp only [decide_eq_true_eq, not_lt]
      rcases List.mem_cons.mp hx with rfl | hx
      · exact le_rfl
      · exact hs.1 x hx
    | succ i =>
      simp only [List.getElem_cons_succ]
      have hi : i < l.length := by simpa using h
      have hlt : a < l[i] := lt_of_le_of_ne (hs.1 _ (List.getElem_mem hi)) (by
        intro e; exact hn.1 (e ▸ List.getElem_mem hi))
      rw [List.countP_cons_of_pos (by simpa using hlt), ih hs.2 hn.2 i hi]

theorem nameLE_iff (a b : List Char) : nameLE a b ↔ a ≤ b := by
  have : nameLE a b ↔ ¬ b < a := Iff.rfl
  rw [this, not_lt]

instance : Std.Total nameLE := ⟨fun a b => by
  simp only [nameLE_iff]; exact le_total a b⟩
instance : IsTrans _ nameLE := ⟨fun a b c h h' => by
  simp only [nameLE_iff] at *; exact h.trans h'⟩

instance : Std.Total pairLE := ⟨fun a b => by
  simp only [pairLE, nameLE_iff]
  rcases lt_trichotomy a.1 b.1 with h | h | h
  · exact .inl (.inl h)
  · rcases le_total a.2 b.2 with h' | h'
    · exact .inl (.inr ⟨h, h'⟩)
    · exact .inr (.inr ⟨h.symm, h'⟩)
  · exact .inr (.inl h)⟩

instance : IsTrans _ pairLE := ⟨fun a b c h h' => by
  simp only [pairLE, nameLE_iff] at *
  rcases h with h | ⟨h, h1⟩ <;> rcases h' with h' | ⟨h', h1'⟩
  · exact .inl (h.trans h')
  · exact .inl (h' ▸ h)
  · exact .inl (h ▸ h')
  · exact .inr ⟨h.trans h', h1.trans h1'⟩⟩

/-- The two results of the discovery are the two halves of the sorted pairs. -/
theorem findConfigFiles_pairs (entries : List (List Char)) :
    ∃ (files : List (List Char)) (pairs : List (Nat × List Char)), findConfigFiles entries = (pairs.map (·.1), pairs.map (·.2)) ∧
      files.Pairwise (· ≤ ·) ∧
      files.Perm (if (globSequence ".toml" entries).isEmpty then globSequence ".yaml" entries
        else globSequence ".toml" entries) ∧
      pairs.Perm ((filesTimes 0 files).zip files) ∧ (pairs.map (·.1)).Pairwise (· ≤ ·) := by
  set l := if (globSequence ".toml" entries).isEmpty then globSequence ".yaml" entries
        else globSequence ".toml" entries with hl
  set files := l.insertionSort nameLE with hfiles
  set pairs := ((filesTimes 0 files).zip files).insertionSort pairLE with hpairs
  have hperm : pairs.Perm ((filesTimes 0 files).zip files) := List.perm_insertionSort _ _
  have hsorted : (pairs.map (·.1)).Pairwise (· ≤ ·) := by
    rw [List.pairwise_map]
    refine (List.pairwise_insertionSort pairLE ((filesTimes 0 files).zip files)).imp ?_
    rintro a b (h | ⟨h, _⟩)
    · exact le_of_lt h
    · exact le_of_eq h
  refine ⟨files, pairs, ?_, (List.pairwise_insertionSort nameLE l).imp fun h => (nameLE_iff _ _).mp h, List.perm_insertionSort _ _,
    hperm, hsorted⟩
  have ht : (filesTimes 0 files).insertionSort (· ≤ ·) = pairs.map (·.1) := by
    have h1 : ((filesTimes 0 files).insertionSort (· ≤ ·)).Perm (pairs.map (·.1)) := by
      refine (List.perm_insertionSort _ _).trans ?_
      have := (hperm.map (·.1)).symm
      rwa [List.map_fst_zip (by rw [length_filesTimes])] at this
    exact h1.eq_of_pairwise (fun a b _ _ hab hba => le_antisymm hab hba)
      (List.pairwise_insertionSort _ _) hsorted
  unfold findConfigFiles
  dsimp only
  rw [← hl, ← hfiles, ht]

theorem mem_globSequence (suffix : String) (hsuf : suffix.toList.head? = some '.')
    (entries : List (List Char)) (n : List Char) :
    n ∈ globSequence suffix entries ↔ n ∈ entries ∧ ConfigName suffix n := by
  unfold globSequence ConfigName
  simp only [List.mem_filter, Bool.and_eq_true, List.isPrefixOf_iff_prefix,
    List.isSuffixOf_iff_suffix, and_congr_right_iff]
  intro _
  constructor
  · rintro ⟨⟨a, ha⟩, ⟨b, hb⟩⟩
    have hab : "sequence".toList ++ a = b ++ suffix.toList := ha.trans hb.symm
    rcases List.append_eq_append_iff.mp hab with ⟨m, h1, h2⟩ | ⟨m, h1, h2⟩
    · exact ⟨m, by rw [← ha, h2, List.append_assoc]⟩
    · cases m with
      | nil => exact ⟨[], by rw [← ha, ← List.nil_append a, ← h2]; simp⟩
      | cons c m =>
        exfalso
        have hc : c = '.' := by rw [h2] at hsuf; simpa using hsuf
        have hmem : '.' ∈ "sequence".toList := by rw [h1, hc]; simp
        revert hmem; decide
  · rintro ⟨m, rfl⟩
    exact ⟨⟨m ++ suffix.toList, by simp⟩, ⟨"sequence".toList ++ m, rfl⟩⟩

end Verif
