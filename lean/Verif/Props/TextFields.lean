import Verif.Props.Setup
import Verif.Props.Output

/-!
# A text in place of a list of fields (C74)
-/

set_option autoImplicit false
set_option linter.unusedSectionVars false

namespace Verif.Props

open Verif Verif.Spec

theorem joined_letters (s : String) : String.join (s.toList.map Char.toString) = s := by
  have : ∀ (l : List Char) (a : String),
      (l.map Char.toString).foldl (· ++ ·) a = a ++ String.ofList l := by
    intro l
    induction l with
    | nil => intro a; simp
    | cons c l ih =>
      intro a
      rw [List.map_cons, List.foldl_cons, ih, String.append_assoc]
      congr 1
      apply String.toList_injective
      simp [Char.toString]
  unfold String.join
  rw [this]
  simp

theorem letters_length (s : String) : ∀ f ∈ s.toList.map Char.toString, f.length = 1 := by
  intro f hf
  obtain ⟨c, -, rfl⟩ := List.mem_map.mp hf
  simp [Char.toString]

section
variable {K : Type} [Field K] [LinearOrder K] [IsStrictOrderedRing K]
  {ext : Externals K} {times : List ℕ} {files : List (List Doc)}
  {fs fs' : FileSystem K (Option K)} {d : Doc} {m : Ready K}

/-- C74, false: the name of one field, given as a text and not as a list, is taken for the list of
its letters. -/
theorem setup_text_fields (h : SetsUp ext times files fs d fs' m) (s : String)
    (hs : entry d "output" "fields" = some (.inl (.str s))) :
    String.join m.live.state.comps.2.1.fields = s ∧
    ∀ f ∈ m.live.state.comps.2.1.fields, f.length = 1 := by
  obtain ⟨c, e, hm, hde, hfe⟩ := setsUp_made h
  cases hm with
  | mk hgrid hbathy hinfo hw hnames hclock houtput hdx hx hcreate htime hargs hpor hrows hwriter
      hms =>
    have hget := sectionOf_get? h.distinct (hfe _ (by decide) (by decide)) houtput
    obtain ⟨-, -, -, -, o5, -⟩ := writerInit_ok hwriter
    unfold loadWriter at hargs
    simp only [bind_eq_ok] at hargs
    obtain ⟨_, -, path, e1, fields, e2, e3⟩ := hargs
    cases e3
    unfold fieldsArg at e2
    rw [hget, hs] at e2
    cases e2
    dsimp only at o5 ⊢
    rw [o5]
    exact ⟨joined_letters s, letters_length s⟩

/-- C74, false: with such fields no field of the nodes is written whose name has more than one
letter. -/
theorem text_fields_nothing {A : Type*} {ds : Dataset K A} {ws : List (Write K A)}
    (h : Records ds ws) (i : ℕ) (w : Write K A) (hw : ws[i]? = some w) (s : String) (hs : s ≠ "")
    (hf : String.join w.fields = s ∧ ∀ f ∈ w.fields, f.length = 1) (name : String)
    (hn : 1 < name.length) : slice ds "node" name i = none := by
  rw [fields_exact_partial h i w hw, if_neg]
  · intro hm
    have := hf.2 name hm
    omega
  · intro he
    rw [he] at hf
    exact hs hf.1.symm

/-- C74, C101, false: the same in the course of a run. -/
theorem later_text_fields {A : Type*} (s : String) (w w' : Writer K) (fs fs' : FileSystem K A)
    (h : writerSetattr "fields" (.inl (.str s)) (w, fs) = .ok (w', fs')) :
    String.join w'.fields = s ∧ (∀ f ∈ w'.fields, f.length = 1) ∧ fs' = fs := by
  simp only [writerSetattr, pyToNames, String.reduceEq, if_false, if_true] at h
  cases h
  exact ⟨joined_letters s, letters_length s, rfl⟩

end

/-- A configuration that asks for the elevations with a text. -/
def exTextFields : Doc :=
  exTimed (.leaf "stop" (.num 2) .nil)
    (.leaf "filepath" (.str "new.nc") (.leaf "fields" (.str "topographic__elevation") .nil)) .nil

/-- C74: the hypotheses hold of this configuration. -/
example : ∃ fs' m, SetsUp exExt [0] [[exTextFields]] exRunFiles exTextFields fs' m ∧
    String.join m.live.state.comps.2.1.fields = "topographic__elevation" := by
  have h : (runSetup exExt [0] [[exTextFields]] exRunFiles).2.toOption.isSome = true := by
    decide +kernel
  rcases hr : runSetup exExt [0] [[exTextFields]] exRunFiles with ⟨fs', _ | m⟩
  · rw [hr] at h; cases h
  · have hs : SetsUp exExt [0] [[exTextFields]] exRunFiles exTextFields fs' m :=
      ⟨rfl, by simp [exTextFields, exTimed, DistinctKeys, Doc.keys],
        by simp [exTextFields, exTimed, NoTuples], hr⟩
    exact ⟨fs', m, hs, (setup_text_fields hs _ (by decide +kernel)).1⟩

/-- C74: a file that is written so; the text names a field of one letter. -/
example : ∃ ds : Dataset ℚ ℚ, ∃ ws : List (Write ℚ ℚ), Records ds ws ∧
    slice ds "node" "z" 1 = some (List.replicate 12 9) ∧
    slice ds "node" "topographic__elevation" 1 = none := by
  obtain ⟨w, fs', d, -, -, h3, -⟩ := writer_history (z := exSizes) (K := ℚ) (A := ℚ)
    (path := "out.nc") (interval := .int 2) (fields := ["z"]) (clobber := true) (fs := exFiles)
    (fs0 := Function.update exFiles "out.nc" .absent)
    (w0 := ⟨true, 2, ["z"], "out.nc", [0], 0, 0⟩) (by
      simp [writerInit, checkInterval, setFilepath, exFiles, Entry.isFile, exSizes])
    exCalls (by simp [exCalls]) (by
      intro c hc
      simp only [exCalls, List.mem_cons, List.not_mem_nil, or_false] at hc
      rcases hc with rfl | rfl | rfl <;> exact ⟨by norm_num, exView_sizes _ _⟩)
  have hw : writesOf exCalls = [⟨0, ["z"], exView 5 7⟩] ++ [⟨20, ["z"], exView 3 9⟩] := by
    simp [writesOf, exCalls, elapsed, List.range_succ]
    norm_num
  rw [hw] at h3
  refine ⟨d, _, h3, ?_, text_fields_nothing h3 1 ⟨20, ["z"], exView 3 9⟩ rfl "z" (by decide)
    ⟨rfl, by decide⟩ _ (by decide)⟩
  rw [fields_exact_partial h3 1 ⟨20, ["z"], exView 3 9⟩ rfl (by simp) "z"]
  rfl

end Verif.Props
