import Verif.Model.ErrorText

/-!
# The texts of the errors (C149)
-/

set_option autoImplicit false

namespace Verif.Props

theorem escChar_prefix {q : Char} (hq : q ≠ 'n' ∧ q ≠ 'r' ∧ q ≠ 't') {c d : Char} {x y : Text}
    (h : escChar q c ++ x = escChar q d ++ y) : c = d ∧ x = y := by
  unfold escChar at h
  split_ifs at h with h1 h2 h3 h4 h5 h6 h7 h8 h9 h10 h11 h12 h13 h14 h15 h16 <;>
    simp only [List.cons_append, List.nil_append, List.cons.injEq, true_and] at h <;>
    aesop

theorem quoteOf_cases (s : Text) : quoteOf s = '"' ∨ quoteOf s = '\'' := by
  unfold quoteOf
  split_ifs
  · exact Or.inl rfl
  · exact Or.inr rfl

theorem escChar_head {q : Char} (hq : q = '"' ∨ q = '\'') (c : Char) (x y : Text) :
    q :: x ≠ escChar q c ++ y := by
  intro h
  unfold escChar at h
  split_ifs at h with h1 <;>
    simp only [List.cons_append, List.nil_append, List.cons.injEq] at h
  · rcases hq with rfl | rfl <;> exact absurd h.1 (by decide)
  · rcases hq with rfl | rfl <;> exact absurd h.1 (by decide)
  · rcases hq with rfl | rfl <;> exact absurd h.1 (by decide)
  · rcases hq with rfl | rfl <;> exact absurd h.1 (by decide)
  · exact h1 (Or.inl h.1.symm)

/-- Where a text in quotes ends, and what it is, can be told from what follows. -/
theorem pyRepr_prefix {s t a b : Text} (h : pyRepr s ++ a = pyRepr t ++ b) : s = t ∧ a = b := by
  unfold pyRepr at h
  simp only [List.cons_append, List.append_assoc, List.cons.injEq, List.nil_append] at h
  obtain ⟨hq, h⟩ := h
  rw [← hq] at h
  have hc := quoteOf_cases s
  generalize quoteOf s = q at h hc
  clear hq
  induction s generalizing t with
  | nil =>
    cases t with
    | nil => simpa using h
    | cons c t =>
      rw [List.flatMap_nil, List.nil_append, List.flatMap_cons, List.append_assoc] at h
      exact absurd h (escChar_head hc c _ _)
  | cons c s ih =>
    cases t with
    | nil =>
      rw [List.flatMap_nil, List.nil_append, List.flatMap_cons, List.append_assoc] at h
      exact absurd h.symm (escChar_head hc c _ _)
    | cons d t =>
      rw [List.flatMap_cons, List.flatMap_cons, List.append_assoc, List.append_assoc] at h
      obtain ⟨rfl, h'⟩ := escChar_prefix (by rcases hc with rfl | rfl <;> decide) h
      obtain ⟨rfl, rfl⟩ := ih h'
      exact ⟨rfl, rfl⟩

theorem joinComma_inj {ks ls : List Text}
    (h : joinComma (ks.map pyRepr) = joinComma (ls.map pyRepr)) : ks = ls := by
  have hne : ∀ (s a : Text), pyRepr s ++ a ≠ [] := by
    intro s a
    simp [pyRepr]
  have hcons : ∀ (s : Text) (rest : List Text), ∃ a, joinComma ((s :: rest).map pyRepr) =
      pyRepr s ++ a ∧ (rest = [] → a = []) ∧
        (rest ≠ [] → a = ',' :: ' ' :: joinComma (rest.map pyRepr)) := by
    intro s rest
    cases rest with
    | nil => exact ⟨[], by simp [joinComma], fun _ => rfl, fun h => absurd rfl h⟩
    | cons t rest => exact ⟨_, rfl, fun h => by simp at h, fun _ => rfl⟩
  induction ks generalizing ls with
  | nil =>
    cases ls with
    | nil => rfl
    | cons l ls =>
      obtain ⟨a, ha, -⟩ := hcons l ls
      rw [ha] at h
      exact absurd h.symm (hne l a)
  | cons k ks ih =>
    obtain ⟨a, ha, ha1, ha2⟩ := hcons k ks
    rw [ha] at h
    cases ls with
    | nil => exact absurd h (hne k a)
    | cons l ls =>
      obtain ⟨b, hb, hb1, hb2⟩ := hcons l ls
      rw [hb] at h
      obtain ⟨rfl, hab⟩ := pyRepr_prefix h
      congr 1
      by_cases hk : ks = []
      · by_cases hl : ls = []
        · rw [hk, hl]
        · rw [ha1 hk, hb2 hl] at hab
          cases hab
      · by_cases hl : ls = []
        · rw [ha2 hk, hb1 hl] at hab
          cases hab
        · rw [ha2 hk, hb2 hl] at hab
          simp only [List.cons.injEq, true_and] at hab
          exact ih hab

/-- C149: the text of a `ParameterMismatchError` tells all its keys, in their order. -/
theorem mismatch_message_tells {ks ls : List Text} (h : mismatchMessage ks = mismatchMessage ls) :
    ks = ls := by
  unfold mismatchMessage at h
  rw [List.append_assoc, List.append_assoc, List.append_assoc, List.append_assoc] at h
  have h' := List.append_cancel_left h
  split_ifs at h' with h1 h2 h2
  · simp only [List.cons_append, List.nil_append, List.cons.injEq, true_and] at h'
    exact joinComma_inj (List.append_cancel_left h')
  · exact absurd (congrArg List.head? h') (by simp)
  · exact absurd (congrArg List.head? h') (by simp)
  · exact joinComma_inj (List.append_cancel_left (List.append_cancel_left h'))

/-- C149: it speaks of parameters if there are at least two of them. -/
theorem mismatch_message_plural (keys : List Text) :
    (2 ≤ keys.length ↔ "mismatch in parameters: ".toList <+: mismatchMessage keys) ∧
    (keys.length ≤ 1 ↔ "mismatch in parameter: ".toList <+: mismatchMessage keys) := by
  have e : ∀ t : Text, "mismatch in parameter".toList ++ ['s'] ++ ": ".toList ++ t =
      "mismatch in parameters: ".toList ++ t := fun t => rfl
  have e' : ∀ t : Text, "mismatch in parameter".toList ++ [] ++ ": ".toList ++ t =
      "mismatch in parameter: ".toList ++ t := fun t => rfl
  unfold mismatchMessage
  by_cases h : 1 < keys.length
  · rw [if_pos h, e]
    refine ⟨⟨fun _ => List.prefix_append _ _, fun _ => h⟩, ⟨fun h' => by omega, fun h' => ?_⟩⟩
    exact absurd h' (by simp)
  · rw [if_neg h, e']
    refine ⟨⟨fun h' => by omega, fun h' => ?_⟩, ⟨fun _ => List.prefix_append _ _, fun _ => by omega⟩⟩
    exact absurd h' (by simp)

/-- C149: the text of a `MissingRequiredVariable` tells its name. -/
theorem missing_message_tells {s t : Text} (h : missingMessage s = missingMessage t) : s = t := by
  unfold missingMessage at h
  rw [List.append_assoc, List.append_assoc] at h
  exact (pyRepr_prefix (List.append_cancel_left h)).1

/-- C149: and the text of `plot_file` tells what xarray said. -/
theorem plot_file_message_tells {s t : Text} (h : plotFileMessage s = plotFileMessage t) : s = t := by
  have h1 := missing_message_tells h
  have h2 : pyRepr s ++ [] = pyRepr t ++ [] := by rw [h1]
  exact (pyRepr_prefix h2).1

/-- C149, negation: but `plot_file` puts what xarray said in quotes twice, so its text is never the
one that the error has for the name. -/
theorem plot_file_quotes_twice (s : Text) : plotFileMessage s ≠ missingMessage s := by
  intro h
  have h1 := missing_message_tells h
  have hlen : ∀ (q : Char) (s : Text), s.length ≤ (s.flatMap (escChar q)).length := by
    intro q s
    induction s with
    | nil => simp
    | cons c s ih =>
      rw [List.flatMap_cons, List.length_append, List.length_cons]
      have : 1 ≤ (escChar q c).length := by
        unfold escChar
        split_ifs <;> simp
      omega
  have h2 := congrArg List.length h1
  have h3 := hlen (quoteOf s) s
  unfold pyRepr at h2
  simp only [List.length_cons, List.length_append, List.length_nil] at h2
  omega

/-! ### Concrete cases -/

example : String.ofList (mismatchMessage ["sediment_load".toList, "plain_slope".toList]) =
    "mismatch in parameters: 'sediment_load', 'plain_slope'" := by decide +kernel

example : String.ofList (mismatchMessage ["alpha".toList]) = "mismatch in parameter: 'alpha'" := by
  decide +kernel

example : String.ofList (mismatchMessage ["a', 'b".toList]) =
    "mismatch in parameter: \"a', 'b\"" := by decide +kernel

example : String.ofList (missingMessage "row".toList) =
    "requireed variable ('row') is missing from output file" := by decide +kernel

example : String.ofList (plotFileMessage "at_layer:age".toList) =
    "requireed variable (\"'at_layer:age'\") is missing from output file" := by decide +kernel

end Verif.Props
