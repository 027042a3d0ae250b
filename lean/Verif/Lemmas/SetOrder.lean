import Verif.Lemmas.Prelude
import Verif.Lemmas.Failure
import Verif.Lemmas.Doc
import Verif.Lemmas.RunCommand
import Verif.Spec.SetOrder

/-!
# Changes of parameters commute
-/

set_option autoImplicit false
set_option linter.unusedSectionVars false

namespace Verif

open Spec

/-! ### Functions that may fail -/

/-- Two steps that may be exchanged. -/
def Commute' {S : Type*} (f g : S → Except Err S) : Prop :=
  ∀ s, (f s).toOption.bind (fun s' => (g s').toOption) =
    (g s).toOption.bind (fun s' => (f s').toOption)

theorem Commute'.symm {S : Type*} {f g : S → Except Err S} (h : Commute' f g) : Commute' g f :=
  fun s => (h s).symm

/-- One step after the other, without the errors. -/
def stepAll {S I : Type*} (f : I → S → Except Err S) : List I → S → Option S
  | [], s => some s
  | i :: is, s => (f i s).toOption.bind (stepAll f is)

theorem stepAll_append {S I : Type*} (f : I → S → Except Err S) (is js : List I) (s : S) :
    stepAll f (is ++ js) s = (stepAll f is s).bind (stepAll f js) := by
  induction is generalizing s with
  | nil => rfl
  | cons i is ih =>
    simp only [List.cons_append, stepAll]
    cases (f i s).toOption with
    | none => rfl
    | some s' => simp [ih]

theorem stepAll_perm {S I : Type*} {f : I → S → Except Err S} {is js : List I} (h : is.Perm js)
    (hc : is.Pairwise fun i j => Commute' (f i) (f j)) (s : S) :
    stepAll f is s = stepAll f js s := by
  induction h generalizing s with
  | nil => rfl
  | cons i _ ih =>
    simp only [stepAll]
    cases (f i s).toOption with
    | none => rfl
    | some s' => exact ih (List.pairwise_cons.mp hc).2 s'
  | swap i j l =>
    have h1 : Commute' (f j) (f i) := (List.pairwise_cons.mp hc).1 i (by simp)
    have h2 := h1 s
    simp only [stepAll]
    rw [← Option.bind_assoc, h2, Option.bind_assoc]
  | trans h1 _ ih1 ih2 =>
    rw [ih1 hc s]
    refine ih2 ?_ s
    exact (h1.pairwise_iff (fun h => Commute'.symm h)).mp hc

section

variable {K A : Type*} {R C : ℕ} [Field K] [LinearOrder K]

/-! ### `setattr` on one class -/

theorem seaLevelSetattr_comm (inp : Inputs K) {n n' : String} (h : n ≠ n') (v v' : PyValue) :
    Commute' (fun s : Curve K × K => seaLevelSetattr inp n v s.1 s.2)
      (fun s => seaLevelSetattr inp n' v' s.1 s.2) := by
  rintro ⟨f, t⟩
  simp only [seaLevelSetattr]
  by_cases a : n = "filepath"
  · have a' : n' ≠ "filepath" := fun e => h (a.trans e.symm)
    simp only [if_pos a, if_neg a']
    by_cases b' : n' = "time"
    · simp only [if_pos b']
      rcases pyToFloat (K := K) v' with e | x <;> rcases v with (_ | _ | p | _ | _) | d <;>
        simp [Except.toOption]
      rcases inp.seaFile p with e | g <;> simp
      cases inp.seaFromFile <;> simp
    · simp only [if_neg b']
      rcases v with (_ | _ | p | _ | _) | d <;> simp [Except.toOption]
  · simp only [if_neg a]
    by_cases a' : n' = "filepath"
    · simp only [if_pos a']
      by_cases b : n = "time"
      · simp only [if_pos b]
        rcases pyToFloat (K := K) v with e | x <;> rcases v' with (_ | _ | p | _ | _) | d <;>
          simp [Except.toOption]
        rcases inp.seaFile p with e | g <;> simp
        cases inp.seaFromFile <;> simp
      · simp only [if_neg b]
        rcases v' with (_ | _ | p | _ | _) | d <;> simp [Except.toOption]
    · simp only [if_neg a']
      by_cases b : n = "time"
      · have b' : n' ≠ "time" := fun e => h (b.trans e.symm)
        simp only [if_pos b, if_neg b']
        rcases pyToFloat (K := K) v with e | x <;> simp [Except.toOption]
      · simp only [if_neg b]
        by_cases b' : n' = "time"
        · simp only [if_pos b']
          rcases pyToFloat (K := K) v' with e | x <;> simp [Except.toOption]
        · simp only [if_neg b']

theorem subsidenceSetattr_comm (inp : Inputs K) (x : Fin C → K) {n n' : String} (h : n ≠ n')
    (v v' : PyValue) :
    Commute' (subsidenceSetattr inp x n v) (subsidenceSetattr inp x n' v') := by
  intro r
  simp only [subsidenceSetattr]
  by_cases a : n = "filepath"
  · have a' : n' ≠ "filepath" := fun e => h (a.trans e.symm)
    simp only [if_pos a, if_neg a']
    by_cases b' : n' = "subsidence_rate" ∨ n' = "time"
    · simp only [if_pos b']
      simp [Except.toOption]
    · simp only [if_neg b']
      simp [Except.toOption]
  · simp only [if_neg a]
    by_cases a' : n' = "filepath"
    · simp only [if_pos a']
      by_cases b : n = "subsidence_rate" ∨ n = "time"
      · simp only [if_pos b]
        simp [Except.toOption]
      · simp only [if_neg b]
        simp [Except.toOption]
    · simp only [if_neg a']
      split_ifs <;> simp [Except.toOption]

/-- The value is checked, then stored. -/
theorem commute_stored {S V : Type*} {f g : S → Except Err S} {a b : Except Err V}
    {put put' : V → S → S} (hf : ∀ s, (f s).toOption = a.toOption.map (put · s))
    (hg : ∀ s, (g s).toOption = b.toOption.map (put' · s))
    (h : ∀ x y s, put y (put' x s) = put' x (put y s)) : Commute' f g := by
  intro s
  simp only [hf, hg]
  rcases a with e | x <;> rcases b with e' | y <;> simp [Except.toOption, h]

theorem commute_id {S : Type*} {f g : S → Except Err S} (hf : ∀ s, f s = .ok s) :
    Commute' f g := by
  intro s
  simp only [hf]
  rcases h : g s with e | s' <;> simp [Except.toOption, h]

theorem commute_error {S : Type*} {f g : S → Except Err S} {e : Err} (hf : ∀ s, f s = .error e) :
    Commute' f g := by
  intro s
  simp only [hf]
  rcases g s with e | s' <;> simp [Except.toOption]

/-- An attribute of `Fluvial`. -/
def fluvialPut (n : String) (a : K) (P : FluvialParams K) : FluvialParams K :=
  if n = "sand_frac" then { P with sandFrac := a }
  else if n = "sediment_load" then { P with load := a }
  else if n = "sand_density" then { P with sandDensity := a }
  else if n = "plain_slope" then { P with plainSlope := a }
  else if n = "wave_base" then { P with waveBase := a }
  else if n = "hemi" then { P with hemi := a }
  else P

theorem fluvialPut_sand_frac (a : K) (P : FluvialParams K) :
    fluvialPut "sand_frac" a P = { P with sandFrac := a } := by simp [fluvialPut]

theorem fluvialPut_sediment_load (a : K) (P : FluvialParams K) :
    fluvialPut "sediment_load" a P = { P with load := a } := by simp [fluvialPut]

theorem fluvialPut_sand_density (a : K) (P : FluvialParams K) :
    fluvialPut "sand_density" a P = { P with sandDensity := a } := by simp [fluvialPut]

theorem fluvialPut_plain_slope (a : K) (P : FluvialParams K) :
    fluvialPut "plain_slope" a P = { P with plainSlope := a } := by simp [fluvialPut]

theorem fluvialPut_wave_base (a : K) (P : FluvialParams K) :
    fluvialPut "wave_base" a P = { P with waveBase := a } := by simp [fluvialPut]

theorem fluvialPut_hemi (a : K) (P : FluvialParams K) :
    fluvialPut "hemi" a P = { P with hemi := a } := by simp [fluvialPut]

theorem fluvialPut_comm {n n' : String} (h : n ≠ n')
    (hn : n ∈ ["sand_frac", "sediment_load", "sand_density", "plain_slope", "wave_base", "hemi"])
    (hn' : n' ∈ ["sand_frac", "sediment_load", "sand_density", "plain_slope", "wave_base", "hemi"])
    (a a' : K) (P : FluvialParams K) :
    fluvialPut n a (fluvialPut n' a' P) = fluvialPut n' a' (fluvialPut n a P) := by
  simp only [List.mem_cons, List.not_mem_nil, or_false] at hn hn'
  rcases hn with rfl | rfl | rfl | rfl | rfl | rfl <;>
    rcases hn' with rfl | rfl | rfl | rfl | rfl | rfl <;>
    first
    | exact absurd rfl h
    | simp only [fluvialPut_sand_frac, fluvialPut_sediment_load, fluvialPut_sand_density,
        fluvialPut_plain_slope, fluvialPut_wave_base, fluvialPut_hemi]

theorem fluvialSetattr_put (n : String) (v : PyValue) (P : FluvialParams K)
    (hn : n ∈ ["sand_frac", "sediment_load", "sand_density", "plain_slope", "wave_base", "hemi"]) :
    (fluvialSetattr n v P).toOption = (pyToFloat v).toOption.map (fluvialPut n · P) := by
  simp only [fluvialSetattr, if_pos hn]
  rcases pyToFloat (K := K) v with e | x
  · rfl
  · simp only [fluvialPut, Except.toOption, Option.map_some]
    split_ifs <;> first | rfl | skip
    simp_all

theorem fluvialSetattr_comm {n n' : String} (h : n ≠ n') (v v' : PyValue) :
    Commute' (fluvialSetattr (K := K) n v) (fluvialSetattr n' v') := by
  by_cases a : n ∈ ["sand_frac", "sediment_load", "sand_density", "plain_slope", "wave_base",
      "hemi"]
  · by_cases b : n' ∈ ["sand_frac", "sediment_load", "sand_density", "plain_slope", "wave_base",
      "hemi"]
    · exact commute_stored (fun P => fluvialSetattr_put n v P a)
        (fun P => fluvialSetattr_put n' v' P b) fun x y P => fluvialPut_comm h a b _ _ _
    · exact (commute_id fun P => by simp only [fluvialSetattr, if_neg b]).symm
  · exact commute_id fun P => by simp only [fluvialSetattr, if_neg a]

/-- An attribute of `SubmarineDiffuser`. -/
def diffuserPut (n : String) (a : K) (s : Diffuser R C K × World R C K) :
    Diffuser R C K × World R C K :=
  if n = "plain_slope" then (s.1.setPlainSlope a, s.2)
  else if n = "wave_base" then ({ s.1 with waveBase := a }, s.2)
  else if n = "shoreface_height" then ({ s.1 with shorefaceHeight := a }, s.2)
  else if n = "alpha" then ({ s.1 with alpha := a }, s.2)
  else if n = "shelf_slope" then ({ s.1 with shelfSlope := a }, s.2)
  else if n = "sediment_load" then (s.1.setSedimentLoad a, s.2)
  else (s.1, { s.2 with seaLevel := a })

theorem diffuserPut_plain_slope (a : K) (s : Diffuser R C K × World R C K) :
    diffuserPut "plain_slope" a s = (s.1.setPlainSlope a, s.2) := by simp [diffuserPut]

theorem diffuserPut_wave_base (a : K) (s : Diffuser R C K × World R C K) :
    diffuserPut "wave_base" a s = ({ s.1 with waveBase := a }, s.2) := by simp [diffuserPut]

theorem diffuserPut_shoreface_height (a : K) (s : Diffuser R C K × World R C K) :
    diffuserPut "shoreface_height" a s = ({ s.1 with shorefaceHeight := a }, s.2) := by simp [diffuserPut]

theorem diffuserPut_alpha (a : K) (s : Diffuser R C K × World R C K) :
    diffuserPut "alpha" a s = ({ s.1 with alpha := a }, s.2) := by simp [diffuserPut]

theorem diffuserPut_shelf_slope (a : K) (s : Diffuser R C K × World R C K) :
    diffuserPut "shelf_slope" a s = ({ s.1 with shelfSlope := a }, s.2) := by simp [diffuserPut]

theorem diffuserPut_sediment_load (a : K) (s : Diffuser R C K × World R C K) :
    diffuserPut "sediment_load" a s = (s.1.setSedimentLoad a, s.2) := by simp [diffuserPut]

theorem diffuserPut_sea_level (a : K) (s : Diffuser R C K × World R C K) :
    diffuserPut "sea_level" a s = (s.1, { s.2 with seaLevel := a }) := by simp [diffuserPut]

theorem diffuserPut_comm {n n' : String} (h : n ≠ n')
    (hn : n ∈ ["plain_slope", "wave_base", "shoreface_height", "alpha", "shelf_slope",
      "sediment_load", "sea_level"])
    (hn' : n' ∈ ["plain_slope", "wave_base", "shoreface_height", "alpha", "shelf_slope",
      "sediment_load", "sea_level"]) (a a' : K) (s : Diffuser R C K × World R C K) :
    diffuserPut n a (diffuserPut n' a' s) = diffuserPut n' a' (diffuserPut n a s) := by
  simp only [List.mem_cons, List.not_mem_nil, or_false] at hn hn'
  rcases hn with rfl | rfl | rfl | rfl | rfl | rfl | rfl <;>
    rcases hn' with rfl | rfl | rfl | rfl | rfl | rfl | rfl <;>
    first
    | exact absurd rfl h
    | simp only [diffuserPut_plain_slope, diffuserPut_wave_base, diffuserPut_shoreface_height,
        diffuserPut_alpha, diffuserPut_shelf_slope, diffuserPut_sediment_load,
        diffuserPut_sea_level, Diffuser.setPlainSlope, Diffuser.setSedimentLoad]

/-- The value of an attribute of `SubmarineDiffuser`. -/
def diffuserArg (n : String) (v : PyValue) : Except Err K :=
  match (pyToFloat v : Except Err K) with
  | .error e => .error e
  | .ok a => if n = "plain_slope" ∧ a = 0 then .error .zeroDivision else .ok a

theorem diffuserSetattr_put (n : String) (v : PyValue) (s : Diffuser R C K × World R C K)
    (h0 : ¬ (n = "load0" ∨ n = "k_land" ∨ n = "time"))
    (hn : n ∈ ["plain_slope", "wave_base", "shoreface_height", "alpha", "shelf_slope",
      "sediment_load", "sea_level"]) :
    (diffuserSetattr n v s.1 s.2).toOption =
      (diffuserArg n v).toOption.map (diffuserPut n · s) := by
  simp only [diffuserSetattr, if_neg h0, if_pos hn, diffuserArg]
  rcases pyToFloat (K := K) v with e | x
  · rfl
  · simp only [diffuserPut]
    by_cases a : n = "plain_slope"
    · simp only [a, true_and]
      split_ifs <;> rfl
    · simp only [a, false_and, if_false]
      split_ifs <;> rfl

theorem diffuserSetattr_comm {n n' : String} (h : n ≠ n') (v v' : PyValue) :
    Commute' (fun s : Diffuser R C K × World R C K => diffuserSetattr n v s.1 s.2)
      (fun s => diffuserSetattr n' v' s.1 s.2) := by
  by_cases a0 : n = "load0" ∨ n = "k_land" ∨ n = "time"
  · exact commute_error fun s => by simp only [diffuserSetattr, if_pos a0]; rfl
  by_cases b0 : n' = "load0" ∨ n' = "k_land" ∨ n' = "time"
  · exact (commute_error fun s => by simp only [diffuserSetattr, if_pos b0]; rfl).symm
  by_cases a : n ∈ ["plain_slope", "wave_base", "shoreface_height", "alpha", "shelf_slope",
      "sediment_load", "sea_level"]
  · by_cases b : n' ∈ ["plain_slope", "wave_base", "shoreface_height", "alpha", "shelf_slope",
      "sediment_load", "sea_level"]
    · exact commute_stored (fun s => diffuserSetattr_put n v s a0 a)
        (fun s => diffuserSetattr_put n' v' s b0 b) fun x y s => diffuserPut_comm h a b _ _ _
    · exact (commute_id fun s => by simp only [diffuserSetattr, if_neg b0, if_neg b]).symm
  · exact commute_id fun s => by simp only [diffuserSetattr, if_neg a0, if_neg a]

theorem writerSetattr_comm {n n' : String} (h : n ≠ n') (v v' : PyValue) :
    Commute' (writerSetattr (K := K) (A := A) n v) (writerSetattr n' v') := by
  have key : ∀ m m' : String, ∀ u u' : PyValue, m = "filepath" → m' ≠ "filepath" →
      Commute' (writerSetattr (K := K) (A := A) m u) (writerSetattr m' u') := by
    intro m m' u u' hm hm' s
    simp only [writerSetattr, if_pos hm, if_neg hm']
    by_cases b : m' = "interval"
    · simp only [if_pos b]
      rcases checkInterval (pyToInterval u' : PyNumber K) with e | i <;>
        rcases u with (_ | _ | p | _ | _) | d <;> simp [Except.toOption]
      rcases hq : setFilepath s.1.clobber (some s.1.filepath) p s.2 with ⟨⟨q, fs⟩, e | u⟩ <;> simp
    · simp only [if_neg b]
      by_cases c : m' = "fields"
      · simp only [if_pos c]
        rcases pyToNames u' with e | i <;>
          rcases u with (_ | _ | p | _ | _) | d <;> simp [Except.toOption]
        rcases hq : setFilepath s.1.clobber (some s.1.filepath) p s.2 with ⟨⟨q, fs⟩, e | u⟩ <;> simp
      · simp only [if_neg c]
        rcases u with (_ | _ | p | _ | _) | d <;> simp [Except.toOption]
  by_cases a : n = "filepath"
  · exact key n n' v v' a fun e => h (a.trans e.symm)
  by_cases a' : n' = "filepath"
  · exact (key n' n v' v a' a).symm
  intro s
  simp only [writerSetattr, if_neg a, if_neg a']
  by_cases b : n = "interval"
  · have b' : n' ≠ "interval" := fun e => h (b.trans e.symm)
    simp only [if_pos b, if_neg b']
    rcases checkInterval (pyToInterval v : PyNumber K) with e | i <;>
      by_cases c : n' = "fields" <;> simp [Except.toOption, c] <;>
      rcases pyToNames v' with e' | i' <;> simp
  · simp only [if_neg b]
    by_cases b' : n' = "interval"
    · simp only [if_pos b']
      rcases checkInterval (pyToInterval v' : PyNumber K) with e | i <;>
        by_cases c : n = "fields" <;> simp [Except.toOption, c] <;>
        rcases pyToNames v with e' | i' <;> simp
    · simp only [if_neg b']
      by_cases c : n = "fields"
      · have c' : n' ≠ "fields" := fun e => h (c.trans e.symm)
        simp only [if_pos c, if_neg c']
        simp [Except.toOption]
      · simp only [if_neg c]
        simp [Except.toOption]

/-! ### `setattr` on a process -/

/-- The attributes of the process with a name. -/
def copyPart (c : String) (u s : ProcState R C K × World R (C + 2) K) :
    ProcState R C K × World R (C + 2) K :=
  if c = "sea_level" then ({ s.1 with seaTime := u.1.seaTime }, s.2)
  else if c = "subsidence" then ({ s.1 with rate := u.1.rate }, s.2)
  else if c = "submarine_diffusion" then
    ({ s.1 with diffuser := u.1.diffuser }, { s.2 with seaLevel := u.2.seaLevel })
  else s

theorem copyPart_comm {c c' : String} (h : c ≠ c') (u u' s : ProcState R C K × World R (C + 2) K) :
    copyPart c u (copyPart c' u' s) = copyPart c' u' (copyPart c u s) := by
  unfold copyPart
  by_cases a : c = "sea_level"
  · have a' : c' ≠ "sea_level" := fun e => h (a.trans e.symm)
    simp only [if_pos a, if_neg a']
    split_ifs <;> rfl
  · simp only [if_neg a]
    by_cases a' : c' = "sea_level"
    · simp only [if_pos a']
      split_ifs <;> rfl
    · simp only [if_neg a']
      by_cases b : c = "subsidence"
      · have b' : c' ≠ "subsidence" := fun e => h (b.trans e.symm)
        simp only [if_pos b, if_neg b']
        split_ifs <;> rfl
      · simp only [if_neg b]
        by_cases b' : c' = "subsidence"
        · simp only [if_pos b']
          split_ifs <;> rfl
        · simp only [if_neg b']
          by_cases d : c = "submarine_diffusion"
          · have d' : c' ≠ "submarine_diffusion" := fun e => h (d.trans e.symm)
            simp only [if_pos d, if_neg d']
          · simp only [if_neg d]

theorem diffuserPut_world (n : String) (a : K) (s : Diffuser R C K × World R C K) :
    (diffuserPut n a s).2 = { s.2 with seaLevel := (diffuserPut n a s).2.seaLevel } := by
  unfold diffuserPut
  split_ifs <;> rfl

theorem diffuserSetattr_world {n : String} {v : PyValue} {d d' : Diffuser R C K}
    {w w' : World R C K} (h : diffuserSetattr n v d w = .ok (d', w')) :
    w' = { w with seaLevel := w'.seaLevel } := by
  by_cases a0 : n = "load0" ∨ n = "k_land" ∨ n = "time"
  · simp only [diffuserSetattr, if_pos a0] at h
    cases h
  by_cases a : n ∈ ["plain_slope", "wave_base", "shoreface_height", "alpha", "shelf_slope",
      "sediment_load", "sea_level"]
  · have h1 := diffuserSetattr_put n v (d, w) a0 a
    rw [h] at h1
    rcases hx : diffuserArg (K := K) n v with e | x
    · rw [hx] at h1; cases h1
    · simp only [hx, Except.toOption, Option.map_some, Option.some.injEq] at h1
      have h2 := diffuserPut_world n x (d, w)
      rw [← h1] at h2
      exact h2
  · simp only [diffuserSetattr, if_neg a0, if_neg a] at h
    cases h; rfl

theorem Process.setattr_own {env : Env R C K} {inp : Inputs K} {name : String} {v : PyValue}
    {p p' : Process K} {s t : ProcState R C K × World R (C + 2) K}
    (h : p.setattr env inp name v s = .ok (p', t)) : t = copyPart p.name t s := by
  cases p <;> simp only [Process.setattr] at h
  case compaction => cases h; simp [copyPart, Process.name]
  case diffusion P =>
    split at h
    · cases h
    · rename_i d w hd
      cases h
      have := diffuserSetattr_world hd
      simp [copyPart, Process.name, ← this]
  all_goals
    split at h
    · cases h
    · cases h; simp [copyPart, Process.name]

theorem copyPart_seaTime {c : String} (h : c ≠ "sea_level")
    (u s : ProcState R C K × World R (C + 2) K) :
    (copyPart c u s).1.seaTime = s.1.seaTime := by
  unfold copyPart; simp only [if_neg h]; split_ifs <;> rfl

theorem copyPart_rate {c : String} (h : c ≠ "subsidence")
    (u s : ProcState R C K × World R (C + 2) K) : (copyPart c u s).1.rate = s.1.rate := by
  unfold copyPart; simp only [if_neg h]; split_ifs <;> rfl

theorem copyPart_diffuser {c : String} (h : c ≠ "submarine_diffusion")
    (u s : ProcState R C K × World R (C + 2) K) :
    (copyPart c u s).1.diffuser = s.1.diffuser ∧ (copyPart c u s).2 = s.2 := by
  unfold copyPart; simp only [if_neg h]; split_ifs <;> exact ⟨rfl, rfl⟩

theorem Process.setattr_frame {env : Env R C K} {inp : Inputs K} {name : String} {v : PyValue}
    {p : Process K} {c : String} (hc : c ≠ p.name) (u s : ProcState R C K × World R (C + 2) K) :
    p.setattr env inp name v (copyPart c u s) =
      (p.setattr env inp name v s).map fun q => (q.1, copyPart c u q.2) := by
  cases p <;> simp only [Process.name] at hc <;> simp only [Process.setattr]
  case seaLevel f t0 =>
    rw [copyPart_seaTime hc]
    rcases seaLevelSetattr inp name v f s.1.seaTime with e | ⟨g, t⟩
    · rfl
    · simp only [Except.map, copyPart, if_neg hc]
      split_ifs <;> rfl
  case subsidence f =>
    rw [copyPart_rate hc]
    rcases subsidenceSetattr inp env.x name v s.1.rate with e | t
    · rfl
    · simp only [Except.map, copyPart, if_neg hc]
      split_ifs <;> rfl
  case compaction => rfl
  case diffusion P =>
    rw [(copyPart_diffuser hc _ _).1, (copyPart_diffuser hc _ _).2]
    rcases hd : diffuserSetattr name v s.1.diffuser s.2 with e | ⟨d, w⟩
    · rfl
    · simp only [Except.map, copyPart, if_neg hc]
      split_ifs <;> rfl
  case fluvial P => rcases fluvialSetattr name v P with e | t <;> rfl
  case flexure t => rcases flexureSetattr (K := K) true name v with e | t <;> rfl
  case waterFlexure t => rcases flexureSetattr (K := K) false name v with e | t <;> rfl
  case shoreline t => rcases shorelineSetattr name with e | t <;> rfl

/-- Two changes of one process. -/
theorem Process.setattr_comm (env : Env R C K) (inp : Inputs K) {n n' : String} (h : n ≠ n')
    (v v' : PyValue) :
    Commute' (fun q : Process K × ProcState R C K × World R (C + 2) K =>
      q.1.setattr env inp n v q.2) (fun q => q.1.setattr env inp n' v' q.2) := by
  rintro ⟨p, s⟩
  cases p
  case seaLevel f t0 =>
    have := seaLevelSetattr_comm inp h v v' (f, s.1.seaTime)
    simp only [Process.setattr]
    rcases h1 : seaLevelSetattr inp n v f s.1.seaTime with e | ⟨g, t⟩ <;>
      rcases h2 : seaLevelSetattr inp n' v' f s.1.seaTime with e' | ⟨g', t'⟩ <;>
      simp only [h1, h2, Except.toOption, Option.bind_some, Option.bind_none] at this ⊢
    · rcases h3 : seaLevelSetattr inp n v g' t' with e | u <;> simp only [h3] at this ⊢
      cases this
    · rcases h3 : seaLevelSetattr inp n' v' g t with e | u <;> simp only [h3] at this ⊢
      cases this
    · rcases h3 : seaLevelSetattr inp n' v' g t with e | u <;>
        rcases h4 : seaLevelSetattr inp n v g' t' with e' | u' <;> simp only [h3, h4] at this ⊢
      all_goals cases this
      rfl
  case subsidence f =>
    have := subsidenceSetattr_comm inp env.x h v v' s.1.rate
    simp only [Process.setattr]
    rcases h1 : subsidenceSetattr inp env.x n v s.1.rate with e | g <;>
      rcases h2 : subsidenceSetattr inp env.x n' v' s.1.rate with e' | g' <;>
      simp only [h1, h2, Except.toOption, Option.bind_some, Option.bind_none] at this ⊢
    · rcases h3 : subsidenceSetattr inp env.x n v g' with e | u <;> simp only [h3] at this ⊢
      cases this
    · rcases h3 : subsidenceSetattr inp env.x n' v' g with e | u <;> simp only [h3] at this ⊢
      cases this
    · rcases h3 : subsidenceSetattr inp env.x n' v' g with e | u <;>
        rcases h4 : subsidenceSetattr inp env.x n v g' with e' | u' <;>
        simp only [h3, h4] at this ⊢
      all_goals cases this
      rfl
  case compaction => rfl
  case diffusion P =>
    have := diffuserSetattr_comm h v v' (s.1.diffuser, s.2)
    simp only [Process.setattr]
    rcases h1 : diffuserSetattr n v s.1.diffuser s.2 with e | ⟨g, t⟩ <;>
      rcases h2 : diffuserSetattr n' v' s.1.diffuser s.2 with e' | ⟨g', t'⟩ <;>
      simp only [h1, h2, Except.toOption, Option.bind_some, Option.bind_none] at this ⊢
    · rcases h3 : diffuserSetattr n v g' t' with e | u <;> simp only [h3] at this ⊢
      cases this
    · rcases h3 : diffuserSetattr n' v' g t with e | u <;> simp only [h3] at this ⊢
      cases this
    · rcases h3 : diffuserSetattr n' v' g t with e | u <;>
        rcases h4 : diffuserSetattr n v g' t' with e' | u' <;> simp only [h3, h4] at this ⊢
      all_goals cases this
      rfl
  case fluvial P =>
    have := fluvialSetattr_comm h v v' P
    simp only [Process.setattr]
    rcases h1 : fluvialSetattr n v P with e | g <;>
      rcases h2 : fluvialSetattr n' v' P with e' | g' <;>
      simp only [h1, h2, Except.toOption, Option.bind_some, Option.bind_none] at this ⊢
    · rcases h3 : fluvialSetattr n v g' with e | u <;> simp only [h3] at this ⊢
      cases this
    · rcases h3 : fluvialSetattr n' v' g with e | u <;> simp only [h3] at this ⊢
      cases this
    · rcases h3 : fluvialSetattr n' v' g with e | u <;>
        rcases h4 : fluvialSetattr n v g' with e' | u' <;> simp only [h3, h4] at this ⊢
      all_goals cases this
      rfl
  case flexure t =>
    simp only [Process.setattr]
    rcases h1 : flexureSetattr (K := K) true n v with e | g <;>
      rcases h2 : flexureSetattr (K := K) true n' v' with e' | g' <;> simp [Except.toOption, h1, h2]
  case waterFlexure t =>
    simp only [Process.setattr]
    rcases h1 : flexureSetattr (K := K) false n v with e | g <;>
      rcases h2 : flexureSetattr (K := K) false n' v' with e' | g' <;>
      simp [Except.toOption, h1, h2]
  case shoreline t =>
    simp only [Process.setattr]
    rcases h1 : shorelineSetattr n with e | g <;>
      rcases h2 : shorelineSetattr n' with e' | g' <;> simp [Except.toOption, h1, h2]

/-! ### `setattr` on a list of processes -/

theorem setattrNamed_own {env : Env R C K} {inp : Inputs K} {c name : String} {v : PyValue}
    {ps ps' : List (Process K)} {s t : ProcState R C K × World R (C + 2) K}
    (h : setattrNamed env inp c name v ps s = .ok (ps', t)) : t = copyPart c t s := by
  induction ps generalizing ps' with
  | nil => cases h
  | cons p ps ih =>
    simp only [setattrNamed] at h
    split_ifs at h with hc
    · split at h
      · cases h
      · rename_i p' s' hp
        cases h
        rw [← hc]
        exact Process.setattr_own hp
    · split at h
      · cases h
      · rename_i qs s' hp
        cases h
        exact ih hp

theorem setattrNamed_frame {env : Env R C K} {inp : Inputs K} {c c' name : String} {v : PyValue}
    (hc : c' ≠ c) (u : ProcState R C K × World R (C + 2) K) (ps : List (Process K))
    (s : ProcState R C K × World R (C + 2) K) :
    setattrNamed env inp c name v ps (copyPart c' u s) =
      (setattrNamed env inp c name v ps s).map fun q => (q.1, copyPart c' u q.2) := by
  induction ps with
  | nil => rfl
  | cons p ps ih =>
    simp only [setattrNamed]
    by_cases hp : p.name = c
    · simp only [if_pos hp]
      rw [Process.setattr_frame (by rw [hp]; exact hc)]
      rcases p.setattr env inp name v s with e | ⟨p', s'⟩ <;> rfl
    · simp only [if_neg hp]
      rw [ih]
      rcases setattrNamed env inp c name v ps s with e | ⟨p', s'⟩ <;> rfl

theorem setattrNamed_comm (env : Env R C K) (inp : Inputs K) {c c' n n' : String}
    (h : (c, n) ≠ (c', n')) (v v' : PyValue) :
    Commute' (fun q : List (Process K) × ProcState R C K × World R (C + 2) K =>
      setattrNamed env inp c n v q.1 q.2) (fun q => setattrNamed env inp c' n' v' q.1 q.2) := by
  rintro ⟨ps, s⟩
  induction ps generalizing s with
  | nil => rfl
  | cons p ps ih =>
    simp only at ih ⊢
    have far : ∀ a a' m m' : String, ∀ u u' : PyValue, p.name = a → p.name ≠ a' →
        ((setattrNamed env inp a m u (p :: ps) s).toOption.bind fun q =>
          (setattrNamed env inp a' m' u' q.1 q.2).toOption) =
        ((setattrNamed env inp a' m' u' (p :: ps) s).toOption.bind fun q =>
          (setattrNamed env inp a m u q.1 q.2).toOption) := by
      intro a a' m m' u u' ha ha'
      simp only [setattrNamed, if_pos ha, if_neg ha']
      rcases h1 : p.setattr env inp m u s with e | ⟨p', s1⟩
      · rcases h2 : setattrNamed env inp a' m' u' ps s with e' | ⟨ps', s2⟩
        · rfl
        · have h3 := setattrNamed_own h2
          have k := Process.setattr_frame (env := env) (inp := inp) (name := m) (v := u) (p := p)
            ha'.symm s2 s
          rw [← h3, h1] at k
          simp only [Except.toOption, Option.bind_some, Option.bind_none, setattrNamed, if_pos ha]
          rw [k]
          rfl
      · have h1' : p'.name ≠ a' := by rw [Process.setattr_name h1]; exact ha'
        have h3 := Process.setattr_own h1
        have k := setattrNamed_frame (env := env) (inp := inp) (name := m') (v := u') ha' s1 ps s
        rw [← h3] at k
        simp only [Except.toOption, Option.bind_some, setattrNamed, if_neg h1']
        rw [k]
        rcases h2 : setattrNamed env inp a' m' u' ps s with e' | ⟨ps', s2⟩
        · rfl
        · have h4 := setattrNamed_own h2
          have k' := Process.setattr_frame (env := env) (inp := inp) (name := m) (v := u) (p := p)
            ha'.symm s2 s
          rw [← h4, h1] at k'
          simp only [Except.map, Option.bind_some, setattrNamed, if_pos ha]
          rw [k']
          simp only [Except.map]
          have e := copyPart_comm ha' s1 s2 s
          rw [← h4, ← h3] at e
          rw [e]
    by_cases hp : p.name = c
    · by_cases hp' : p.name = c'
      · have hn : n ≠ n' := fun e => h (by rw [← hp, ← hp', e])
        have := Process.setattr_comm env inp hn v v' (p, s)
        simp only [setattrNamed, if_pos hp, if_pos hp']
        rcases h1 : p.setattr env inp n v s with e | ⟨p1, s1⟩ <;>
          rcases h2 : p.setattr env inp n' v' s with e' | ⟨p2, s2⟩ <;>
          simp only [h1, h2, Except.toOption, Option.bind_some, Option.bind_none, setattrNamed]
            at this ⊢
        · have k2 : p2.name = c := (Process.setattr_name h2).trans hp
          simp only [if_pos k2]
          rcases h3 : p2.setattr env inp n v s2 with e | u <;> simp only [h3] at this ⊢
          cases this
        · have k1 : p1.name = c' := (Process.setattr_name h1).trans hp'
          simp only [if_pos k1]
          rcases h3 : p1.setattr env inp n' v' s1 with e | u <;> simp only [h3] at this ⊢
          cases this
        · have k2 : p2.name = c := (Process.setattr_name h2).trans hp
          have k1 : p1.name = c' := (Process.setattr_name h1).trans hp'
          simp only [if_pos k2, if_pos k1]
          rcases h3 : p2.setattr env inp n v s2 with e | u <;>
            rcases h4 : p1.setattr env inp n' v' s1 with e' | u' <;> simp only [h3, h4] at this ⊢
          all_goals cases this
          rfl
      · exact far c c' n n' v v' hp hp'
    · by_cases hp' : p.name = c'
      · exact (far c' c n' n v' v hp' hp).symm
      · simp only [setattrNamed, if_neg hp, if_neg hp']
        have := ih s
        rcases h1 : setattrNamed env inp c n v ps s with e | ⟨p1, s1⟩ <;>
          rcases h2 : setattrNamed env inp c' n' v' ps s with e' | ⟨p2, s2⟩ <;>
          simp only [h1, h2, Except.toOption, Option.bind_some, Option.bind_none, setattrNamed,
            if_neg hp, if_neg hp'] at this ⊢
        · rcases h3 : setattrNamed env inp c n v p2 s2 with e | u <;> simp only [h3] at this ⊢
          cases this
        · rcases h3 : setattrNamed env inp c' n' v' p1 s1 with e | u <;> simp only [h3] at this ⊢
          cases this
        · rcases h3 : setattrNamed env inp c n v p2 s2 with e | u <;>
            rcases h4 : setattrNamed env inp c' n' v' p1 s1 with e' | u' <;>
            simp only [h3, h4] at this ⊢
          all_goals cases this
          rfl

/-- Two changes of different parameters of a model can be exchanged. -/
theorem Live.setattr_comm (env : Env R C K) (inp : Inputs K) {c c' n n' : String}
    (h : (c, n) ≠ (c', n')) (v v' : PyValue) :
    Commute' (Live.setattr (A := A) env inp c n v) (Live.setattr env inp c' n' v') := by
  have far : ∀ a a' m m' : String, ∀ u u' : PyValue, a = "output" → a' ≠ "output" →
      Commute' (Live.setattr (A := A) env inp a m u) (Live.setattr env inp a' m' u') := by
    intro a a' m m' u u' ha ha' l
    simp only [Live.setattr, if_pos ha, if_neg ha']
    rcases h1 : writerSetattr m u l.state.comps.2 with e | q <;>
      rcases h2 : setattrNamed env inp a' m' u' l.procs (l.state.comps.1, l.state.world) with
        e' | ⟨ps, s, w⟩ <;> simp [Except.toOption, h1, h2]
  by_cases hc : c = "output"
  · by_cases hc' : c' = "output"
    · have hn : n ≠ n' := fun e => h (by rw [hc, hc', e])
      intro l
      have := writerSetattr_comm hn v v' l.state.comps.2
      simp only [Live.setattr, if_pos hc, if_pos hc']
      rcases h1 : writerSetattr n v l.state.comps.2 with e | q <;>
        rcases h2 : writerSetattr n' v' l.state.comps.2 with e' | q' <;>
        simp only [h1, h2, Except.toOption, Option.bind_some, Option.bind_none] at this ⊢
      · rcases h3 : writerSetattr n v q' with e | u <;> simp only [h3] at this ⊢
        cases this
      · rcases h3 : writerSetattr n' v' q with e | u <;> simp only [h3] at this ⊢
        cases this
      · rcases h3 : writerSetattr n v q' with e | u <;>
          rcases h4 : writerSetattr n' v' q with e' | u' <;> simp only [h3, h4] at this ⊢
        all_goals cases this
        rfl
    · exact far c c' n n' v v' hc hc'
  · by_cases hc' : c' = "output"
    · exact (far c' c n' n v' v hc' hc).symm
    · intro l
      have := setattrNamed_comm env inp h v v' (l.procs, l.state.comps.1, l.state.world)
      simp only [Live.setattr, if_neg hc, if_neg hc']
      rcases h1 : setattrNamed env inp c n v l.procs (l.state.comps.1, l.state.world) with
        e | ⟨ps, s, w⟩ <;>
        rcases h2 : setattrNamed env inp c' n' v' l.procs (l.state.comps.1, l.state.world) with
        e' | ⟨ps', s', w'⟩ <;>
        simp only [h1, h2, Except.toOption, Option.bind_some, Option.bind_none] at this ⊢
      · rcases h3 : setattrNamed env inp c n v ps' (s', w') with e | u <;>
          simp only [h3] at this ⊢
        cases this
      · rcases h3 : setattrNamed env inp c' n' v' ps (s, w) with e | u <;>
          simp only [h3] at this ⊢
        cases this
      · rcases h3 : setattrNamed env inp c n v ps' (s', w') with e | u <;>
          rcases h4 : setattrNamed env inp c' n' v' ps (s, w) with e' | u' <;>
          simp only [h3, h4] at this ⊢
        all_goals cases this
        rfl

/-! ### The changes one by one -/

/-- One change: a parameter of a component. -/
def changeOne (env : Env R C K) (inp : Inputs K) (i : List String × Leaf) (l : Live R C K A) :
    Except Err (Live R C K A) :=
  match i.1 with
  | [c, n] => l.setattr env inp c n (.inl i.2.thaw)
  | _ => .error .attributeError

theorem changeOne_comm (env : Env R C K) (inp : Inputs K) {i j : List String × Leaf}
    (h : i.1 ≠ j.1) : Commute' (changeOne (A := A) env inp i) (changeOne env inp j) := by
  obtain ⟨p, v⟩ := i
  obtain ⟨q, u⟩ := j
  rcases p with _ | ⟨c, _ | ⟨n, _ | ⟨x, p⟩⟩⟩
  iterate 2 exact commute_error (e := .attributeError) fun l => rfl
  · rcases q with _ | ⟨c', _ | ⟨n', _ | ⟨x', q⟩⟩⟩
    iterate 2 exact (commute_error (e := .attributeError) fun l => rfl).symm
    · refine Live.setattr_comm env inp (fun e => h ?_) _ _
      cases e; rfl
    · exact (commute_error (e := .attributeError) fun l => rfl).symm
  · exact commute_error (e := .attributeError) fun l => rfl

theorem setattrNamed_keepsNames {env : Env R C K} {inp : Inputs K} {comp name : String}
    {v : PyValue} {ps ps' : List (Process K)} {s s' : ProcState R C K × World R (C + 2) K}
    (h : setattrNamed env inp comp name v ps s = .ok (ps', s')) :
    ps'.map Process.name = ps.map Process.name ∧ comp ∈ ps.map Process.name := by
  induction ps generalizing ps' with
  | nil => cases h
  | cons p ps ih =>
    simp only [setattrNamed] at h
    split_ifs at h with hc
    · split at h
      · cases h
      · rename_i q s1 hq
        cases h
        simp [Process.setattr_name hq, hc]
    · split at h
      · cases h
      · rename_i qs s1 hq
        cases h
        obtain ⟨h1, h2⟩ := ih hq
        simp only [List.map_cons, h1, List.mem_cons, h2, or_true, and_self]

theorem setattr_keepsNames {env : Env R C K} {inp : Inputs K} {comp name : String} {v : PyValue}
    {l l' : Live R C K A} (h : l.setattr env inp comp name v = .ok l') :
    (∀ c, l'.has c = l.has c) ∧ l.has comp = true := by
  unfold Live.setattr at h
  split_ifs at h with hc
  · split at h
    · cases h
    · cases h
      exact ⟨fun _ => rfl, by simp [Live.has, hc]⟩
  · split at h
    · cases h
    · rename_i ps s w hq
      cases h
      obtain ⟨h1, h2⟩ := setattrNamed_keepsNames hq
      refine ⟨fun c => by simp only [Live.has, h1], ?_⟩
      simp only [Live.has, Bool.or_eq_true, List.contains_iff_mem]
      exact .inr h2

/-- A change of a parameter and the changes of other parameters of a section. -/
theorem setSection_comm (env : Env R C K) (inp : Inputs K) {c c' n : String} (v : PyValue)
    (d : Doc) (h : c = c' → n ∉ d.keys) :
    Commute' (Live.setattr (A := A) env inp c n v) (Live.setSection env inp c' d) := by
  have step : ∀ (k : String) (u : PyValue) (r : Doc), (c = c' → n ≠ k) →
      Commute' (Live.setattr (A := A) env inp c n v) (Live.setSection env inp c' r) →
      ∀ l : Live R C K A, ((l.setattr env inp c n v).toOption.bind fun l' =>
        (l'.setattr env inp c' k u).toOption.bind fun l'' =>
          (l''.setSection env inp c' r).toOption) =
        (l.setattr env inp c' k u).toOption.bind fun l' =>
          (l'.setSection env inp c' r).toOption.bind fun l'' =>
            (l''.setattr env inp c n v).toOption := by
    intro k u r hk hr l
    have h1 : Commute' (Live.setattr (A := A) env inp c n v) (Live.setattr env inp c' k u) :=
      Live.setattr_comm env inp (fun e => by
        simp only [Prod.mk.injEq] at e; exact hk e.1 e.2) v u
    rw [← Option.bind_assoc, h1 l, Option.bind_assoc]
    congr 1
    funext l'
    exact hr l'
  induction d with
  | nil =>
    intro l
    simp only [Live.setSection]
    rcases h1 : l.setattr env inp c n v with e | l' <;> simp [Except.toOption, h1]
  | leaf k u r ih =>
    intro l
    have hk : c = c' → n ≠ k := fun e e' => h e (by simp [Doc.keys, e'])
    have := step k (.inl u) r hk (ih fun e e' => h e (by simp [Doc.keys, e'])) l
    have ho : ∀ l : Live R C K A, (l.setSection env inp c' (.leaf k u r)).toOption =
        (l.setattr env inp c' k (.inl u)).toOption.bind
          fun l' => (l'.setSection env inp c' r).toOption := by
      intro l
      simp only [Live.setSection]
      rcases l.setattr env inp c' k (.inl u) with e | l' <;> rfl
    simp only [ho, Option.bind_assoc]
    exact this
  | sub k u r _ ih =>
    intro l
    have hk : c = c' → n ≠ k := fun e e' => h e (by simp [Doc.keys, e'])
    have := step k (.inr u) r hk (ih fun e e' => h e (by simp [Doc.keys, e'])) l
    have ho : ∀ l : Live R C K A, (l.setSection env inp c' (.sub k u r)).toOption =
        (l.setattr env inp c' k (.inr u)).toOption.bind
          fun l' => (l'.setSection env inp c' r).toOption := by
      intro l
      simp only [Live.setSection]
      rcases l.setattr env inp c' k (.inr u) with e | l' <;> rfl
    simp only [ho, Option.bind_assoc]
    exact this

theorem setParams_sub (env : Env R C K) (inp : Inputs K) (k : String) (d r : Doc)
    (l : Live R C K A) : (l.setParams env inp (.sub k d r)).toOption =
      if l.has k then (l.setSection env inp k d).toOption.bind
        fun l' => (l'.setParams env inp r).toOption
      else none := by
  simp only [Live.setParams]
  split_ifs
  · rcases l.setSection env inp k d with e | l' <;> rfl
  · rfl

theorem setParams_leaf (env : Env R C K) (inp : Inputs K) (k : String) (v : Leaf) (r : Doc)
    (l : Live R C K A) : (l.setParams env inp (.leaf k v r)).toOption = none := by
  simp only [Live.setParams]
  split_ifs <;> rfl

/-- A change of a parameter and the changes of other components. -/
theorem setParams_comm (env : Env R C K) (inp : Inputs K) {c n : String} (v : PyValue) (d : Doc)
    (h : c ∉ d.keys) :
    Commute' (Live.setattr (A := A) env inp c n v) (Live.setParams env inp d) := by
  induction d with
  | nil =>
    intro l
    simp only [Live.setParams]
    rcases h1 : l.setattr env inp c n v with e | l' <;> simp [Except.toOption, h1]
  | leaf k u r _ =>
    intro l
    simp only [setParams_leaf, Option.bind_none]
    rcases (l.setattr env inp c n v).toOption with _ | l' <;> rfl
  | sub k s r _ ih =>
    intro l
    simp only [Doc.keys, List.mem_cons, not_or] at h
    simp only [setParams_sub]
    by_cases hk : l.has k = true
    · simp only [if_pos hk]
      have h1 := setSection_comm (A := A) env inp v s (fun e => absurd e h.1 : c = k → n ∉ s.keys) l
      rw [Option.bind_assoc]
      rcases ha : l.setattr env inp c n v with e | l'
      · simp only [ha, Except.toOption, Option.bind_none] at h1 ⊢
        rcases hb : l.setSection env inp k s with e' | l2
        · rfl
        · simp only [hb, Option.bind_some] at h1 ⊢
          have h2 := ih h.2 l2
          simp only [Except.toOption] at h2
          rw [← h2]
          rw [← h1]
          rfl
      · have h3 : l'.has k = true := by rw [(setattr_keepsNames ha).1]; exact hk
        simp only [ha, Except.toOption, Option.bind_some, if_pos h3] at h1 ⊢
        rcases hb : l.setSection env inp k s with e' | l2
        · simp only [hb, Option.bind_none] at h1 ⊢
          rw [h1]
          rfl
        · simp only [hb, Option.bind_some] at h1 ⊢
          have h2 := ih h.2 l2
          simp only [Except.toOption] at h2
          rw [← h2, h1]
    · simp only [if_neg hk, Option.bind_none]
      rcases ha : l.setattr env inp c n v with e | l'
      · rfl
      · have h3 : ¬ l'.has k = true := by rw [(setattr_keepsNames ha).1]; exact hk
        simp only [Except.toOption, Option.bind_some, if_neg h3]

theorem setSection_setLeaf (env : Env R C K) (inp : Inputs K) (c : String) {n : String} (v : Leaf)
    {d : Doc} (h : n ∉ d.keys) (l : Live R C K A) :
    (l.setSection env inp c (d.setLeaf n v)).toOption =
      (l.setSection env inp c d).toOption.bind
        fun l' => (l'.setattr env inp c n (.inl v)).toOption := by
  induction d generalizing l with
  | nil =>
    simp only [Doc.setLeaf, Live.setSection]
    rcases h1 : l.setattr env inp c n (.inl v) with e | l' <;> simp [Except.toOption, h1]
  | leaf k u r ih =>
    simp only [Doc.keys, List.mem_cons, not_or] at h
    simp only [Doc.setLeaf, if_neg (Ne.symm h.1), Live.setSection]
    rcases l.setattr env inp c k (.inl u) with e | l'
    · rfl
    · exact ih h.2 l'
  | sub k u r _ ih =>
    simp only [Doc.keys, List.mem_cons, not_or] at h
    simp only [Doc.setLeaf, if_neg (Ne.symm h.1), Live.setSection]
    rcases l.setattr env inp c k (.inr u) with e | l'
    · rfl
    · exact ih h.2 l'

/-- A dictionary with a parameter more. -/
theorem setParams_add (env : Env R C K) (inp : Inputs K) (c : String) {n : String} (v : Leaf)
    {d : Doc} (hd : DistinctKeys d) (h : n ∉ (d.subOrNil c).keys) (l : Live R C K A) :
    ((Doc.addItem [c, n] v d).toOption.bind fun d' => (l.setParams env inp d').toOption) =
      (l.setParams env inp d).toOption.bind
        fun l' => (l'.setattr env inp c n (.inl v.thaw)).toOption := by
  simp only [Doc.addItem]
  induction d generalizing l with
  | nil =>
    simp only [Doc.inSub, Doc.addItem, Doc.setLeaf, Except.toOption, Option.bind_some]
    have := setParams_sub env inp c (.leaf n v.thaw .nil) .nil l
    simp only [Except.toOption] at this
    rw [this]
    simp only [Live.setSection, Live.setParams, Option.bind_some]
    rcases ha : l.setattr env inp c n (.inl v.thaw) with e | l'
    · simp
    · simp [(setattr_keepsNames ha).2]
  | leaf k u r _ =>
    rw [setParams_leaf, Option.bind_none]
    simp only [Doc.inSub]
    split_ifs
    · rfl
    · rcases r.inSub c (fun x => Except.ok (Doc.setLeaf n v.thaw x)) with e | r'
      · rfl
      · exact setParams_leaf env inp _ _ _ l
  | sub k s r _ ih =>
    simp only [Doc.inSub]
    by_cases hk : k = c
    · subst hk
      have hs : n ∉ s.keys := by simpa [Doc.subOrNil, Doc.find?] using h
      simp only [if_true, Doc.addItem]
      have e1 : ((Except.ok (Doc.sub k (s.setLeaf n v.thaw) r) : Except Err Doc).toOption.bind
          fun d' => (l.setParams env inp d').toOption) =
          (l.setParams env inp (.sub k (s.setLeaf n v.thaw) r)).toOption := rfl
      rw [e1, setParams_sub, setParams_sub]
      split_ifs
      · rw [setSection_setLeaf env inp k v.thaw hs l, Option.bind_assoc, Option.bind_assoc]
        congr 1
        funext l'
        exact setParams_comm env inp (.inl v.thaw) r hd.1 l'
      · rfl
    · simp only [if_neg hk]
      have h' : n ∉ (r.subOrNil c).keys := by
        simpa [Doc.subOrNil, Doc.find?, hk] using h
      have key : ∀ l : Live R C K A, _ := ih hd.2.2 h'
      rw [setParams_sub]
      by_cases hh : l.has k = true
      · simp only [if_pos hh]
        rw [Option.bind_assoc]
        rcases hr : r.inSub c (fun x => Except.ok (Doc.setLeaf n v.thaw x)) with e | r'
        · simp only [hr, Except.toOption, Option.bind_none] at key ⊢
          rcases l.setSection env inp k s with e' | l'
          · rfl
          · exact key l'
        · simp only [hr] at key ⊢
          have e1 : ((Except.ok (Doc.sub k s r') : Except Err Doc).toOption.bind
              fun d' => (l.setParams env inp d').toOption) =
              (l.setParams env inp (.sub k s r')).toOption := rfl
          rw [e1, setParams_sub, if_pos hh]
          congr 1
          funext l'
          exact key l'
      · simp only [if_neg hh, Option.bind_none]
        rcases hr : r.inSub c (fun x => Except.ok (Doc.setLeaf n v.thaw x)) with e | r'
        · rfl
        · have e1 : ((Except.ok (Doc.sub k s r') : Except Err Doc).toOption.bind
              fun d' => (l.setParams env inp d').toOption) =
              (l.setParams env inp (.sub k s r')).toOption := rfl
          rw [e1, setParams_sub, if_neg hh]

/-! ### A dictionary with a value instead of a section -/

theorem setParams_value (env : Env R C K) (inp : Inputs K) {d : Doc} {k : String} {v : Leaf}
    (h : d.find? k = some (.inl v)) (l : Live R C K A) :
    (l.setParams env inp d).toOption = none := by
  induction d generalizing l with
  | nil => cases h
  | leaf a u r _ => exact setParams_leaf env inp a u r l
  | sub a s r _ ih =>
    simp only [Doc.find?] at h
    split_ifs at h
    · cases h
    rw [setParams_sub]
    split_ifs
    · rcases l.setSection env inp a s with e | l'
      · rfl
      · exact ih h l'
    · rfl

theorem addItem_value {p : List String} {v u : Leaf} {d d' : Doc} {k : String}
    (h : d.find? k = some (.inl u)) (ha : Doc.addItem p v d = .ok d') :
    ∃ u', d'.find? k = some (.inl u') := by
  match p with
  | [] => cases ha
  | [n] =>
    simp only [Doc.addItem, Except.ok.injEq] at ha
    subst ha
    rw [Doc.find?_setLeaf]
    split_ifs
    · exact ⟨_, rfl⟩
    · exact ⟨u, h⟩
  | c :: n :: ns =>
    simp only [Doc.addItem] at ha
    obtain ⟨h1, s, hs⟩ := Doc.inSub_inv ha
    obtain ⟨e, he, hf, -⟩ := Doc.inSub_ok d c _ s h1 hs
    rw [ha] at he
    cases he
    have hne : c ≠ k := fun e => h1 u (by rw [e]; exact h)
    exact ⟨u, by rw [hf, if_neg hne]; exact h⟩

theorem addItems_value (env : Env R C K) (inp : Inputs K) (f : Flat) {d : Doc} {k : String}
    {u : Leaf} (h : d.find? k = some (.inl u)) (l : Live R C K A) :
    ((Doc.addItems f d).toOption.bind fun d' => (l.setParams env inp d').toOption) = none := by
  induction f generalizing d u with
  | nil => exact setParams_value env inp h l
  | cons i f ih =>
    obtain ⟨p, v⟩ := i
    simp only [Doc.addItems]
    rcases ha : Doc.addItem p v d with e | d'
    · rfl
    · obtain ⟨u', h'⟩ := addItem_value h ha
      exact ih h'

/-- The changes as a dictionary have the effect of the changes one by one. -/
theorem setParams_addItems (env : Env R C K) (inp : Inputs K) (f : Flat) (hn : f.keys.Nodup)
    (h2 : ∀ p ∈ f.keys, p.length ≤ 2) {d : Doc} (hd : DistinctKeys d)
    (hf : ∀ c n, [c, n] ∈ f.keys → n ∉ (d.subOrNil c).keys) (l : Live R C K A) :
    ((Doc.addItems f d).toOption.bind fun d' => (l.setParams env inp d').toOption) =
      (l.setParams env inp d).toOption.bind (stepAll (changeOne env inp) f) := by
  induction f generalizing d with
  | nil =>
    simp only [Doc.addItems, stepAll]
    rcases h1 : l.setParams env inp d with e | l' <;> simp [Except.toOption, h1]
  | cons i f ih =>
    obtain ⟨p, v⟩ := i
    simp only [PyDict.keys, List.map_cons, List.nodup_cons, List.mem_cons] at hn h2 hf
    match p with
    | [] =>
      simp only [Doc.addItems, Doc.addItem, stepAll, changeOne]
      rcases h1 : l.setParams env inp d with e | l' <;> rfl
    | [c] =>
      have h3 : (d.setLeaf c v.thaw).find? c = some (.inl v.thaw) := by
        rw [Doc.find?_setLeaf, if_pos rfl]
      have h4 := addItems_value env inp f h3 l
      simp only [Doc.addItems, Doc.addItem]
      rw [h4]
      rcases h1 : l.setParams env inp d with e | l' <;> rfl
    | [c, n] =>
      have hfresh := hf c n (.inl rfl)
      have h3 := setParams_add env inp c v hd hfresh l
      have e : (stepAll (changeOne (A := A) env inp) (([c, n], v) :: f)) =
          fun l' => ((l'.setattr env inp c n (.inl v.thaw)).toOption.bind
            (stepAll (changeOne env inp) f)) := rfl
      rw [e, ← Option.bind_assoc, ← h3]
      simp only [Doc.addItems]
      rcases ha : Doc.addItem [c, n] v d with e | d'
      · rfl
      · have ha' := ha
        simp only [Doc.addItem] at ha'
        obtain ⟨k1, s, hs⟩ := Doc.inSub_inv ha'
        obtain ⟨e, he, hfind, hdist⟩ := Doc.inSub_ok d c
          (fun x => Except.ok (Doc.setLeaf n v.thaw x)) s k1 hs
        rw [ha'] at he
        cases he
        cases hs
        refine ih hn.2 (fun p hp => h2 p (.inr hp))
          (hdist hd (Doc.distinct_setLeaf (Doc.distinct_subOrNil hd c) n v.thaw)) ?_
        intro c' n' hm
        unfold Doc.subOrNil
        rw [hfind]
        by_cases hc : c = c'
        · subst hc
          simp only [if_true]
          rw [Doc.keys_setLeaf]
          rintro (h5 | h5)
          · exact hn.1 (h5 ▸ hm)
          · exact hf c n' (.inr hm) h5
        · simp only [if_neg hc]
          exact hf c' n' (.inr hm)
    | c :: n :: m :: ns =>
      have := h2 _ (.inl rfl)
      simp at this

/-- The order of the changes makes no difference. -/
theorem setParams_expand_perm (env : Env R C K) (inp : Inputs K) {f g : Flat} (h : f.Perm g)
    (hn : f.keys.Nodup) (h2 : ∀ p ∈ f.keys, p.length ≤ 2) (l : Live R C K A) :
    ((Doc.expand f).toOption.bind fun d => (l.setParams env inp d).toOption) =
      (Doc.expand g).toOption.bind fun d => (l.setParams env inp d).toOption := by
  have hk : f.keys.Perm g.keys := h.map _
  have key : ∀ f : Flat, f.keys.Nodup → (∀ p ∈ f.keys, p.length ≤ 2) →
      ((Doc.expand f).toOption.bind fun d => (l.setParams env inp d).toOption) =
        stepAll (changeOne env inp) f l := by
    intro f hn h2
    exact setParams_addItems env inp f hn h2 (d := .nil) trivial
      (fun c n _ => by simp [Doc.subOrNil, Doc.find?, Doc.keys]) l
  rw [key f hn h2, key g (hk.nodup_iff.mp hn) fun p hp => h2 p (hk.mem_iff.mpr hp)]
  refine stepAll_perm h ?_ l
  have : f.Pairwise fun i j => i.1 ≠ j.1 := List.pairwise_map.mp hn
  exact this.imp fun hij => changeOne_comm env inp hij

end

end Verif
