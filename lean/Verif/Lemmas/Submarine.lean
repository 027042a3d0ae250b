import Verif.Lemmas.Prelude
import Verif.Lemmas.Grid
import Verif.Lemmas.Shoreline
import Verif.Model.Submarine

/-!
# Lemmas about the diffusivity loop
-/

set_option autoImplicit false
set_option linter.unusedSectionVars false

namespace Verif

variable {K σ : Type*} {R C : ℕ} [Field K] [LinearOrder K] [IsStrictOrderedRing K]

/-- The parts of a diffuser that `calc_diffusion_coef` does not change. -/
def Diffuser.SameParams (s t : Diffuser R C K) : Prop :=
  t.plainSlope = s.plainSlope ∧ t.waveBase = s.waveBase ∧ t.shorefaceHeight = s.shorefaceHeight ∧
  t.alpha = s.alpha ∧ t.shelfSlope = s.shelfSlope ∧ t.load0 = s.load0 ∧ t.loadSl = s.loadSl ∧
  t.basinWidth = s.basinWidth ∧ t.seaLevel0 = s.seaLevel0 ∧ t.time = s.time ∧
  t.gridLoad = s.gridLoad

theorem wetDiffusivity_congr {s t : Diffuser R C K} (h : s.SameParams t) (expf : K → K)
    (load dx x shore depth : K) :
    wetDiffusivity expf t load dx x shore depth = wetDiffusivity expf s load dx x shore depth := by
  obtain ⟨h1, h2, h3, h4, h5, h6, h7, h8, h9, h10, h11⟩ := h
  unfold wetDiffusivity
  rw [h2, h3, h4, h5]

theorem landDiffusivity_congr {s t : Diffuser R C K} (h : s.SameParams t) (ksh x : K) (b : Bool) :
    landDiffusivity t ksh x b = landDiffusivity s ksh x b := by
  obtain ⟨h1, h2, h3, h4, h5, h6, h7, h8, h9, h10, h11⟩ := h
  unfold landDiffusivity
  rw [h8]

/-- The diffusivity of a node of an active row, given the load used for submerged nodes. -/
def nodeDiffusivity (expf : K → K) (dx : K) (x : Fin C → K) (shore : Fin R → K)
    (w : World R C K) (s : Diffuser R C K) (load : K) (r : Fin R) (c : Fin C) : K :=
  let depth := w.seaLevel - getProfile w.topo r c
  if 0 < depth then wetDiffusivity expf s load dx (x c) (shore r) depth
  else landDiffusivity s (s.newLoad w.seaLevel / s.plainSlope) (x c) (decide (r.val = R / 2))

theorem diffusivityLoop_spec (expf : K → K) (dx : K) (x : Fin C → K) (shore : Fin R → K)
    (w : World R C K) : ∀ (rs : List (Fin R)) (_ : rs.Nodup) (s : Diffuser R C K),
    let t := diffusivityLoop expf dx x shore w rs s
    s.SameParams t ∧
    (rs ≠ [] → t.load = s.newLoad w.seaLevel ∧ t.ksh = s.newLoad w.seaLevel / s.plainSlope) ∧
    (∀ r ∈ rs, ∀ c, t.kd (activeRow r, c) = nodeDiffusivity expf dx x shore w s
      (if rs.head? = some r then s.load else s.newLoad w.seaLevel) r c) ∧
    (∀ n, (∀ r ∈ rs, n.1 ≠ activeRow r) → t.kd n = s.kd n) := by
  intro rs
  induction rs with
  | nil =>
    intro _ s
    exact ⟨⟨rfl, rfl, rfl, rfl, rfl, rfl, rfl, rfl, rfl, rfl, rfl⟩, fun h => absurd rfl h,
      fun r hr => absurd hr (by simp), fun n _ => rfl⟩
  | cons q rs ih =>
    intro hnd s
    obtain ⟨hq, hnd'⟩ := List.nodup_cons.mp hnd
    dsimp only
    rw [diffusivityLoop]
    dsimp only
    set s1 : Diffuser R C K := { s with
      load := s.newLoad w.seaLevel
      ksh := s.newLoad w.seaLevel / s.plainSlope
      kd := fun n => if n.1 = activeRow q then
        (if 0 < w.seaLevel - getProfile w.topo q n.2 then
          wetDiffusivity expf s s.load dx (x n.2) (shore q) (w.seaLevel - getProfile w.topo q n.2)
        else landDiffusivity s (s.newLoad w.seaLevel / s.plainSlope) (x n.2)
          (decide (q.val = R / 2))) else s.kd n } with hs1
    have hp : s.SameParams s1 := ⟨rfl, rfl, rfl, rfl, rfl, rfl, rfl, rfl, rfl, rfl, rfl⟩
    obtain ⟨i1, i2, i3, i4⟩ := ih hnd' s1
    have hnew : s1.newLoad w.seaLevel = s.newLoad w.seaLevel := rfl
    refine ⟨i1, ?_, ?_, ?_⟩
    · intro _
      cases rs with
      | nil => exact ⟨rfl, rfl⟩
      | cons => exact i2 (by simp)
    · intro r hr c
      by_cases hrq : r = q
      · subst hrq
        rw [i4 (activeRow r, c) (fun r' hr' h => hq (activeRow_injective h ▸ hr'))]
        rw [hs1]
        dsimp only
        rw [if_pos rfl, List.head?_cons, if_pos rfl]
        rfl
      · have hmem : r ∈ rs := (List.mem_cons.mp hr).resolve_left hrq
        have hl : s1.load = s.newLoad w.seaLevel := rfl
        have hps : s1.plainSlope = s.plainSlope := rfl
        rw [i3 r hmem c, hnew, hl, ite_self, List.head?_cons,
          if_neg (show ¬ some q = some r by simpa using Ne.symm hrq)]
        unfold nodeDiffusivity
        dsimp only
        rw [wetDiffusivity_congr hp, landDiffusivity_congr hp, hnew, hps]
    · intro n hn
      rw [i4 n (fun r hr => hn r (by simp [hr]))]
      rw [hs1]
      dsimp only
      rw [if_neg (hn q (by simp))]

theorem calcDiffusionCoef_spec (expf : K → K) (dx : K) (x : Fin C → K) (shore : Fin R → K)
    (w : World R C K) (s : Diffuser R C K) :
    let t := calcDiffusionCoef expf dx x shore w s
    s.SameParams t ∧
    (0 < R → t.load = s.newLoad w.seaLevel ∧ t.ksh = s.newLoad w.seaLevel / s.plainSlope) ∧
    (∀ r c, t.kd (activeRow r, c) = nodeDiffusivity expf dx x shore w s
      (if r.val = 0 then s.load else s.newLoad w.seaLevel) r c) ∧
    (∀ c, t.kd (0, c) = t.kd (1, c)) ∧
    (0 < R → ∀ c, t.kd (Fin.last (R + 1), c) = s.kd (Fin.last (R + 1), c)) := by
  obtain ⟨h1, h2, h3, h4⟩ := diffusivityLoop_spec expf dx x shore w (List.finRange R)
    (List.nodup_finRange R) s
  dsimp only at *
  unfold calcDiffusionCoef
  dsimp only
  have hne : 0 < R → List.finRange R ≠ [] := by
    intro h h'
    have := congrArg List.length h'
    simp at this
    omega
  refine ⟨h1, fun h => h2 (hne h), ?_, ?_, ?_⟩
  · intro r c
    have hr0 : activeRow r ≠ 0 := by
      intro h
      have := congrArg Fin.val h
      rw [activeRow_val] at this
      simp at this
    rw [if_neg hr0, h3 r (List.mem_finRange r) c]
    congr 1
    have : (List.finRange R).head? = some r ↔ r.val = 0 := by
      cases R with
      | zero => exact r.elim0
      | succ R =>
        rw [List.finRange_succ, List.head?_cons, Option.some.injEq]
        constructor
        · intro h; rw [← h]; rfl
        · intro h; exact (Fin.ext h).symm
    simp only [this]
  · intro c
    rw [if_pos rfl]
    split_ifs <;> rfl
  · intro h c
    have hl0 : (Fin.last (R + 1)) ≠ 0 := by
      intro h'
      have := congrArg Fin.val h'
      simp at this
    rw [if_neg hl0, h4]
    intro r _ h'
    have := congrArg Fin.val h'
    rw [activeRow_val] at this
    simp at this
    have := r.isLt
    omega

end Verif
