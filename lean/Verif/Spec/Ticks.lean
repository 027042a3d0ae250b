import Verif.Model.Ticks

/-! # Rounds of a run -/

set_option autoImplicit false

namespace Verif.Spec

open Verif

variable {T W : Type*} [Zero T] [DecidableEq T] [Add T] [LT T] [DecidableLT T]

/-- After `n` rounds of the loop of `sequence run` (or of `SequenceModel.run`, where no parameters
change) the clock is `c'` and the rest `w'`. -/
inductive Rounds (advance : T → T → W → Except Err W) (setParams : W → Except Err W)
    (c : Clock T) (w : W) : ℕ → Clock T → W → Prop
  | start : Rounds advance setParams c w 0 c w
  | next {n : ℕ} {c' c'' : Clock T} {w' w1 w2 : W} :
      Rounds advance setParams c w n c' w' →
      runOneStep advance c' w' none = (c'', .ok w1) → setParams w1 = .ok w2 →
      Rounds advance setParams c w (n + 1) c'' w2

end Verif.Spec
