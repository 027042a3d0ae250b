import Verif.Lemmas.Prelude
import Verif.Model.Logger

/-! # C141: a temporary handler for log messages -/

set_option autoImplicit false

namespace Verif.Props

open Verif

variable {α : Type*}

/-- C141, partial: after the block the handlers are those from before, whether or not it raised, and
the result is that of the block. Missing: the level, which is not set back (`level_not_restored`). -/
theorem handlers_restored_partial (new : ℕ) (body : Logger → Logger × Except Err α) (l : Logger)
    (hnew : new ∉ l.handlers)
    (hbody : ∀ x : Logger, (body x).1.handlers = x.handlers) :
    (withLoggingHandler new body l).1.handlers = l.handlers ∧
    (withLoggingHandler new body l).2 = (body ⟨l.handlers ++ [new], some .info⟩).2 := by
  unfold withLoggingHandler Logger.addHandler
  rw [if_neg hnew]
  refine ⟨?_, rfl⟩
  dsimp only
  rw [hbody]
  dsimp only
  rw [List.erase_append_right _ hnew]
  simp

/-- C141, false of the level: if the block does not change it, the level is `INFO` afterwards, so
it is the one from before only if that was `INFO`. -/
theorem level_not_restored (new : ℕ) (body : Logger → Logger × Except Err α) (l : Logger)
    (hbody : ∀ x : Logger, (body x).1.level = x.level) :
    (withLoggingHandler new body l).1.level = some .info ∧
    ((withLoggingHandler new body l).1.level = l.level ↔ l.level = some .info) := by
  have h : (withLoggingHandler new body l).1.level = some .info := by
    unfold withLoggingHandler
    dsimp only
    rw [hbody]
  exact ⟨h, by rw [h]; exact eq_comm⟩

/-- C141: in the block every message of level `INFO` and above is printed once more than there were
handlers before (twice, if `sequence.cli` has been imported), and no other message is. -/
theorem block_prints (new : ℕ) (l : Logger) (hnew : new ∉ l.handlers) (level : Level)
    (msg : Text) :
    (withLoggingHandler new (fun x => (x, .ok (x.prints level msg))) l).2 =
      .ok (if level = .debug then []
        else (List.replicate (l.handlers.length + 1) (emitLines level msg)).flatten) := by
  have hmap : ∀ a : List Text, ((l.handlers ++ [new]).flatMap fun _ => a) =
      (List.replicate (l.handlers.length + 1) a).flatten := by
    intro a
    rw [List.flatMap, List.map_const', List.length_append, List.length_singleton]
  unfold withLoggingHandler Logger.addHandler Logger.prints
  rw [if_neg hnew]
  dsimp only
  congr 1
  cases level with
  | debug => rw [if_neg (by decide), if_pos rfl]
  | info => rw [if_pos (by decide), if_neg (by decide)]; exact (hmap _)
  | warning => rw [if_pos (by decide), if_neg (by decide)]; exact (hmap _)
  | error => rw [if_pos (by decide), if_neg (by decide)]; exact (hmap _)
  | critical => rw [if_pos (by decide), if_neg (by decide)]; exact (hmap _)

/-- C141: with the handler of `sequence.cli` a message appears twice in the block and once after it,
and what was hidden by the level before is not any more. -/
example : let l : Logger := ⟨[0], none⟩
    (l.prints .info "hi".toList,
      (withLoggingHandler 1 (fun x => (x, .ok (x.prints .info "hi".toList))) l).2.toOption,
      (withLoggingHandler 1 (fun x => (x, (.ok () : Except Err Unit))) l).1.prints .info
        "hi".toList) =
    (([], some ["[INFO] hi".toList, "[INFO] hi".toList], ["[INFO] hi".toList]) :
      List Text × Option (List Text) × List Text) := by
  decide +kernel

end Verif.Props
