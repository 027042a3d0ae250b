import Verif.Model.Messages

/-!
# The logger of the package

`/repo/sequence/logging.py`. Python's `logging` is external: a logger calls all its handlers, in the
order in which they were added, for messages of its level and above. Handlers are known by numbers.
-/

set_option autoImplicit false

namespace Verif

/-- The logger `sequence` (`/repo/sequence/logging.py:12`). Without a level it has that of the root
logger, `WARNING`. -/
structure Logger where
  handlers : List ℕ
  level : Option Level
  deriving DecidableEq

/-- What the handlers of a logger print of a message (all handlers are `LoggingHandler`s). -/
def Logger.prints (l : Logger) (level : Level) (msg : Text) : List Text :=
  if (l.level.getD .warning).number ≤ level.number then l.handlers.flatMap fun _ => emitLines level msg else []

/-- `logger.addHandler`: a handler is not added twice. -/
def Logger.addHandler (l : Logger) (h : ℕ) : Logger :=
  if h ∈ l.handlers then l else { l with handlers := l.handlers ++ [h] }

/-- `with logging_handler(): body` (`/repo/sequence/logging.py:50-59`). `new` is the handler that is
made; `body` changes the logger and has a result, or raises. -/
def withLoggingHandler {α : Type*} (new : ℕ) (body : Logger → Logger × Except Err α) (l : Logger) :
    Logger × Except Err α :=
  let r := body { l.addHandler new with level := some .info }
  ({ r.1 with handlers := r.1.handlers.erase new }, r.2)

end Verif
