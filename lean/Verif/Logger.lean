import Verif.Cart
import Mathlib.Data.List.Basic

/-!
# Logging: `MPILogger`

Models `sopht_mpi/utils/mpi_logger.py`. `logging.getLogger("rank[i]")` returns one object per rank and process
whoever asks, so the handlers and the level live in a registry entry (`PyLogger`) shared by all `MPILogger` objects of the rank; the module itself
creates one at import (mpi_logger.py:157-158).

Not modelled: handlers of the root logger (there are none unless the program adds some), the time stamp in the file name. What is in
the log file: `LogFile`.
-/

namespace Sopht

/-- Where a handler writes. -/
inductive Dest
  | console
  | file (name : String)
  deriving DecidableEq, Repr

/-- A `logging.Handler` object; `id` is the identity of the Python object. `withRank`, `withLevel` select the format string
(mpi_logger.py:90-99). -/
structure Handler where
  id : ℕ
  dest : Dest
  level : ℕ
  withRank : Bool
  withLevel : Bool
  deriving DecidableEq, Repr

/-- The object `logging.getLogger("rank[i]")` of one rank, and a counter for new handler objects. -/
structure PyLogger where
  level : ℕ := 0
  handlers : List Handler := []
  fresh : ℕ := 0

/-- An `MPILogger` object (mpi_logger.py:63-100). -/
structure MPILoggerObj where
  rank : ℕ
  verbose : Bool
  level : ℕ
  withRank : Bool
  withLevel : Bool

/-- `for handler in self.logger.handlers: self.logger.removeHandler(handler); handler.close()` (mpi_logger.py:116-118): Python iterates over the list by
index while the body removes from the same list; `i` is the index of the iterator. -/
def iterRemove {H : Type} [DecidableEq H] (i : ℕ) (l : List H) : List H :=
  if h : i < l.length then iterRemove (i + 1) (l.erase l[i]) else l
  termination_by l.length - i
  decreasing_by
    have := List.length_erase_of_mem (List.getElem_mem h)
    omega

/-- `remove_and_close_all_handlers` (mpi_logger.py:108-118). -/
def removeAndCloseAll (L : PyLogger) : PyLogger := { L with handlers := iterRemove 0 L.handlers }

/-- `MPILogger.__init__` on rank `rank` (mpi_logger.py:64-106). -/
def newLogger (rank : ℕ) (L : PyLogger) (level : ℕ) (echo : List ℕ) (withRank withLevel : Bool) : PyLogger × MPILoggerObj :=
  let verbose := if echo.length = 0 then true else decide (rank ∈ echo)
  let L := { L with level := level }
  let L := removeAndCloseAll L
  ({ L with handlers := L.handlers ++ [⟨L.fresh, .console, level, withRank, withLevel⟩], fresh := L.fresh + 1 },
   ⟨rank, verbose, level, withRank, withLevel⟩)

/-- `enable_write_to_logfile` (mpi_logger.py:120-134), without time stamp. -/
def enableLogfile (L : PyLogger) (o : MPILoggerObj) (filename : String) : PyLogger :=
  { L with handlers := L.handlers ++ [⟨L.fresh, .file (filename ++ ".log"), o.level, o.withRank, o.withLevel⟩], fresh := L.fresh + 1 }

/-- `debug`, `info`, `warning`, `error`, `critical` (mpi_logger.py:136-154): where a message of severity `sev` is written; `logging` drops
it below the level of the logger and below the level of the handler (trusted library semantics). -/
def logTo (L : PyLogger) (o : MPILoggerObj) (sev : ℕ) : List Dest :=
  if o.verbose then
    if L.level ≤ sev then (L.handlers.filter fun h => h.level ≤ sev).map Handler.dest else []
  else []

/-- The formatted line (mpi_logger.py:90-99). -/
def formatLine (withRank withLevel : Bool) (name levelname msg : List Char) : List Char :=
  let pad (s : List Char) : List Char := s ++ List.replicate (7 - s.length) ' '
  match withRank, withLevel with
  | true, true => "[ ".toList ++ pad levelname ++ " ] (".toList ++ pad name ++ ") :: ".toList ++ msg
  | true, false => "(".toList ++ pad name ++ ") :: ".toList ++ msg
  | false, true => "[ ".toList ++ pad levelname ++ " ]  ".toList ++ msg
  | false, false => msg

/-- What a program does with the loggers of one rank. -/
inductive LogOp
  | new (level : ℕ) (echo : List ℕ) (withRank withLevel : Bool)
  | enable (filename : String)
  | close

/-- One operation; `enable` goes to the `MPILogger` made last. -/
def logStep (rank : ℕ) (s : PyLogger × Option MPILoggerObj) : LogOp → PyLogger × Option MPILoggerObj
  | .new level echo a b => ((newLogger rank s.1 level echo a b).1, some (newLogger rank s.1 level echo a b).2)
  | .enable f => match s.2 with
    | some o => (enableLogfile s.1 o f, some o)
    | none => s
  | .close => (removeAndCloseAll s.1, s.2)

/-- A history of operations, after the import of the module (mpi_logger.py:157-158; level `logging.INFO` = 20). -/
def logRun (rank : ℕ) (ops : List LogOp) : PyLogger × Option MPILoggerObj :=
  ops.foldl (logStep rank) (logStep rank ({}, none) (.new 20 [0] false false))

end Sopht
