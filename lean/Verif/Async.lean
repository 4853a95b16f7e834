import Mathlib.Data.List.Basic
import Mathlib.Logic.Function.Basic
import Mathlib.Algebra.BigOperators.Group.List.Basic

/-!
# Ranks running at their own speed: non-blocking messages

Operational model of code in which every rank runs through its own list of local computations, `Isend`, `Irecv` and `Waitall`, without any synchronisation of the
ranks but by messages: the ghost exchanges (`exchange_scalar_field_init`, `exchange_vector_field_init`, `exchange_finalise`, mpi_utils_2d.py:193-417,
mpi_utils_3d.py:750-1150) with the kernels around them.  The models of the exchanges in `Verif.Msg` start all ranks together and look at one exchange at a
time; here a rank may be several exchanges ahead of another.

Trusted MPI semantics: the requests between two ranks (same communicator, no tags) are matched in the order in which they are posted; the data of a message is taken out
of the send buffer at some time after `Isend`, in the buffer of the receiver it is changed at some later time after `Irecv`; these events happen in any order,
messages of one pair of ranks included.  When `buffered` is `false` the data is not taken before the matching `Irecv` is posted (MPI may choose anew for each
message).  `Waitall` returns when the data of all sends of the rank has been taken and all its receives have been done.
-/

namespace Sopht

variable {R S M : Type}

/-- What a rank does next; `S` is the local state of a rank, `M` the type of payloads. -/
inductive AIns (R S M : Type) where
  /-- local computation -/
  | loc (f : S → S)
  /-- `Isend` to `d`; `rd` reads the send buffer -/
  | isend (d : R) (rd : S → M)
  /-- `Irecv` from `s`; `wr` writes the receive buffer -/
  | irecv (s : R) (wr : M → S → S)
  /-- `Waitall` on all open requests of the rank -/
  | waitall

/-- A posted send: the data is still in the buffer, or it has been taken. -/
inductive Slot (S M : Type) where
  | unread (rd : S → M)
  | taken (v : M)

/-- State of all ranks and of the MPI library: `out s r` are the sends of `s` to `r`, `inn s r` the receives of `r` for messages of `s` which are not done, in posting
order (entry `i` of one is matched with entry `i` of the other; when the message is done both disappear). -/
structure AConf (R S M : Type) where
  prog : R → List (AIns R S M)
  st : R → S
  out : R → R → List (Slot S M)
  inn : R → R → List (M → S → S)

variable [DecidableEq R]

/-- Replace one entry of a table. -/
def upd2 {β : Type} (f : R → R → β) (a b : R) (v : β) : R → R → β := Function.update f a (Function.update (f a) b v)

/-- One step of one rank or of the library. -/
inductive AStep (buffered : Bool) : AConf R S M → AConf R S M → Prop
  | loc (C : AConf R S M) (a : R) (f : S → S) (rest : List (AIns R S M)) (hp : C.prog a = .loc f :: rest) :
      AStep buffered C { C with prog := Function.update C.prog a rest, st := Function.update C.st a (f (C.st a)) }
  | isend (C : AConf R S M) (a d : R) (rd : S → M) (rest : List (AIns R S M)) (hp : C.prog a = .isend d rd :: rest) :
      AStep buffered C { C with prog := Function.update C.prog a rest, out := upd2 C.out a d (C.out a d ++ [.unread rd]) }
  | irecv (C : AConf R S M) (a s : R) (wr : M → S → S) (rest : List (AIns R S M)) (hp : C.prog a = .irecv s wr :: rest) :
      AStep buffered C { C with prog := Function.update C.prog a rest, inn := upd2 C.inn s a (C.inn s a ++ [wr]) }
  | waitall (C : AConf R S M) (a : R) (rest : List (AIns R S M)) (hp : C.prog a = .waitall :: rest)
      (hs : ∀ d, ∀ x ∈ C.out a d, ∃ v, x = .taken v) (hr : ∀ s, C.inn s a = []) :
      AStep buffered C { C with prog := Function.update C.prog a rest }
  | pick (C : AConf R S M) (s r : R) (i : ℕ) (rd : S → M) (h : (C.out s r)[i]? = some (.unread rd)) (hb : buffered = true ∨ i < (C.inn s r).length) :
      AStep buffered C { C with out := upd2 C.out s r ((C.out s r).set i (.taken (rd (C.st s)))) }
  | land (C : AConf R S M) (s r : R) (i : ℕ) (v : M) (wr : M → S → S) (h : (C.out s r)[i]? = some (.taken v)) (h' : (C.inn s r)[i]? = some wr) :
      AStep buffered C { C with
        st := Function.update C.st r (wr v (C.st r))
        out := upd2 C.out s r ((C.out s r).eraseIdx i)
        inn := upd2 C.inn s r ((C.inn s r).eraseIdx i) }

/-- `n` steps. -/
inductive ARun (buffered : Bool) : ℕ → AConf R S M → AConf R S M → Prop
  | refl (C : AConf R S M) : ARun buffered 0 C C
  | tail {n : ℕ} {A B C : AConf R S M} (h : ARun buffered n A B) (s : AStep buffered B C) : ARun buffered (n + 1) A C

/-- All ranks start with local states `w`. -/
def AConf.start (prog : R → List (AIns R S M)) (w : R → S) : AConf R S M := ⟨prog, w, fun _ _ => [], fun _ _ => []⟩

/-- Every rank has returned. -/
def AConf.Done (C : AConf R S M) : Prop := ∀ r, C.prog r = []

/-- `w'` can be the local states when all ranks have returned. -/
def AExec (buffered : Bool) (prog : R → List (AIns R S M)) (w w' : R → S) : Prop :=
  ∃ n C, ARun buffered n (AConf.start prog w) C ∧ C.Done ∧ C.st = w'

/-- No execution gets stuck. -/
def NoStuck (buffered : Bool) (prog : R → List (AIns R S M)) : Prop :=
  ∀ w n C, ARun buffered n (AConf.start prog w) C → ¬ C.Done → ∃ C', AStep buffered C C'

/-- Number of sends to `d` in a program. -/
def nSends (d : R) : List (AIns R S M) → ℕ
  | [] => 0
  | .isend d' _ :: l => nSends d l + if d' = d then 1 else 0
  | _ :: l => nSends d l

/-- Number of receives from `s` in a program. -/
def nRecvs (s : R) : List (AIns R S M) → ℕ
  | [] => 0
  | .irecv s' _ :: l => nRecvs s l + if s' = s then 1 else 0
  | _ :: l => nRecvs s l

/-- Local computations only. -/
def LocOnly (l : List (AIns R S M)) : Prop := ∀ x ∈ l, ∃ f, x = .loc f

/-- A communication-closed piece of program: every rank which takes part ends it with `Waitall`, but for local computations, and every pair of ranks agrees on the number
of messages. -/
structure Layer (P : R → List (AIns R S M)) : Prop where
  ends : ∀ r, LocOnly (P r) ∨ ∃ l t, P r = l ++ .waitall :: t ∧ LocOnly t
  balanced : ∀ s r, nSends r (P s) = nRecvs s (P r)

end Sopht
