import Mathlib.Data.List.Basic
import Mathlib.Logic.Function.Basic

/-!
# Programs with blocking `Send`, `Recv` and collective calls

Operational model of code in which every rank runs straight through a list of blocking calls: the scatter and gather functions of
`mpi_utils_2d.py`, `mpi_utils_3d.py` (fields and Lagrangian nodes) and the sequences of them in `VirtualBoundaryForcingMPI.py`.

Trusted MPI semantics: untagged messages between two ranks are received in the order in which they are sent; a blocking `Send` either copies
the data away and returns (only if `buffered`; MPI may decide anew for every message), or returns when the receiver takes the data; a collective call
(`bcast`, `allreduce`) completes when all ranks have entered it (the most restrictive behaviour MPI allows).
-/

namespace Sopht

variable {R S M : Type}

/-- What a rank does next; `S` is the local state of a rank, `M` the type of payloads. -/
inductive Ins (R S M : Type) where
  /-- local computation -/
  | loc (f : S → S)
  /-- `Send` to `d` -/
  | send (d : R) (val : S → M)
  /-- `Recv` from `s` -/
  | recv (s : R) (put : M → S → S)
  /-- collective call: the new local state as a function of all -/
  | coll (f : (R → S) → S)

/-- State of all ranks: what each still has to do, local states, messages copied away and not yet received. -/
structure BConf (R S M : Type) where
  prog : R → List (Ins R S M)
  st : R → S
  chan : R → R → List M

variable [DecidableEq R]

/-- One step of one rank, of a sender and its receiver, or (collective) of all ranks. -/
inductive PStep (buffered : Bool) (ranks : List R) : BConf R S M → BConf R S M → Prop
  | loc (C : BConf R S M) (a : R) (f : S → S) (rest : List (Ins R S M)) (ha : a ∈ ranks) (hp : C.prog a = .loc f :: rest) :
      PStep buffered ranks C { C with prog := Function.update C.prog a rest, st := Function.update C.st a (f (C.st a)) }
  | sendBuffered (C : BConf R S M) (a b : R) (val : S → M) (rest : List (Ins R S M)) (hb : buffered = true) (ha : a ∈ ranks)
      (hp : C.prog a = .send b val :: rest) :
      PStep buffered ranks C
        { C with
          prog := Function.update C.prog a rest
          chan := Function.update C.chan a (Function.update (C.chan a) b (C.chan a b ++ [val (C.st a)])) }
  | rendezvous (C : BConf R S M) (a b : R) (val : S → M) (put : M → S → S) (ra rb : List (Ins R S M)) (ha : a ∈ ranks) (hb : b ∈ ranks)
      (hab : a ≠ b) (hp : C.prog a = .send b val :: ra) (hq : C.prog b = .recv a put :: rb) (hc : C.chan a b = []) :
      PStep buffered ranks C
        { C with
          prog := Function.update (Function.update C.prog a ra) b rb
          st := Function.update C.st b (put (val (C.st a)) (C.st b)) }
  | recvBuffered (C : BConf R S M) (a b : R) (put : M → S → S) (rest : List (Ins R S M)) (v : M) (vs : List M) (hb : b ∈ ranks)
      (hq : C.prog b = .recv a put :: rest) (hc : C.chan a b = v :: vs) :
      PStep buffered ranks C
        { prog := Function.update C.prog b rest
          st := Function.update C.st b (put v (C.st b))
          chan := Function.update C.chan a (Function.update (C.chan a) b vs) }
  | coll (C : BConf R S M) (f : R → (R → S) → S) (rest : R → List (Ins R S M)) (hne : ranks ≠ [])
      (hp : ∀ r ∈ ranks, C.prog r = .coll (f r) :: rest r) :
      PStep buffered ranks C
        { C with
          prog := fun r => if r ∈ ranks then rest r else C.prog r
          st := fun r => if r ∈ ranks then f r C.st else C.st r }

/-- `n` steps. -/
inductive PRun (buffered : Bool) (ranks : List R) : ℕ → BConf R S M → BConf R S M → Prop
  | refl (C : BConf R S M) : PRun buffered ranks 0 C C
  | tail {n : ℕ} {A B C : BConf R S M} (h : PRun buffered ranks n A B) (s : PStep buffered ranks B C) : PRun buffered ranks (n + 1) A C

/-- All ranks call the function with local states `w`. -/
def BConf.start (prog : R → List (Ins R S M)) (w : R → S) : BConf R S M := ⟨prog, w, fun _ _ => []⟩

/-- Every rank has returned. -/
def BConf.Done (ranks : List R) (C : BConf R S M) : Prop := ∀ r ∈ ranks, C.prog r = []

/-- No deadlock, no endless run, one result: from local states `w` no execution of the programs gets stuck, none takes more than a fixed number
of steps, and when all ranks have returned the local states are those of `out`, whatever the order of the steps and the decisions
about buffering. -/
def Computes (buffered : Bool) (ranks : List R) (prog : R → List (Ins R S M)) (w out : R → S) : Prop :=
  (∃ N, ∀ n C, PRun buffered ranks n (BConf.start prog w) C → n ≤ N) ∧
    ∀ n C, PRun buffered ranks n (BConf.start prog w) C →
      ((¬ C.Done ranks → ∃ C', PStep buffered ranks C C') ∧ (C.Done ranks → (∀ r ∈ ranks, C.st r = out r) ∧ ∀ a b, C.chan a b = []))

end Sopht
