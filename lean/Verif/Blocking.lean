import Mathlib.Logic.Function.Basic
import Mathlib.Data.List.Basic

/-!
# Blocking `Send` / `Recv` programs

Operational model of the communication pattern of `ghost_sum`
(`EulerianLagrangianGridCommunicatorMPI2D.py:563-646`, `EulerianLagrangianGridCommunicatorMPI3D.py`, `ghost_sum`):
every rank runs through the same phases; in phase `k` it first calls blocking `Send` towards `dst`, then blocking `Recv` from
`src`, then does something with what it received.

Trusted MPI semantics: untagged messages between two ranks are received in the order in which they are sent; a blocking `Send`
either copies the data away and returns (buffering, only possible when `buffered`), or returns when the receiver takes the data;
`Send`/`Recv` with `PROC_NULL` return at once, and `Recv` then leaves the receive buffer unchanged.
-/

namespace Sopht

/-- One phase: `L` is the local state of a rank, `M` the type of payloads. -/
structure Phase (R L M : Type) where
  /-- destination of the `Send` (`none` = PROC_NULL) -/
  dst : R → Option R
  /-- source of the `Recv` -/
  src : R → Option R
  /-- data sent -/
  pay : L → M
  /-- what the rank does after the `Recv`; `none`: nothing was received because the source is PROC_NULL -/
  app : L → Option M → L

/-- State of all ranks in the middle of the calls. `pc c = 2k`: rank `c` is about to `Send` in phase `k`;
`pc c = 2k + 1`: about to `Recv` in phase `k`. `chan a b`: messages buffered on the way from `a` to `b`. -/
structure Conf (R L M : Type) where
  pc : R → ℕ
  loc : R → L
  chan : R → R → List M

variable {R L M : Type} [DecidableEq R]

/-- One step of one rank (or of a sender and a receiver together), in a program with phases `ph 0, …, ph (K-1)`. -/
inductive BStep (buffered : Bool) (ranks : List R) (K : ℕ) (ph : ℕ → Phase R L M) : Conf R L M → Conf R L M → Prop
  | sendNull (C : Conf R L M) (a : R) (k : ℕ) (ha : a ∈ ranks) (hk : k < K) (hp : C.pc a = 2 * k) (hd : (ph k).dst a = none) :
      BStep buffered ranks K ph C { C with pc := Function.update C.pc a (2 * k + 1) }
  | sendBuffered (C : Conf R L M) (a b : R) (k : ℕ) (hb : buffered = true) (ha : a ∈ ranks) (hk : k < K) (hp : C.pc a = 2 * k)
      (hd : (ph k).dst a = some b) :
      BStep buffered ranks K ph C
        { C with
          pc := Function.update C.pc a (2 * k + 1)
          chan := Function.update C.chan a (Function.update (C.chan a) b (C.chan a b ++ [(ph k).pay (C.loc a)])) }
  | rendezvous (C : Conf R L M) (a b : R) (k k' : ℕ) (hab : a ≠ b) (ha : a ∈ ranks) (hb : b ∈ ranks) (hk : k < K) (hk' : k' < K)
      (hp : C.pc a = 2 * k) (hd : (ph k).dst a = some b) (hq : C.pc b = 2 * k' + 1) (hs : (ph k').src b = some a)
      (hc : C.chan a b = []) :
      BStep buffered ranks K ph C
        { C with
          pc := Function.update (Function.update C.pc a (2 * k + 1)) b (2 * k' + 2)
          loc := Function.update C.loc b ((ph k').app (C.loc b) (some ((ph k).pay (C.loc a)))) }
  | recvNull (C : Conf R L M) (b : R) (k : ℕ) (hb : b ∈ ranks) (hk : k < K) (hq : C.pc b = 2 * k + 1) (hs : (ph k).src b = none) :
      BStep buffered ranks K ph C
        { C with
          pc := Function.update C.pc b (2 * k + 2)
          loc := Function.update C.loc b ((ph k).app (C.loc b) none) }
  | recvBuffered (C : Conf R L M) (a b : R) (k : ℕ) (v : M) (rest : List M) (hb : b ∈ ranks) (hk : k < K)
      (hq : C.pc b = 2 * k + 1) (hs : (ph k).src b = some a) (hc : C.chan a b = v :: rest) :
      BStep buffered ranks K ph C
        { pc := Function.update C.pc b (2 * k + 2)
          loc := Function.update C.loc b ((ph k).app (C.loc b) (some v))
          chan := Function.update C.chan a (Function.update (C.chan a) b rest) }

/-- `n` steps. -/
inductive BRun (buffered : Bool) (ranks : List R) (K : ℕ) (ph : ℕ → Phase R L M) : ℕ → Conf R L M → Conf R L M → Prop
  | refl (C : Conf R L M) : BRun buffered ranks K ph 0 C C
  | tail {n : ℕ} {A B C : Conf R L M} (h : BRun buffered ranks K ph n A B) (s : BStep buffered ranks K ph B C) :
      BRun buffered ranks K ph (n + 1) A C

/-- All ranks enter the function with local states `w`. -/
def Conf.start (w : R → L) : Conf R L M := ⟨fun _ => 0, w, fun _ _ => []⟩

/-- Rank `c` has returned. -/
def Conf.doneAt (K : ℕ) (C : Conf R L M) (c : R) : Prop := C.pc c = 2 * K

/-- The phases executed in lock step: the reference for what an execution computes. -/
def syncPhase (f : Phase R L M) (w : R → L) (c : R) : L := f.app (w c) ((f.src c).map fun a => f.pay (w a))

/-- Lock-step execution of the first `k` phases. -/
def syncRun (ph : ℕ → Phase R L M) (w : R → L) : ℕ → R → L
  | 0 => w
  | k + 1 => syncPhase (ph k) (syncRun ph w k)

end Sopht
