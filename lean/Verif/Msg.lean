import Mathlib.Tactic.Linarith
import Mathlib.Data.List.Zip
import Mathlib.Data.List.Basic

/-!
# Untagged point-to-point messages

A small model of what the communicators of `/repo/sopht_mpi` use of MPI:
`Isend`/`Irecv` on a cartesian communicator without tags, derived datatypes
(lists of displacements), and `Waitall`.

Trusted MPI semantics (not code of the repository):
* messages from one rank to another on the same communicator with the same tag do not overtake:
  the j-th send `s → r` is received by the j-th receive that `r` posted for `s`;
* the data of a message leaves the send buffer at some time and lands in the receive buffer at some later time;
  all this happens, in any order across messages, before `Waitall` returns.
-/

namespace Sopht

/-- One `Isend` followed by one `Irecv`, the pattern in which every exchange of the repository posts its
messages (`mpi_utils_2d.py:199-290`, `mpi_utils_2d.py:300-397`, `mpi_utils_3d.py:756-1114`).
`none` is `MPI.PROC_NULL`. A datatype together with its buffer offset is the list of the array
indices it touches, in type-map order. -/
structure Post (R ι : Type) where
  sendTo : Option R
  sendIx : List ι
  recvFrom : Option R
  recvIx : List ι

/-- A message that has been matched: the elements `sendIx` of the array of rank `src` go, in order, to the
elements `recvIx` of the array of rank `dst`. -/
structure Msg (R ι : Type) where
  src : R
  dst : R
  sendIx : List ι
  recvIx : List ι

section Matching
variable {R ι : Type} [DecidableEq R]

/-- The sends posted by `s` towards `r`, in posting order. -/
def sendsTo (posts : R → List (Post R ι)) (s r : R) : List (List ι) :=
  (posts s).filterMap fun p => if p.sendTo = some r then some p.sendIx else none

/-- The receives posted by `r` for messages of `s`, in posting order. -/
def recvsOf (posts : R → List (Post R ι)) (r s : R) : List (List ι) :=
  (posts r).filterMap fun p => if p.recvFrom = some s then some p.recvIx else none

/-- MPI's non-overtaking rule: j-th send from `s` to `r` meets the j-th receive of `r` for `s`. -/
def matched (posts : R → List (Post R ι)) (s r : R) : List (Msg R ι) :=
  ((sendsTo posts s r).zip (recvsOf posts r s)).map fun x => ⟨s, r, x.1, x.2⟩

/-- All matched messages of an exchange in which the ranks `ranks` take part. -/
def allMsgs (ranks : List R) (posts : R → List (Post R ι)) : List (Msg R ι) :=
  ranks.flatMap fun s => ranks.flatMap fun r => matched posts s r

/-- The same posted operation on component `k` of a vector field: a component array is addressed `(k, i)`. -/
def Post.tag {κ : Type} (k : κ) (p : Post R ι) : Post R (κ × ι) :=
  ⟨p.sendTo, p.sendIx.map (fun i => (k, i)), p.recvFrom, p.recvIx.map (fun i => (k, i))⟩

/-- Posting a scalar exchange for each of the components `comps` of a vector field, one after the other
(`exchange_vector_field_init`, mpi_utils_2d.py:406-412, mpi_utils_3d.py:1124-1133). -/
def vecPosts {κ : Type} (comps : List κ) (posts : R → List (Post R ι)) (c : R) : List (Post R (κ × ι)) :=
  comps.flatMap fun k => (posts c).map (Post.tag k)

/-- No message is left without partner and each receive has room for exactly what is sent: this is what makes
`Waitall` return without error. -/
def AllMatched (ranks : List R) (posts : R → List (Post R ι)) : Prop :=
  (∀ s ∈ ranks, ∀ p ∈ posts s,
      (∀ r, p.sendTo = some r → r ∈ ranks) ∧ (∀ r, p.recvFrom = some r → r ∈ ranks)) ∧
  ∀ s ∈ ranks, ∀ r ∈ ranks,
    (sendsTo posts s r).map List.length = (recvsOf posts r s).map List.length

end Matching

section Async
variable {R ι α : Type} [DecidableEq R] [DecidableEq ι]

/-- Arrays of all ranks. -/
abbrev World (R ι α : Type) := R → ι → α

/-- Writing received values into a buffer, in type-map order. -/
def unpack (A : ι → α) (ix : List ι) (vals : List α) : ι → α :=
  (ix.zip vals).foldl (fun A p => Function.update A p.1 p.2) A

/-- Replace the array of one rank. -/
def setRank (w : World R ι α) (r : R) (A : ι → α) : World R ι α :=
  Function.update w r A

/-- Progress events of the MPI library: the payload of message `k` leaves the send buffer / lands. -/
inductive Ev where
  | pick (k : ℕ)
  | land (k : ℕ)
  deriving DecidableEq

/-- State of an exchange in flight: arrays of all ranks and payloads in the network. -/
structure Net (R ι α : Type) where
  w : World R ι α
  net : ℕ → Option (List α)

/-- One progress event. -/
def evStep (M : List (Msg R ι)) (st : Net R ι α) : Ev → Net R ι α
  | .pick k =>
    match M[k]? with
    | some m => { st with net := Function.update st.net k (some (m.sendIx.map (st.w m.src))) }
    | none => st
  | .land k =>
    match M[k]?, st.net k with
    | some m, some vals => { st with w := setRank st.w m.dst (unpack (st.w m.dst) m.recvIx vals) }
    | _, _ => st

/-- A run of the exchange from arrays `w`: the arrays after the events `sched`. -/
def runNet (M : List (Msg R ι)) (w : World R ι α) (sched : List Ev) : World R ι α :=
  (sched.foldl (evStep M) ⟨w, fun _ => none⟩).w

/-- `sched` is complete for `M` (what `Waitall` waits for): every message is picked up and lands later. -/
def Complete (M : List (Msg R ι)) (sched : List Ev) : Prop :=
  ∀ k < M.length, ∃ a b c, sched = a ++ Ev.pick k :: b ++ Ev.land k :: c

end Async
end Sopht
