import Verif.Ghost3D
import Verif.Ghost2D

/-!
# Domain doubling communicators

Models `MPIDomainDoublingCommunicator2D` (`sopht_mpi/numeric/eulerian_grid_ops/poisson_solver_2d/UnboundedPoissonSolverMPI2D.py:156-352`)
and `MPIDomainDoublingCommunicator3D` (`.../poisson_solver_3d/UnboundedPoissonSolverMPI3D.py:190-382`), below called
`P2D.py` and `P3D.py`.

An exchange moves data between the local field (with ghost cells) and the local array of the doubled domain.  Elements of
both are addressed by one index type: `.inl p` is element `p` of `local_field`, `.inr q` element `q` of `local_doubled_field`.
Subarray types are lists of element indices in row-major (type-map) order; the arrays are taken to have the shapes that the
types were made for (`local_grid_size + 2 * ghost_size` and `2 * local_grid_size`; the latter is what mpi4py-fft allocates
when the axis lengths are multiples of the rank counts, trusted).
-/

namespace Sopht

/-- Type map of `Create_subarray(sizes, subsizes, starts)` of a 2D array (MPI semantics), as element indices. -/
def subIx2 (sub : ℕ × ℕ) (starts : C2) : List C2 :=
  (irange sub.1).flatMap fun a => (irange sub.2).map fun b => (starts.1 + a, starts.2 + b)

/-! ## 2D -/

/-- `np.where(np.array(mpi_construct.grid_topology) != 1)[0]` (P2D.py:180). -/
def distDims2 (T : Cart2) : List (Fin 2) := (if T.py ≠ 1 then [0] else []) ++ (if T.px ≠ 1 then [1] else [])

/-- `MPIDomainDoublingCommunicator2D.__init__` (P2D.py:166-193): the checks and the value of `distributed_dim`.
`mpi_construct.size` is the number of ranks. -/
def doublingInit2 (g : PyNum) (T : Cart2) : Except PyErr (Fin 2) :=
  match fieldCommCheck g with
  | .error e => .error e
  | .ok _ =>
    if (distDims2 T).length > 1 then .error .valueError
    else if T.py * T.px = 1 then .ok 0
    else match (distDims2 T).getLast? with
      | some d => .ok d
      | none => .error .indexError

/-- Entry `d` of a pair: `coords[distributed_dim]`. -/
def at2 (d : Fin 2) (c : C2) : ℤ := if d = 0 then c.1 else c.2
/-- The pair `c` with entry `d` replaced. -/
def put2 (d : Fin 2) (c : C2) (v : ℤ) : C2 := if d = 0 then (v, c.2) else (c.1, v)
/-- `grid_topology[distributed_dim]` -/
def topo2 (T : Cart2) (d : Fin 2) : ℕ := if d = 0 then T.py else T.px
/-- `field_grid_size[distributed_dim]` -/
def size2 (T : Cart2) (d : Fin 2) : ℕ := if d = 0 then T.ny else T.nx

/-- `grid.Shift(d, disp)[0]` (MPI semantics): the rank `disp` before. -/
def shiftSrc2 (T : Cart2) (d : Fin 2) (c : C2) (disp : ℤ) : Option C2 :=
  (axisNbr (topo2 T d) T.per (at2 d c) (-disp)).map (put2 d c)
/-- `grid.Shift(d, disp)[1]` (MPI semantics): the rank `disp` after. -/
def shiftDst2 (T : Cart2) (d : Fin 2) (c : C2) (disp : ℤ) : Option C2 :=
  (axisNbr (topo2 T d) T.per (at2 d c) disp).map (put2 d c)

/-- `send_from_actual_to_doubled_domain_type`, `recv_from_doubled_to_actual_domain_type` (P2D.py:204-212, 263-271) on `local_field`. -/
def actualBuf2 (T : Cart2) (g : ℕ) : List (C2 ⊕ C2) := (subIx2 (T.ny, T.nx) (g, g)).map .inl
/-- The first half types (P2D.py:216-224, 241-249) on `local_doubled_field`. -/
def firstBuf2 (T : Cart2) : List (C2 ⊕ C2) := (subIx2 (T.ny, T.nx) (0, 0)).map .inr
/-- The second half types (P2D.py:226-235, 251-260): `starts[distributed_dim] = field_grid_size[distributed_dim]`. -/
def secondBuf2 (T : Cart2) (d : Fin 2) : List (C2 ⊕ C2) :=
  (subIx2 (T.ny, T.nx) (put2 d (0, 0) (size2 T d))).map .inr

/-- What rank `c` posts in `copy_to_doubled_domain` (P2D.py:273-312). `coord < topology / 2` is a comparison with a float:
`2 * coord < topology`. -/
def toPosts2 (T : Cart2) (g : ℕ) (d : Fin 2) (c : C2) : List (Post C2 (C2 ⊕ C2)) :=
  let coord := at2 d c
  ⟨shiftSrc2 T d c (coord / 2 + coord % 2), actualBuf2 T g, none, []⟩ ::
    if 2 * coord < topo2 T d then
      [⟨none, [], shiftDst2 T d c (2 * coord - coord), firstBuf2 T⟩,
       ⟨none, [], shiftDst2 T d c (2 * coord + 1 - coord), secondBuf2 T d⟩]
    else []

/-- What rank `c` posts in `copy_from_doubled_domain` (P2D.py:314-352). -/
def fromPosts2 (T : Cart2) (g : ℕ) (d : Fin 2) (c : C2) : List (Post C2 (C2 ⊕ C2)) :=
  let coord := at2 d c
  (if 2 * coord < topo2 T d then
      [⟨shiftDst2 T d c (2 * coord - coord), firstBuf2 T, none, []⟩,
       ⟨shiftDst2 T d c (2 * coord + 1 - coord), secondBuf2 T d, none, []⟩]
    else []) ++
  [⟨none, [], shiftSrc2 T d c (coord / 2 + coord % 2), actualBuf2 T g⟩]

/-- The messages of `copy_to_doubled_domain` on all ranks. -/
def toMsgs2 (T : Cart2) (g : ℕ) (d : Fin 2) : List (Msg C2 (C2 ⊕ C2)) := allMsgs (ranks2 T) (toPosts2 T g d)
/-- The messages of `copy_from_doubled_domain` on all ranks. -/
def fromMsgs2 (T : Cart2) (g : ℕ) (d : Fin 2) : List (Msg C2 (C2 ⊕ C2)) := allMsgs (ranks2 T) (fromPosts2 T g d)

/-- Both arrays of every rank as one world. -/
def joinW {R ι κ α : Type} (f : World R ι α) (D : World R κ α) : World R (ι ⊕ κ) α := fun c => Sum.elim (f c) (D c)

/-- `copy_to_doubled_domain` on every rank (P2D.py:273-312); `sched` is the order of MPI progress. Returns the doubled arrays. -/
def copyTo2 {α : Type} (T : Cart2) (g : ℕ) (d : Fin 2) (f D : World C2 C2 α) (sched : List Ev) : World C2 C2 α :=
  fun c q => runNet (toMsgs2 T g d) (joinW f D) sched c (.inr q)

/-- `copy_from_doubled_domain` on every rank (P2D.py:314-352). Returns the local fields. -/
def copyFrom2 {α : Type} (T : Cart2) (g : ℕ) (d : Fin 2) (D f : World C2 C2 α) (sched : List Ev) : World C2 C2 α :=
  fun c p => runNet (fromMsgs2 T g d) (joinW f D) sched c (.inl p)

/-! ## 3D -/

/-- Numbers of distributed axes: `np.where(self.grid_topology != 1)[0]` (P3D.py:216-219; `[]` for one rank, which has no axis
with more than one rank). -/
def distDims3 (T : Cart3) : List (Fin 3) :=
  if T.pz * T.py * T.px = 1 then []
  else (if T.pz ≠ 1 then [0] else []) ++ (if T.py ≠ 1 then [1] else []) ++ (if T.px ≠ 1 then [2] else [])

/-- `MPIDomainDoublingCommunicator3D.__init__` (P3D.py:200-226): the checks. -/
def doublingInit3 (g : PyNum) (T : Cart3) : Except PyErr (List (Fin 3)) :=
  match fieldCommCheck g with
  | .error e => .error e
  | .ok _ => if (distDims3 T).length ≥ 3 then .error .valueError else .ok (distDims3 T)

/-- `Get_cart_rank(coords)` (MPI semantics): periodic axes wrap, otherwise coordinates outside the topology are an error.
A rank is identified with its coordinates. -/
def cartRank3 (T : Cart3) (c : C3) : Except PyErr C3 :=
  if T.per then .ok (c.1 % T.pz, c.2.1 % T.py, c.2.2 % T.px)
  else if 0 ≤ c.1 ∧ c.1 < T.pz ∧ 0 ≤ c.2.1 ∧ c.2.1 < T.py ∧ 0 ≤ c.2.2 ∧ c.2.2 < T.px then .ok c
  else .error .mpiError

/-- The offsets of one axis: `[0, 1]` if the axis is distributed, only 0 otherwise. -/
def axisOffs (dd : List (Fin 3)) (a : Fin 3) : List ℤ := if a ∈ dd then [0, 1] else [0]

/-- `subarray_start_offsets` (P3D.py:247-249), with 0 for the axes that are not distributed: `itertools.product([0, 1], repeat=...)`
runs through the distributed axes in increasing order, last axis fastest. -/
def offsets3 (dd : List (Fin 3)) : List C3 :=
  (axisOffs dd 0).flatMap fun a => (axisOffs dd 1).flatMap fun b => (axisOffs dd 2).map fun c => (a, b, c)

/-- `source_coord` / `send_coord` (P3D.py:331-333, 359-361): `2 * coord[dim] + offsets[j]` on the distributed axes. -/
def pairCoord3 (dd : List (Fin 3)) (c o : C3) : C3 :=
  (if (0 : Fin 3) ∈ dd then 2 * c.1 + o.1 else c.1,
   if (1 : Fin 3) ∈ dd then 2 * c.2.1 + o.2.1 else c.2.1,
   if (2 : Fin 3) ∈ dd then 2 * c.2.2 + o.2.2 else c.2.2)

/-- `np.all(coord < self.grid_topology / 2)` (P3D.py:329, 357). -/
def lowerHalf3 (T : Cart3) (c : C3) : Prop := 2 * c.1 < T.pz ∧ 2 * c.2.1 < T.py ∧ 2 * c.2.2 < T.px

instance (T : Cart3) (c : C3) : Decidable (lowerHalf3 T c) := inferInstanceAs (Decidable (_ ∧ _ ∧ _))

/-- `send_from_actual_to_doubled_domain_type`, `recv_from_doubled_to_actual_domain_type` (P3D.py:254-262, 304-312). -/
def actualBuf3 (T : Cart3) (g : ℕ) : List (C3 ⊕ C3) := (subIx (T.nz, T.ny, T.nx) (g, g, g)).map .inl
/-- `recv_from_actual_to_doubled_domain_type[offsets]`, `send_from_doubled_to_actual_domain_type[offsets]` (P3D.py:268-281, 290-302):
`starts[dim] = field_grid_size[dim] * offsets[i]` on the distributed axes, 0 on the others (where the offset is 0). -/
def partBuf3 (T : Cart3) (o : C3) : List (C3 ⊕ C3) :=
  (subIx (T.nz, T.ny, T.nx) (T.nz * o.1, T.ny * o.2.1, T.nx * o.2.2)).map .inr

/-- What rank `c` posts in `copy_to_doubled_domain` (P3D.py:314-346), or the MPI error it raises. -/
def toPosts3 (T : Cart3) (g : ℕ) (dd : List (Fin 3)) (c : C3) : Except PyErr (List (Post C3 (C3 ⊕ C3))) :=
  match cartRank3 T (c.1 / 2, c.2.1 / 2, c.2.2 / 2) with
  | .error e => .error e
  | .ok dest =>
    if lowerHalf3 T c then
      match (offsets3 dd).mapM fun o => (cartRank3 T (pairCoord3 dd c o)).map fun s => (⟨none, [], some s, partBuf3 T o⟩ : Post C3 (C3 ⊕ C3)) with
      | .error e => .error e
      | .ok l => .ok (⟨some dest, actualBuf3 T g, none, []⟩ :: l)
    else .ok [⟨some dest, actualBuf3 T g, none, []⟩]

/-- What rank `c` posts in `copy_from_doubled_domain` (P3D.py:349-382), or the MPI error it raises. -/
def fromPosts3 (T : Cart3) (g : ℕ) (dd : List (Fin 3)) (c : C3) : Except PyErr (List (Post C3 (C3 ⊕ C3))) :=
  let sends : Except PyErr (List (Post C3 (C3 ⊕ C3))) :=
    if lowerHalf3 T c then
      (offsets3 dd).mapM fun o => (cartRank3 T (pairCoord3 dd c o)).map fun s => (⟨some s, partBuf3 T o, none, []⟩ : Post C3 (C3 ⊕ C3))
    else .ok []
  match sends with
  | .error e => .error e
  | .ok l =>
    match cartRank3 T (c.1 / 2, c.2.1 / 2, c.2.2 / 2) with
    | .error e => .error e
    | .ok src => .ok (l ++ [⟨none, [], some src, actualBuf3 T g⟩])

/-- The posts of a rank that raised no error. -/
def okPosts {A : Type} (x : Except PyErr (List A)) : List A := match x with | .ok l => l | .error _ => []

/-- The messages of `copy_to_doubled_domain` on all ranks (when no rank raises). -/
def toMsgs3 (T : Cart3) (g : ℕ) : List (Msg C3 (C3 ⊕ C3)) := allMsgs (ranks3 T) fun c => okPosts (toPosts3 T g (distDims3 T) c)
/-- The messages of `copy_from_doubled_domain` on all ranks (when no rank raises). -/
def fromMsgs3 (T : Cart3) (g : ℕ) : List (Msg C3 (C3 ⊕ C3)) := allMsgs (ranks3 T) fun c => okPosts (fromPosts3 T g (distDims3 T) c)

/-- `copy_to_doubled_domain` on every rank (P3D.py:314-346). Returns the doubled arrays. -/
def copyTo3 {α : Type} (T : Cart3) (g : ℕ) (f D : World C3 C3 α) (sched : List Ev) : World C3 C3 α :=
  fun c q => runNet (toMsgs3 T g) (joinW f D) sched c (.inr q)

/-- `copy_from_doubled_domain` on every rank (P3D.py:349-382). Returns the local fields. -/
def copyFrom3 {α : Type} (T : Cart3) (g : ℕ) (D f : World C3 C3 α) (sched : List Ev) : World C3 C3 α :=
  fun c p => runNet (fromMsgs3 T g) (joinW f D) sched c (.inl p)

end Sopht
