import Verif.Msg
import Verif.Cart
import Mathlib.Algebra.Order.Floor.Ring
import Mathlib.Algebra.Order.Field.Basic

/-!
# Lagrangian nodes: mapping to ranks, scatter and gather

Models `MPILagrangianFieldCommunicator2D` (`sopht_mpi/utils/mpi_utils_2d.py:571-712`) and
`MPILagrangianFieldCommunicator3D` (`sopht_mpi/utils/mpi_utils_3d.py:1309-1459`).
Positions and grid spacings live in an arbitrary linearly ordered field with floor (exact arithmetic; no rounding and no
overflow of `int32`).  Ranks are their coordinates: `rank_map[i, j]` is the rank with coordinates `[i, j]`
(mpi_utils_2d.py:601-609), and rank numbers and coordinates are in bijection (`rank2_bijection`).
-/

namespace Sopht

section Trunc
variable {K : Type} [Field K] [LinearOrder K] [FloorRing K]

/-- `x.astype(np.int32)`: truncation towards zero. -/
def truncZ (x : K) : ℤ := if 0 ≤ x then ⌊x⌋ else ⌈x⌉

/-- Index of element `i` on a NumPy axis with `P` elements; negative indices count from the end; `none` is IndexError. -/
def npIdx (P : ℕ) (i : ℤ) : Option ℤ :=
  if 0 ≤ i ∧ i < P then some i else if -P ≤ i ∧ i < 0 then some (i + P) else none

/-- Block coordinates of a node, before any check: `eul_subblock_coords_y/x` (mpi_utils_2d.py:618-625).
`x.1` is the x coordinate of the node, `x.2` its y coordinate (positions are in xy order, blocks in yx order). -/
def subblock2 (T : Cart2) (dx shift : K) (x : K × K) : C2 :=
  (truncZ ((x.2 - shift) / (dx * T.ny)), truncZ ((x.1 - shift) / (dx * T.nx)))

/-- `_compute_lag_nodes_rank_address` (mpi_utils_2d.py:611-637) for all nodes: aborts if some node has a block coordinate at or
above the topology, then looks the ranks up. -/
def rankAddress2 (T : Cart2) (dx shift : K) (pos : List (K × K)) : Except PyErr (List C2) :=
  let b := pos.map (subblock2 T dx shift)
  if b.any (fun c => decide (c.2 ≥ T.px)) || b.any (fun c => decide (c.1 ≥ T.py)) then .error .mpiAbort
  else b.mapM fun c =>
    match npIdx T.py c.1, npIdx T.px c.2 with
    | some i, some j => .ok (i, j)
    | _, _ => .error .indexError

/-- 3D block coordinates: mpi_utils_3d.py:1358-1369. -/
def subblock3 (T : Cart3) (dx shift : K) (x : K × K × K) : C3 :=
  (truncZ ((x.2.2 - shift) / (dx * T.nz)), truncZ ((x.2.1 - shift) / (dx * T.ny)), truncZ ((x.1 - shift) / (dx * T.nx)))

/-- 3D `_compute_lag_nodes_rank_address`: mpi_utils_3d.py:1351-1384. -/
def rankAddress3 (T : Cart3) (dx shift : K) (pos : List (K × K × K)) : Except PyErr (List C3) :=
  let b := pos.map (subblock3 T dx shift)
  if b.any (fun c => decide (c.2.2 ≥ T.px)) || b.any (fun c => decide (c.2.1 ≥ T.py)) ||
      b.any (fun c => decide (c.1 ≥ T.pz)) then .error .mpiAbort
  else b.mapM fun c =>
    match npIdx T.pz c.1, npIdx T.py c.2.1, npIdx T.px c.2.2 with
    | some i, some j, some k => .ok (i, j, k)
    | _, _, _ => .error .indexError

end Trunc

section Comm
variable {R α : Type} [DecidableEq R]

/-- `np.where(rank_address == r)[0]` (mpi_utils_2d.py:654, 670, 674, 702, 706). -/
def whereEq (addr : List R) (r : R) : List ℕ :=
  (List.range addr.length).filter fun i => addr[i]? = some r

/-- `np.count_nonzero(rank_address == r)` (mpi_utils_2d.py:655-657). -/
def localCount (addr : List R) (r : R) : ℕ := addr.countP (· = r)

/-- `slave_ranks_containing_lag_nodes` (mpi_utils_2d.py:658-660), in the order in which the set is iterated (arbitrary). -/
def SlaveSet (addr : List R) (m : R) (order : List R) : Prop :=
  order.Nodup ∧ ∀ r, r ∈ order ↔ r ∈ addr ∧ r ≠ m

/-- A Lagrangian field with `d` components: component, node ↦ value. -/
abbrev LagField (α : Type) := ℕ → ℕ → α

/-- `A.ravel()` of a `d × n` array. -/
def ravelLag (d n : ℕ) (A : LagField α) : List α :=
  (List.range d).flatMap fun k => (List.range n).map fun j => A k j

/-- Writing a received flat buffer into a `d × n` array (row-major, like `reshape(d, n)`). -/
def fillLag (d n : ℕ) (buf : List α) (A : LagField α) : LagField α := fun k j =>
  if k < d ∧ j < n then (match buf[k * n + j]? with | some v => v | none => A k j) else A k j

/-- `global_lag_field[:, idx]`: the selected columns. -/
def cols (idx : List ℕ) (A : LagField α) : LagField α := fun k j =>
  match idx[j]? with | some i => A k i | none => A k j

/-- `global_lag_field[:, idx] = B` with `B` of shape `(d, len idx)`. -/
def setCols (d : ℕ) (idx : List ℕ) (B : LagField α) (A : LagField α) : LagField α := fun k i =>
  if k < d ∧ i ∈ idx then B k (idx.idxOf i) else A k i

/-- `scatter_global_field` (mpi_utils_2d.py:662-685, mpi_utils_3d.py:1410-1433): the local fields afterwards.
The local array of rank `r` has shape `(d, localCount addr r)`. -/
def scatterLag (d : ℕ) (addr : List R) (m : R) (order : List R) (G : LagField α) (loc : R → LagField α) : R → LagField α :=
  fun r =>
    if r = m then
      -- local_lag_field[...] = global_lag_field[:, idx]
      fun k j => if k < d ∧ j < localCount addr m then cols (whereEq addr m) G k j else loc m k j
    else if r ∈ order then
      fillLag d (localCount addr r) (ravelLag d (whereEq addr r).length (cols (whereEq addr r) G)) (loc r)
    else loc r

/-- `gather_local_field` (mpi_utils_2d.py:687-712, mpi_utils_3d.py:1435-1459): the master's global field afterwards.
`junk` is the content of the uninitialised `np.empty` receive buffer. -/
def gatherLag (d : ℕ) (addr : List R) (m : R) (order : List R) (loc : R → LagField α) (junk G : LagField α) : LagField α :=
  order.foldl
    (fun G r =>
      let idx := whereEq addr r
      let buf := ravelLag d (localCount addr r) (loc r)
      setCols d idx (fillLag d idx.length buf junk) G)
    (setCols d (whereEq addr m) (loc m) G)

end Comm
end Sopht
