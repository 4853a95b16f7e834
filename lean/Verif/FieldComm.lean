import Verif.Ghost2D
import Verif.Ghost3D

/-!
# Scatter and gather of global fields

Models `MPIFieldCommunicator2D` (`sopht_mpi/utils/mpi_utils_2d.py:423-568`) and `MPIFieldCommunicator3D`
(`sopht_mpi/utils/mpi_utils_3d.py:1145-1306`).  The master's global field is addressed by the flat offsets of
`global_field.ravel()`, which is what the code computes with.  The master is the rank with coordinates `m`;
`order` is the order in which the loop over the Python set `slave_ranks` visits the other ranks (unspecified, so arbitrary).
All sends and receives are blocking and name their partner; each slave has exactly one message.
A global field with an axis of size 0 (on which `np.ravel_multi_index` raises) is not considered.
-/

namespace Sopht

/-- Indices selected by the slice `a:b` on an axis with `size` elements (NumPy semantics). -/
def pySlice (size : ℕ) (a b : ℤ) : List ℤ :=
  (irange (pyStart size b - pyStart size a).toNat).map fun k => pyStart size a + k

/-- One axis of `inner_idx` on an axis with `n` inner cells: `...` if `ghost_size == 0`, else `slice(ghost_size, -ghost_size)`
(mpi_utils_2d.py:442-447, mpi_utils_3d.py:1164-1169). -/
def innerAxis (g n : ℕ) : List ℤ := if g = 0 then irange (n + 2 * g) else pySlice (n + 2 * g) g (-g)

/-- Type map of a 2D `Create_subarray` on an array with `cols` columns, row-major (MPI semantics). -/
def subFlat2 (cols : ℤ) (sub : ℕ × ℕ) (starts : C2) : List ℤ :=
  (irange sub.1).flatMap fun a => (irange sub.2).map fun b => (starts.1 + a) * cols + (starts.2 + b)

section D2
variable {α : Type} (T : Cart2) (g : ℕ)

/-- Flat offset of global cell `G`. -/
def gflat2 (G : C2) : ℤ := G.1 * T.gx + G.2

/-- Elements of `local_field[inner_idx]` in row-major order, as flat offsets. -/
def innerIx2 : List ℤ :=
  (innerAxis g T.ny).flatMap fun i => (innerAxis g T.nx).map fun j => flat2 T g (i, j)

/-- Elements of `global_field[local_chunk_idx]` (mpi_utils_2d.py:478-488), as flat offsets. -/
def chunkIx2 (c : C2) : List ℤ :=
  (pySlice T.gy (c.1 * T.ny) ((c.1 + 1) * T.ny)).flatMap fun i =>
    (pySlice T.gx (c.2 * T.nx) ((c.2 + 1) * T.nx)).map fun j => gflat2 T (i, j)

/-- `(global_field.ravel()[idx:], 1, sub_array_type)` on the master (mpi_utils_2d.py:453-459, 493-501). -/
def masterBuf2 (c : C2) : List ℤ :=
  (subFlat2 T.gx (T.ny, T.nx) (0, 0)).map fun o =>
    pyStart (T.gy * T.gx : ℕ) (c.1 * T.ny * T.gx + c.2 * T.nx) + o

/-- `(local_field, 1, sub_array_type)` on the other ranks (mpi_utils_2d.py:461-467, 505-507). -/
def slaveBuf2 : List ℤ := subFlat2 (T.nx + 2 * g) (T.ny, T.nx) (g, g)

/-- `gather_local_scalar_field` (mpi_utils_2d.py:470-508): the global field on the master afterwards. -/
def gather2 (m : C2) (order : List C2) (w : World C2 ℤ α) (Gf : ℤ → α) : ℤ → α :=
  order.foldl (fun A r => unpack A (masterBuf2 T r) ((slaveBuf2 T g).map (w r)))
    (unpack Gf (chunkIx2 T m) ((innerIx2 T g).map (w m)))

/-- `scatter_global_scalar_field` (mpi_utils_2d.py:524-555): the local fields afterwards. -/
def scatter2 (m : C2) (order : List C2) (Gf : ℤ → α) (w : World C2 ℤ α) : World C2 ℤ α :=
  order.foldl (fun w r => setRank w r (unpack (w r) (slaveBuf2 T g) ((masterBuf2 T r).map Gf)))
    (setRank w m (unpack (w m) (innerIx2 T g) ((chunkIx2 T m).map Gf)))

/-- `gather_local_vector_field` (mpi_utils_2d.py:510-522): component 0, then component 1. -/
def gatherVec2 (m : C2) (order : List C2) (w : Fin 2 → World C2 ℤ α) (Gf : Fin 2 → ℤ → α) : Fin 2 → ℤ → α :=
  let G1 := Function.update Gf 0 (gather2 T g m order (w 0) (Gf 0))
  Function.update G1 1 (gather2 T g m order (w 1) (G1 1))

/-- `scatter_global_vector_field` (mpi_utils_2d.py:557-568). -/
def scatterVec2 (m : C2) (order : List C2) (Gf : Fin 2 → ℤ → α) (w : Fin 2 → World C2 ℤ α) : Fin 2 → World C2 ℤ α :=
  let w1 := Function.update w 0 (scatter2 T g m order (Gf 0) (w 0))
  Function.update w1 1 (scatter2 T g m order (Gf 1) (w1 1))

/-- The loop visits every rank but the master once (mpi_utils_2d.py:451-452). -/
def SlaveOrder2 (m : C2) (order : List C2) : Prop :=
  order.Nodup ∧ ∀ r, r ∈ order ↔ Valid2 T r ∧ r ≠ m

end D2

section D3
variable {α : Type} (T : Cart3) (g : ℕ)

/-- Flat offset of global cell `G`. -/
def gflat3 (G : C3) : ℤ := (G.1 * T.gy + G.2.1) * T.gx + G.2.2

/-- Elements of `local_field[inner_idx]` in row-major order. -/
def innerIx3 : List C3 :=
  (innerAxis g T.nz).flatMap fun i => (innerAxis g T.ny).flatMap fun j => (innerAxis g T.nx).map fun k => (i, j, k)

/-- Elements of `global_field[local_chunk_idx]` (mpi_utils_3d.py:1198-1213), as flat offsets. -/
def chunkIx3 (c : C3) : List ℤ :=
  (pySlice T.gz (c.1 * T.nz) ((c.1 + 1) * T.nz)).flatMap fun i =>
    (pySlice T.gy (c.2.1 * T.ny) ((c.2.1 + 1) * T.ny)).flatMap fun j =>
      (pySlice T.gx (c.2.2 * T.nx) ((c.2.2 + 1) * T.nx)).map fun k => gflat3 T (i, j, k)

/-- `(global_field.ravel()[idx:], 1, sub_array_type)` on the master (mpi_utils_3d.py:1175-1181, 1216-1225); the type map of the
subarray with `sizes = global_grid_size` in flat offsets. -/
def masterBuf3 (c : C3) : List ℤ :=
  (subIx (T.nz, T.ny, T.nx) (0, 0, 0)).map fun o =>
    pyStart (T.gz * T.gy * T.gx : ℕ) ((c.1 * T.nz * T.gy + c.2.1 * T.ny) * T.gx + c.2.2 * T.nx) + gflat3 T o

/-- `(local_field, 1, sub_array_type)` on the other ranks (mpi_utils_3d.py:1183-1189, 1227-1230). -/
def slaveBuf3 : List C3 := subIx (T.nz, T.ny, T.nx) (g, g, g)

/-- `gather_local_scalar_field` (mpi_utils_3d.py:1192-1230). -/
def gather3 (m : C3) (order : List C3) (w : World C3 C3 α) (Gf : ℤ → α) : ℤ → α :=
  order.foldl (fun A r => unpack A (masterBuf3 T r) ((slaveBuf3 T g).map (w r)))
    (unpack Gf (chunkIx3 T m) ((innerIx3 T g).map (w m)))

/-- `scatter_global_scalar_field` (mpi_utils_3d.py:1250-1287). -/
def scatter3 (m : C3) (order : List C3) (Gf : ℤ → α) (w : World C3 C3 α) : World C3 C3 α :=
  order.foldl (fun w r => setRank w r (unpack (w r) (slaveBuf3 T g) ((masterBuf3 T r).map Gf)))
    (setRank w m (unpack (w m) (innerIx3 T g) ((chunkIx3 T m).map Gf)))

/-- `gather_local_vector_field` (mpi_utils_3d.py:1232-1248). -/
def gatherVec3 (m : C3) (order : List C3) (w : Fin 3 → World C3 C3 α) (Gf : Fin 3 → ℤ → α) : Fin 3 → ℤ → α :=
  let G1 := Function.update Gf 0 (gather3 T g m order (w 0) (Gf 0))
  let G2 := Function.update G1 1 (gather3 T g m order (w 1) (G1 1))
  Function.update G2 2 (gather3 T g m order (w 2) (G2 2))

/-- `scatter_global_vector_field` (mpi_utils_3d.py:1289-1305). -/
def scatterVec3 (m : C3) (order : List C3) (Gf : Fin 3 → ℤ → α) (w : Fin 3 → World C3 C3 α) : Fin 3 → World C3 C3 α :=
  let w1 := Function.update w 0 (scatter3 T g m order (Gf 0) (w 0))
  let w2 := Function.update w1 1 (scatter3 T g m order (Gf 1) (w1 1))
  Function.update w2 2 (scatter3 T g m order (Gf 2) (w2 2))

/-- The loop visits every rank but the master once (mpi_utils_3d.py:1173-1174). -/
def SlaveOrder3 (m : C3) (order : List C3) : Prop :=
  order.Nodup ∧ ∀ r, r ∈ order ↔ Valid3 T r ∧ r ≠ m

end D3
end Sopht
