import Verif.GhostSum
import Verif.Lagrangian
import Mathlib.Algebra.BigOperators.Group.Finset.Basic
import Mathlib.Data.Finset.Range

/-!
# Interpolation and spreading between the Eulerian grid and Lagrangian nodes

Models `EulerianLagrangianGridCommunicatorMPI2D` (`EulerianLagrangianGridCommunicatorMPI2D.py:10-386`) and
`EulerianLagrangianGridCommunicatorMPI3D` (`EulerianLagrangianGridCommunicatorMPI3D.py:10-442`), both in
`sopht_mpi/numeric/immersed_boundary_ops/`.  Positions and field values live in a linearly ordered field with floor (exact
arithmetic, no rounding).  Local arrays are functions of the index; that every index used lies inside the array is property C21.
The weights are an arbitrary function `W` of the distances along the axes; the two functions the code offers are modelled in
`Verif.Weights`.
-/

namespace Sopht

open Finset

/-- `__init__`: validation of the arguments (2D:27-97, 3D:28-100). `dim` is 2 or 3. -/
def elCheck (dim : ℕ) (ghost width ncomp : ℤ) (kernel : String) : Except PyErr Unit :=
  if ghost < width then .error .valueError
  else if ¬ (ncomp = 1 ∨ ncomp = dim) then .error .assertionError
  else if kernel = "peskin" ∨ kernel = "cosine" then
    if width = 2 then .ok () else .error .assertionError
  else .error .valueError

section Axis
variable {K : Type} [Field K] [LinearOrder K] [FloorRing K]

/-- One axis of `mpi_local_substart_coord_shift` (2D:41-46, 3D:42-47): start of the block minus the ghost size. -/
def substart (n g : ℕ) (c : ℤ) : ℤ := c * n - g

/-- One axis of `nearest_eul_grid_index_to_lag_grid` (2D:151-158, 3D:153-160); `//` is floor division. -/
def nearestIx (dx shift : K) (sub : ℤ) (x : K) : ℤ := ⌊(x - shift) / dx⌋ - sub

/-- Element `i` of `np.arange(-interp_kernel_width + 1, interp_kernel_width + 1)` (2D:131, 3D:133). -/
def offset (w : ℕ) (i : ℤ) : ℤ := -w + 1 + i

/-- One axis of `local_eul_grid_support_of_lag_grid` for support element `i` (2D:160-172, 3D:162-173). -/
def suppDist (dx shift : K) (sub : ℤ) (w : ℕ) (x : K) (i : ℤ) : K :=
  ((nearestIx dx shift sub x + offset w i + sub : ℤ) : K) * dx + shift - x

end Axis

section D2
variable {K : Type} [Field K] [LinearOrder K] [FloorRing K]

/-- `interp_weights[j, i]` for one node: support component 0 varies along `i` and is measured along x, component 1 along `j` and y
(`np.meshgrid(x, x)`, 2D:131-133; the weights kernels are elementwise, 2D:389-518). -/
def weight2 (T : Cart2) (g w : ℕ) (dx shift : K) (W : K → K → K) (c : C2) (x : K × K) (j i : ℤ) : K :=
  W (suppDist dx shift (substart T.nx g c.2) w x.1 i) (suppDist dx shift (substart T.ny g c.1) w x.2 j)

/-- First row / column of the window of a node on rank `c`: `nearest - width + 1`. -/
def winStart2 (T : Cart2) (g w : ℕ) (dx shift : K) (c : C2) (x : K × K) : C2 :=
  (nearestIx dx shift (substart T.ny g c.1) x.2 - w + 1, nearestIx dx shift (substart T.nx g c.2) x.1 - w + 1)

/-- `eulerian_to_lagrangian_grid_interpolation_kernel` for one node (2D:177-284; the vector version does the same for each
component): `np.sum(window * weights) * dx ** 2`. -/
def eulToLag2 (T : Cart2) (g w : ℕ) (dx shift : K) (W : K → K → K) (c : C2) (A : C2 → K) (x : K × K) : K :=
  let s := winStart2 T g w dx shift c x
  (∑ j ∈ range (2 * w), ∑ i ∈ range (2 * w), A (s.1 + j, s.2 + i) * weight2 T g w dx shift W c x j i) * dx ^ 2

/-- `lagrangian_to_eulerian_grid_interpolation_kernel_without_ghost_sum` for one node (2D:287-374): `window += value * weights`. -/
def lagToEul2 (T : Cart2) (g w : ℕ) (dx shift : K) (W : K → K → K) (c : C2) (A : C2 → K) (nd : (K × K) × K) : C2 → K :=
  let s := winStart2 T g w dx shift c nd.1
  fun p =>
    if (s.1 ≤ p.1 ∧ p.1 < s.1 + 2 * w) ∧ (s.2 ≤ p.2 ∧ p.2 < s.2 + 2 * w) then
      A p + nd.2 * weight2 T g w dx shift W c nd.1 (p.1 - s.1) (p.2 - s.2)
    else A p

/-- All nodes of a rank, in their order. -/
def spread2 (T : Cart2) (g w : ℕ) (dx shift : K) (W : K → K → K) (c : C2) (A : C2 → K) (nodes : List ((K × K) × K)) :
    C2 → K := nodes.foldl (lagToEul2 T g w dx shift W c) A

/-- `lagrangian_to_eulerian_grid_interpolation_kernel` on all ranks (2D:99-114): every rank spreads its nodes, then ghost sum.
The state includes the receive buffers of the ghost sum communicator. -/
def spreadSum2 (T : Cart2) (g w : ℕ) (dx shift : K) (W : K → K → K) (nodes : C2 → List ((K × K) × K)) (l : C2 → GS2 K) :
    C2 → GS2 K :=
  ghostSum2 T g fun c => { l c with A := spread2 T g w dx shift W c (l c).A (nodes c) }

end D2

section D3
variable {K : Type} [Field K] [LinearOrder K] [FloorRing K]

/-- 3D weights `interp_weights[k, j, i]` (`np.meshgrid(x, x, x, indexing="ij")`, 3D:133-135): component 0 (x) varies along `i`,
1 (y) along `j`, 2 (z) along `k`. -/
def weight3 (T : Cart3) (g w : ℕ) (dx shift : K) (W : K → K → K → K) (c : C3) (x : K × K × K) (k j i : ℤ) : K :=
  W (suppDist dx shift (substart T.nx g c.2.2) w x.1 i) (suppDist dx shift (substart T.ny g c.2.1) w x.2.1 j)
    (suppDist dx shift (substart T.nz g c.1) w x.2.2 k)

/-- First index of the window along each axis. -/
def winStart3 (T : Cart3) (g w : ℕ) (dx shift : K) (c : C3) (x : K × K × K) : C3 :=
  (nearestIx dx shift (substart T.nz g c.1) x.2.2 - w + 1, nearestIx dx shift (substart T.ny g c.2.1) x.2.1 - w + 1,
    nearestIx dx shift (substart T.nx g c.2.2) x.1 - w + 1)

/-- 3D interpolation for one node (3D:178-327). -/
def eulToLag3 (T : Cart3) (g w : ℕ) (dx shift : K) (W : K → K → K → K) (c : C3) (A : C3 → K) (x : K × K × K) : K :=
  let s := winStart3 T g w dx shift c x
  (∑ k ∈ range (2 * w), ∑ j ∈ range (2 * w), ∑ i ∈ range (2 * w),
    A (s.1 + k, s.2.1 + j, s.2.2 + i) * weight3 T g w dx shift W c x k j i) * dx ^ 3

/-- 3D spreading of one node (3D:330-427). -/
def lagToEul3 (T : Cart3) (g w : ℕ) (dx shift : K) (W : K → K → K → K) (c : C3) (A : C3 → K) (nd : (K × K × K) × K) : C3 → K :=
  let s := winStart3 T g w dx shift c nd.1
  fun p =>
    if (s.1 ≤ p.1 ∧ p.1 < s.1 + 2 * w) ∧ (s.2.1 ≤ p.2.1 ∧ p.2.1 < s.2.1 + 2 * w) ∧
        (s.2.2 ≤ p.2.2 ∧ p.2.2 < s.2.2 + 2 * w) then
      A p + nd.2 * weight3 T g w dx shift W c nd.1 (p.1 - s.1) (p.2.1 - s.2.1) (p.2.2 - s.2.2)
    else A p

/-- All nodes of a rank, in their order. -/
def spread3 (T : Cart3) (g w : ℕ) (dx shift : K) (W : K → K → K → K) (c : C3) (A : C3 → K) (nodes : List ((K × K × K) × K)) :
    C3 → K := nodes.foldl (lagToEul3 T g w dx shift W c) A

/-- 3D spreading and ghost sum (3D:101-115). -/
def spreadSum3 (T : Cart3) (g w : ℕ) (dx shift : K) (W : K → K → K → K) (nodes : C3 → List ((K × K × K) × K)) (l : C3 → GS3 K) :
    C3 → GS3 K :=
  ghostSum3 T g fun c => { l c with A := spread3 T g w dx shift W c (l c).A (nodes c) }

end D3

/-- The nodes a rank holds, in the order of the global arrays: those whose rank address is `c`
(`np.where(rank_address == rank)`, mpi_utils_2d.py:668-676; see `scatterLag_correct`). -/
def nodesOf {R N : Type} [DecidableEq R] (addr : List R) (nodes : List N) (c : R) : List N :=
  ((addr.zip nodes).filter fun q => q.1 = c).map fun q => q.2

end Sopht
