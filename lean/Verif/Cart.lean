import Mathlib.Data.Int.ModEq
import Mathlib.Tactic.Linarith

/-!
# Cartesian topology and domain decomposition

Models `MPIConstruct2D` (`sopht_mpi/utils/mpi_utils_2d.py:9-84`) and `MPIConstruct3D`
(`sopht_mpi/utils/mpi_utils_3d.py:8-83`).  Ranks of the cartesian communicator are identified with their
coordinates (`rankOf2`, `rankOf3` and their inverses connect them to rank numbers).
`periods=self.periodic_domain` is one Bool for all axes.
-/

namespace Sopht

/-- The ways in which a call of the modelled code can fail. -/
inductive PyErr where
  | runtimeError | valueError | indexError | keyError | mpiError | mpiAbort | assertionError | attributeError | typeError
  deriving DecidableEq, Repr

/-- `MPI_Cart_shift` along one axis with `P` ranks (trusted MPI semantics; used through
`self.grid.Shift(dim, 1)`, mpi_utils_2d.py:70-74, mpi_utils_3d.py:69-73): neighbour coordinate, `none` = PROC_NULL. -/
def axisNbr (P : ℕ) (per : Bool) (c s : ℤ) : Option ℤ :=
  if 0 ≤ c + s ∧ c + s < P then some (c + s)
  else if per then some ((c + s) % P) else none

/-- A decomposed 2D domain: the attributes of `MPIConstruct2D` that other code reads
(mpi_utils_2d.py:46-76). `py px`: grid_topology, `ny nx`: local_grid_size, `gy gx`: global_grid_size. -/
structure Cart2 where
  gy : ℕ
  gx : ℕ
  py : ℕ
  px : ℕ
  ny : ℕ
  nx : ℕ
  per : Bool
  deriving DecidableEq, Repr

/-- `MPIConstruct2D.__init__` (mpi_utils_2d.py:46-62) given the topology returned by `Compute_dims`. -/
def mkCart2 (gy gx py px : ℕ) (per : Bool) : Except PyErr Cart2 :=
  if gy % py ≠ 0 ∨ gx % px ≠ 0 then .error .runtimeError
  else .ok { gy, gx, py, px, per, ny := gy / py, nx := gx / px }

/-- A decomposed 3D domain, attributes of `MPIConstruct3D` (mpi_utils_3d.py:45-75). -/
structure Cart3 where
  gz : ℕ
  gy : ℕ
  gx : ℕ
  pz : ℕ
  py : ℕ
  px : ℕ
  nz : ℕ
  ny : ℕ
  nx : ℕ
  per : Bool
  deriving DecidableEq, Repr

/-- `MPIConstruct3D.__init__` (mpi_utils_3d.py:45-61) given the topology returned by `Compute_dims`. -/
def mkCart3 (gz gy gx pz py px : ℕ) (per : Bool) : Except PyErr Cart3 :=
  if gz % pz ≠ 0 ∨ gy % py ≠ 0 ∨ gx % px ≠ 0 then .error .runtimeError
  else .ok { gz, gy, gx, pz, py, px, per, nz := gz / pz, ny := gy / py, nx := gx / px }

/-- Coordinates (y, x) of a rank in a 2D topology. -/
abbrev C2 := ℤ × ℤ
/-- Coordinates (z, y, x) of a rank in a 3D topology; also used for 3D cell indices. -/
abbrev C3 := ℤ × ℤ × ℤ

/-- The integers `0, …, n-1`. -/
def irange (n : ℕ) : List ℤ := (List.range n).map fun k : ℕ => (k : ℤ)

/-- All ranks of a 2D topology (row-major, as `Create_cart(reorder=False)`, mpi_utils_2d.py:64-66). -/
def ranks2 (T : Cart2) : List C2 :=
  (irange T.py).flatMap fun cy => (irange T.px).map fun cx => (cy, cx)

/-- All ranks of a 3D topology (row-major, mpi_utils_3d.py:63-65). -/
def ranks3 (T : Cart3) : List C3 :=
  (irange T.pz).flatMap fun cz => (irange T.py).flatMap fun cy => (irange T.px).map fun cx => (cz, cy, cx)

/-- `c` is the coordinate of a rank of the topology. -/
def Valid2 (T : Cart2) (c : C2) : Prop := 0 ≤ c.1 ∧ c.1 < T.py ∧ 0 ≤ c.2 ∧ c.2 < T.px

/-- `c` is the coordinate of a rank of the topology. -/
def Valid3 (T : Cart3) (c : C3) : Prop :=
  0 ≤ c.1 ∧ c.1 < T.pz ∧ 0 ≤ c.2.1 ∧ c.2.1 < T.py ∧ 0 ≤ c.2.2 ∧ c.2.2 < T.px

/-- Row-major rank number (`Get_cart_rank`, trusted MPI semantics). -/
def rankOf2 (T : Cart2) (c : C2) : ℤ := c.1 * T.px + c.2
/-- Coordinates of a rank number (`Get_coords`, `grid.coords`, trusted MPI semantics). -/
def coordsOf2 (T : Cart2) (r : ℤ) : C2 := (r / T.px, r % T.px)
/-- Row-major rank number (`Get_cart_rank`, trusted MPI semantics). -/
def rankOf3 (T : Cart3) (c : C3) : ℤ := (c.1 * T.py + c.2.1) * T.px + c.2.2
/-- Coordinates of a rank number (`Get_coords`, trusted MPI semantics). -/
def coordsOf3 (T : Cart3) (r : ℤ) : C3 := (r / T.px / T.py, r / T.px % T.py, r % T.px)

/-- `previous_grid_along[y_axis]`, mpi_utils_2d.py:68-74. -/
def prevY2 (T : Cart2) (c : C2) : Option C2 := (axisNbr T.py T.per c.1 (-1)).map fun d => (d, c.2)
/-- `next_grid_along[y_axis]`, mpi_utils_2d.py:68-74. -/
def nextY2 (T : Cart2) (c : C2) : Option C2 := (axisNbr T.py T.per c.1 1).map fun d => (d, c.2)
/-- `previous_grid_along[x_axis]`, mpi_utils_2d.py:68-74. -/
def prevX2 (T : Cart2) (c : C2) : Option C2 := (axisNbr T.px T.per c.2 (-1)).map fun d => (c.1, d)
/-- `next_grid_along[x_axis]`, mpi_utils_2d.py:68-74. -/
def nextX2 (T : Cart2) (c : C2) : Option C2 := (axisNbr T.px T.per c.2 1).map fun d => (c.1, d)

/-- `previous_grid_along[z_axis]`, mpi_utils_3d.py:67-73. -/
def prevZ3 (T : Cart3) (c : C3) : Option C3 := (axisNbr T.pz T.per c.1 (-1)).map fun d => (d, c.2.1, c.2.2)
/-- `next_grid_along[z_axis]`, mpi_utils_3d.py:67-73. -/
def nextZ3 (T : Cart3) (c : C3) : Option C3 := (axisNbr T.pz T.per c.1 1).map fun d => (d, c.2.1, c.2.2)
/-- `previous_grid_along[y_axis]`, mpi_utils_3d.py:67-73. -/
def prevY3 (T : Cart3) (c : C3) : Option C3 := (axisNbr T.py T.per c.2.1 (-1)).map fun d => (c.1, d, c.2.2)
/-- `next_grid_along[y_axis]`, mpi_utils_3d.py:67-73. -/
def nextY3 (T : Cart3) (c : C3) : Option C3 := (axisNbr T.py T.per c.2.1 1).map fun d => (c.1, d, c.2.2)
/-- `previous_grid_along[x_axis]`, mpi_utils_3d.py:67-73. -/
def prevX3 (T : Cart3) (c : C3) : Option C3 := (axisNbr T.px T.per c.2.2 (-1)).map fun d => (c.1, c.2.1, d)
/-- `next_grid_along[x_axis]`, mpi_utils_3d.py:67-73. -/
def nextX3 (T : Cart3) (c : C3) : Option C3 := (axisNbr T.px T.per c.2.2 1).map fun d => (c.1, c.2.1, d)

/-- `MPIGhostCommunicator2D._get_diagonally_shifted_coord_rank` (mpi_utils_2d.py:177-189); in the periodic case
`Get_cart_rank` wraps the coordinates (trusted MPI semantics). -/
def diag2 (T : Cart2) (c s : C2) : Option C2 :=
  let sc : C2 := (c.1 + s.1, c.2 + s.2)
  if T.per = false ∧ ((sc.1 ≥ T.py ∨ sc.2 ≥ T.px) ∨ (sc.1 < 0 ∨ sc.2 < 0)) then none
  else if T.per then some (sc.1 % T.py, sc.2 % T.px) else some sc

/-- `MPIGhostCommunicator3D._get_diagonally_shifted_coord_rank` (mpi_utils_3d.py:742-754). -/
def diag3 (T : Cart3) (c s : C3) : Option C3 :=
  let sc : C3 := (c.1 + s.1, c.2.1 + s.2.1, c.2.2 + s.2.2)
  if T.per = false ∧ ((sc.1 ≥ T.pz ∨ sc.2.1 ≥ T.py ∨ sc.2.2 ≥ T.px) ∨ (sc.1 < 0 ∨ sc.2.1 < 0 ∨ sc.2.2 < 0)) then none
  else if T.per then some (sc.1 % T.pz, sc.2.1 % T.py, sc.2.2 % T.px) else some sc

end Sopht
