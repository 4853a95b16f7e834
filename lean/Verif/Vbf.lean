import Verif.Lagrangian
import Mathlib.Data.Real.Sqrt

/-!
# Virtual boundary forcing

Models `VirtualBoundaryForcingMPI` (`sopht_mpi/numeric/immersed_boundary_ops/VirtualBoundaryForcingMPI.py`), mode
`assume_data_locality = False`, as one state for all ranks (every method is called collectively; the communication inside
`gather_local_field` / `scatter_global_field` is modelled in `Verif.Lagrangian`).

Simplifications.  Arithmetic is exact.  The interpolation of the flow velocity (steps 1-3 of
`compute_interaction_force_on_lag_grid`) is a parameter `I r x k`: the value rank `r` interpolates for component `k` at position
`x` (modelled in `Verif.Interp`).  The result of `_compute_lag_nodes_rank_address` is a parameter `addrOf` (modelled in
`Verif.Lagrangian` as `rankAddress2`, `rankAddress3`).
-/

namespace Sopht

variable {R α : Type} [DecidableEq R]

/-- Data of the communicator and the forcing class which matter for the forcing (VirtualBoundaryForcingMPI.py:33-157). -/
structure VbfCfg (R α : Type) where
  /-- `grid_dim` -/
  d : ℕ
  /-- `master_rank` -/
  m : R
  /-- the ranks of the Cartesian communicator -/
  ranks : List R
  /-- iteration order of `slave_ranks_containing_lag_nodes` -/
  ord : List R → List R
  /-- content of uninitialised receive buffers -/
  junk : LagField α
  /-- `virtual_boundary_stiffness_coeff` -/
  stiff : α
  /-- `virtual_boundary_damping_coeff` -/
  damp : α
  /-- node mapping (`_compute_lag_nodes_rank_address`) -/
  addrOf : LagField α → List R

/-- Mutable state (VirtualBoundaryForcingMPI.py:76, 142-157, 179-236); local arrays are indexed by rank. -/
structure Vbf (R α : Type) where
  /-- `mpi_lagrangian_field_communicator.rank_address` -/
  addr : List R
  /-- `local_num_lag_nodes` -/
  cnt : R → ℕ
  /-- `local_lag_grid_position_mismatch_field` -/
  posM : R → LagField α
  /-- `local_lag_grid_velocity_mismatch_field` -/
  velM : R → LagField α
  /-- `local_lag_grid_forcing_field` -/
  force : R → LagField α
  /-- `local_lag_grid_position_field` -/
  lpos : R → LagField α
  /-- `local_lag_grid_velocity_field` -/
  lvel : R → LagField α
  /-- `global_lag_grid_position_mismatch_field` on the master -/
  gposM : LagField α
  /-- `global_lag_grid_velocity_mismatch_field` on the master -/
  gvelM : LagField α
  /-- `global_lag_grid_forcing_field` on the master -/
  gforce : LagField α
  /-- `time` -/
  time : α

variable [Ring α]

/-- `__init__` (VirtualBoundaryForcingMPI.py:71-157): validation of the arguments. -/
def vbfCheck (gridDim interpWidth ghostSize : ℤ) : Except PyErr Unit :=
  if gridDim ≠ 2 ∧ gridDim ≠ 3 then .error .valueError
  else if interpWidth > ghostSize then .error .valueError
  else .ok ()

/-- `__init__` with `_init_local_buffers` and `_init_global_buffers` (VirtualBoundaryForcingMPI.py:140-157, 179-236). -/
def vbfInit (c : VbfCfg R α) (X0 : LagField α) (t0 : α) : Vbf R α where
  addr := c.addrOf X0
  cnt := fun r => localCount (c.addrOf X0) r
  posM := fun _ _ _ => 0
  velM := fun _ _ _ => 0
  force := fun _ _ _ => 0
  lpos := fun _ _ _ => 0
  lvel := fun _ _ _ => 0
  gposM := fun _ _ => 0
  gvelM := fun _ _ => 0
  gforce := fun _ _ => 0
  time := t0

/-- `update_buffers` (VirtualBoundaryForcingMPI.py:238-276). -/
def vbfUpdateBuffers (c : VbfCfg R α) (X : LagField α) (s : Vbf R α) : Vbf R α :=
  -- gather with the old mapping (241-248)
  let gP := gatherLag c.d s.addr c.m (c.ord s.addr) s.posM c.junk s.gposM
  let gV := gatherLag c.d s.addr c.m (c.ord s.addr) s.velM c.junk s.gvelM
  -- remap (250-252)
  let addr' := c.addrOf X
  -- allreduce(local_num_lag_nodes != communicator.local_num_lag_nodes, LOR) (254-260)
  let flag := c.ranks.any fun r => decide (s.cnt r ≠ localCount addr' r)
  if flag then
    { s with
      gposM := gP, gvelM := gV, addr := addr'
      cnt := fun r => localCount addr' r
      -- _init_local_buffers, then scatter with the new mapping (264-276)
      posM := scatterLag c.d addr' c.m (c.ord addr') gP (fun _ _ _ => 0)
      velM := scatterLag c.d addr' c.m (c.ord addr') gV (fun _ _ _ => 0)
      force := fun _ _ _ => 0
      lpos := fun _ _ _ => 0
      lvel := fun _ _ _ => 0 }
  else { s with gposM := gP, gvelM := gV, addr := addr' }

/-- `compute_interaction_force_on_lag_grid` (VirtualBoundaryForcingMPI.py:333-406).
`X`, `U`: global node positions and velocities on the master; `I`: interpolated flow velocity. -/
def vbfInteract (c : VbfCfg R α) (X U : LagField α) (I : R → (ℕ → α) → ℕ → α) (s0 : Vbf R α) : Vbf R α :=
  let s := vbfUpdateBuffers c X s0
  let lpos := scatterLag c.d s.addr c.m (c.ord s.addr) X s.lpos
  let lvel := scatterLag c.d s.addr c.m (c.ord s.addr) U s.lvel
  -- 362-380: flow velocity at the local nodes; 383-387: velocity mismatch
  let velM : R → LagField α := fun r k j => I r (fun k' => lpos r k' j) k - lvel r k j
  -- 391-397: penalty force
  let force : R → LagField α := fun r k j => c.stiff * s.posM r k j + c.damp * velM r k j
  { s with
    lpos := lpos, lvel := lvel, velM := velM, force := force
    -- 403-406
    gforce := gatherLag c.d s.addr c.m (c.ord s.addr) force c.junk s.gforce }

/-- `time_step` (VirtualBoundaryForcingMPI.py:452-459, 297-310). -/
def vbfStep (dt : α) (s : Vbf R α) : Vbf R α :=
  { s with
    posM := fun r k j => s.posM r k j + dt * s.velM r k j
    time := s.time + dt }

/-- Calls a user can make. -/
inductive VbfOp (R α : Type) where
  | interact (X U : LagField α) (I : R → (ℕ → α) → ℕ → α)
  | step (dt : α)

/-- One call. -/
def vbfApply (c : VbfCfg R α) (s : Vbf R α) : VbfOp R α → Vbf R α
  | .interact X U I => vbfInteract c X U I s
  | .step dt => vbfStep dt s

/-- A history of calls. -/
def vbfRun (c : VbfCfg R α) (s : Vbf R α) (ops : List (VbfOp R α)) : Vbf R α := ops.foldl (vbfApply c) s

/-- `np.linalg.norm(local_lag_grid_position_mismatch_field)` on a rank: Frobenius norm of a `d × n` array. -/
noncomputable def frobNorm (d n : ℕ) (A : LagField ℝ) : ℝ :=
  Real.sqrt (((List.range d).map fun k => ((List.range n).map fun j => A k j ^ 2).sum).sum)

/-- `get_grid_deviation_error_l2_norm(compute_global=True)`
(`sopht_mpi/simulator/immersed_body/immersed_body_flow_interaction_mpi.py:187-202`): the value on every rank.
`reduce` sums over the ranks in some order, `bcast` hands the master's value to all. `numNodes` is
`forcing_grid.num_lag_nodes` on the master. -/
noncomputable def gridDeviation (d : ℕ) (ranks : List R) (numNodes : ℕ) (s : Vbf R ℝ) (_r : R) : ℝ :=
  let reduced := (ranks.map fun r => frobNorm d (s.cnt r) (s.posM r) ^ 2).sum
  Real.sqrt reduced / Real.sqrt numNodes

end Sopht
