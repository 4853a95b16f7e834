import Verif.Vbf
import Verif.Interactor2D
import Verif.Interactor3D

/-!
# Virtual boundary forcing with `assume_data_locality = True`

In this mode every rank has a forcing grid of its own (its "global" node fields are those of the rank) and nothing is communicated on the Lagrangian side
(`VirtualBoundaryForcingMPI.py`, below "VBF.py", and `immersed_body_flow_interaction_mpi.py`, below "IB.py").  Fields are indexed by rank.
Simplifications as in `Verif.Vbf`.
-/

namespace Sopht

section
variable {R α : Type}

/-- Mutable state (VBF.py:76, 152-157, 179-236): the `global_lag_grid_*` fields are views of the local ones (VBF.py:190-199) and not separate state. -/
structure VbfNodes (R α : Type) where
  /-- `local_num_lag_nodes`, also `global_num_lag_nodes` -/
  cnt : R → ℕ
  /-- `local_lag_grid_position_mismatch_field` -/
  posM : R → LagField α
  /-- `local_lag_grid_velocity_mismatch_field` -/
  velM : R → LagField α
  /-- `local_lag_grid_forcing_field` -/
  force : R → LagField α
  /-- `local_lag_grid_position_field` -/
  lpos : R → LagField α
  /-- `local_lag_grid_velocity_field` -/
  lvel : R → LagField α
  /-- `time` -/
  time : α

/-- `global_lag_grid_forcing_field` on rank `r`: a view of the local field (VBF.py:197-199), which is only ever written in place (VBF.py:326-329). -/
def VbfNodes.gforce (s : VbfNodes R α) (r : R) : LagField α := s.force r

variable [Ring α]

/-- `__init__` (VBF.py:146-157, 179-236): `N r` nodes on rank `r`. -/
def nodesInit (N : R → ℕ) (t0 : α) : VbfNodes R α where
  cnt := N
  posM := fun _ _ _ => 0
  velM := fun _ _ _ => 0
  force := fun _ _ _ => 0
  lpos := fun _ _ _ => 0
  lvel := fun _ _ _ => 0
  time := t0

/-- `compute_interaction_force_on_lag_grid` (VBF.py:357-406) with the branch of VBF.py:357-359. -/
def locInteract (stiff damp : α) (X U : R → LagField α) (I : R → (ℕ → α) → ℕ → α) (s : VbfNodes R α) : VbfNodes R α :=
  -- 358-359: views of the fields of the forcing grid
  let lpos := X
  let lvel := U
  -- 362-387
  let velM : R → LagField α := fun r k j => I r (fun k' => lpos r k' j) k - lvel r k j
  -- 391-397
  let force : R → LagField α := fun r k j => stiff * s.posM r k j + damp * velM r k j
  { s with lpos := lpos, lvel := lvel, velM := velM, force := force }

/-- `time_step` (VBF.py:452-459, 297-310). -/
def locStep (dt : α) (s : VbfNodes R α) : VbfNodes R α :=
  { s with
    posM := fun r k j => s.posM r k j + dt * s.velM r k j
    time := s.time + dt }

/-- Calls a user can make; node positions and velocities are given per rank. -/
inductive LocOp (R α : Type) where
  | interact (X U : R → LagField α) (I : R → (ℕ → α) → ℕ → α)
  | step (dt : α)

/-- One call. -/
def locApply (stiff damp : α) (s : VbfNodes R α) : LocOp R α → VbfNodes R α
  | .interact X U I => locInteract stiff damp X U I s
  | .step dt => locStep dt s

/-- A history of calls. -/
def locRun (stiff damp : α) (s : VbfNodes R α) (ops : List (LocOp R α)) : VbfNodes R α := ops.foldl (locApply stiff damp) s

end

/-- `get_grid_deviation_error_l2_norm(compute_global=True)` (IB.py:187-202): `numNodes` is `forcing_grid.num_lag_nodes` on the master, i.e. the number of
nodes of the master's own forcing grid. -/
noncomputable def locDeviation {R : Type} (d : ℕ) (ranks : List R) (numNodes : ℕ) (s : VbfNodes R ℝ) (_r : R) : ℝ :=
  let reduced := (ranks.map fun r => frobNorm d (s.cnt r) (s.posM r) ^ 2).sum
  Real.sqrt reduced / Real.sqrt numNodes

/-- State of an interactor: the forcing object and the receive buffers of its ghost sum communicator, by rank. -/
structure LocSt2 where
  v : VbfNodes C2 ℝ
  row : C2 → C2 → ℝ
  col : C2 → C2 → ℝ

/-- Nodes of rank `r` with component `k` of their forces, as the spreading kernel sees them. -/
def locNodes2 (v : VbfNodes C2 ℝ) (r : C2) (k : ℕ) : List ((ℝ × ℝ) × ℝ) :=
  (List.range (v.cnt r)).map fun j => ((v.lpos r 0 j, v.lpos r 1 j), v.force r k j)

/-- `__init__` (IB.py:19-126, VBF.py:71-177): the nodes are not mapped, so nothing is said about nodes outside the domain. -/
noncomputable def locIbInit2 (g : ℕ) (a : Ib2) (N : C2 → ℕ) (t0 : ℝ) : Except PyErr LocSt2 := do
  let _ ← vbfCheck 2 a.w g
  let _ ← elCheck 2 g a.w 2 "cosine"
  .ok { v := nodesInit N t0, row := fun _ _ => 0, col := fun _ _ => 0 }

/-- Spreading of the forces, as `spreadForces2` (VBF.py:424-430). -/
noncomputable def locSpread2 (T : Cart2) (g : ℕ) (dx : ℝ) (a : Ib2) (b : LocSt2) (f : Fin 2 → World C2 C2 ℝ) : LocSt2 × (Fin 2 → World C2 C2 ℝ) :=
  let A : Fin 2 → World C2 C2 ℝ := fun k r => spread2 T g a.w dx (a.sh dx) (cosW2 dx) r (f k r) (locNodes2 b.v r k.1)
  let r0 := ghostSum2 T g fun c => ⟨A 0 c, b.row c, b.col c⟩
  let r1 := ghostSum2 T g fun c => ⟨A 1 c, (r0 c).row, (r0 c).col⟩
  ({ b with row := fun c => (r1 c).row, col := fun c => (r1 c).col }, ![fun c => (r0 c).A, fun c => (r1 c).A])

/-- `compute_interaction_on_lag_grid` (IB.py:140-157). `X`, `U`: what the forcing grids of the ranks compute. -/
noncomputable def locLagInteract2 {T : Cart2} (C : Cfg2) (a : Ib2) (s : List Ev) (X U : C2 → LagField ℝ) (S : Sim2 T) (b : LocSt2) : Sim2 T × LocSt2 :=
  let dx := simDx2 T C.xr
  let vel := if a.auto then ghostVel2 T C.g s S.vel else S.vel
  ({ S with vel := vel },
    { b with v := locInteract (a.stiff * a.lagDx ^ (2 - 1)) (a.damp * a.lagDx ^ (2 - 1)) X U (flowVel2 T C.g dx a vel) b.v })

/-- `__call__` = `compute_full_interaction` (IB.py:128-129, 159-175; VBF.py:409-450). -/
noncomputable def locFullInteract2 {T : Cart2} (C : Cfg2) (a : Ib2) (s : List Ev) (X U : C2 → LagField ℝ) (S : Sim2 T) (b : LocSt2) : Sim2 T × LocSt2 :=
  let S1 : Sim2 T := if a.reset then { S with forcing := fun _ _ _ => 0 } else S
  let q := locLagInteract2 C a s X U S1 b
  let r := locSpread2 T C.g (simDx2 T C.xr) a q.2 q.1.forcing
  ({ q.1 with forcing := r.2 }, r.1)

/-- State of an interactor in 3D. -/
structure LocSt3 where
  v : VbfNodes C3 ℝ
  bz : C3 → C3 → ℝ
  by' : C3 → C3 → ℝ
  bx : C3 → C3 → ℝ

/-- Nodes of rank `r` with component `k` of their forces, as the spreading kernel sees them. -/
def locNodes3 (v : VbfNodes C3 ℝ) (r : C3) (k : ℕ) : List ((ℝ × ℝ × ℝ) × ℝ) :=
  (List.range (v.cnt r)).map fun j => ((v.lpos r 0 j, v.lpos r 1 j, v.lpos r 2 j), v.force r k j)

/-- `__init__` (IB.py:19-126, VBF.py:71-177). -/
noncomputable def locIbInit3 (g : ℕ) (a : Ib3) (N : C3 → ℕ) (t0 : ℝ) : Except PyErr LocSt3 := do
  let _ ← vbfCheck 3 a.w g
  let _ ← elCheck 3 g a.w 3 "cosine"
  .ok { v := nodesInit N t0, bz := fun _ _ => 0, by' := fun _ _ => 0, bx := fun _ _ => 0 }

/-- Spreading of the forces, as `spreadForces3` (VBF.py:424-430). -/
noncomputable def locSpread3 (T : Cart3) (g : ℕ) (dx : ℝ) (a : Ib3) (b : LocSt3) (f : Fin 3 → World C3 C3 ℝ) : LocSt3 × (Fin 3 → World C3 C3 ℝ) :=
  let A : Fin 3 → World C3 C3 ℝ := fun k r => spread3 T g a.w dx (a.sh dx) (cosW3 dx) r (f k r) (locNodes3 b.v r k.1)
  let r0 := ghostSum3 T g fun c => ⟨A 0 c, b.bz c, b.by' c, b.bx c⟩
  let r1 := ghostSum3 T g fun c => ⟨A 1 c, (r0 c).bz, (r0 c).by', (r0 c).bx⟩
  let r2 := ghostSum3 T g fun c => ⟨A 2 c, (r1 c).bz, (r1 c).by', (r1 c).bx⟩
  ({ b with bz := fun c => (r2 c).bz, by' := fun c => (r2 c).by', bx := fun c => (r2 c).bx }, ![fun c => (r0 c).A, fun c => (r1 c).A, fun c => (r2 c).A])

/-- `compute_interaction_on_lag_grid` (IB.py:140-157). -/
noncomputable def locLagInteract3 {T : Cart3} (C : Cfg3) (a : Ib3) (s : List Ev) (X U : C3 → LagField ℝ) (S : Sim3 T) (b : LocSt3) : Sim3 T × LocSt3 :=
  let dx := simDx3 T C.xr
  let vel := if a.auto then ghostVel3 T C.g C.full s S.vel else S.vel
  ({ S with vel := vel },
    { b with v := locInteract (a.stiff * a.lagDx ^ (3 - 1)) (a.damp * a.lagDx ^ (3 - 1)) X U (flowVel3 T C.g dx a vel) b.v })

/-- `__call__` = `compute_full_interaction` (IB.py:128-129, 159-175; VBF.py:409-450). -/
noncomputable def locFullInteract3 {T : Cart3} (C : Cfg3) (a : Ib3) (s : List Ev) (X U : C3 → LagField ℝ) (S : Sim3 T) (b : LocSt3) : Sim3 T × LocSt3 :=
  let S1 : Sim3 T := if a.reset then { S with forcing := fun _ _ _ => 0 } else S
  let q := locLagInteract3 C a s X U S1 b
  let r := locSpread3 T C.g (simDx3 T C.xr) a q.2 q.1.forcing
  ({ q.1 with forcing := r.2 }, r.1)

end Sopht
