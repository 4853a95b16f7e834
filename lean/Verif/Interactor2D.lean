import Verif.Sim2D
import Verif.Vbf
import Verif.Weights

/-!
# Immersed bodies in the 2D flow simulator

Models `ImmersedBodyFlowInteractionMPI` (`sopht_mpi/simulator/immersed_body/immersed_body_flow_interaction_mpi.py`, below "IB.py") with `EmptyForcingGrid`
(`immersed_body_forcing_grid.py`), the two classes derived from it (`rigid_body/rigid_body_flow_interaction_mpi.py`,
`cosserat_rod/cosserat_rod_flow_interaction_mpi.py`; they only build the forcing grid on the master) and the Eulerian half of `VirtualBoundaryForcingMPI`
(`sopht_mpi/numeric/immersed_boundary_ops/VirtualBoundaryForcingMPI.py`, below "VBF.py"), attached to the simulator of `Verif.Sim2D`; mode
`assume_data_locality = False`.

The forcing grid (`sopht` package) is a parameter: an interaction is given the positions and velocities it computes on the master.  What the body does with
the forces it receives is up to the driver program (`Prog2`).
-/

namespace Sopht

/-! ## Construction -/

/-- Arguments of an interactor (IB.py:19-35). -/
structure Ib2 where
  /-- number of nodes of the forcing grid (on the master) -/
  N : ℕ
  /-- `master_rank` -/
  m : C2
  /-- iteration order of sets of ranks -/
  ord : List C2 → List C2
  /-- content of uninitialised receive buffers -/
  junk : LagField ℝ
  /-- `virtual_boundary_stiffness_coeff` as given -/
  stiff : ℝ
  /-- `virtual_boundary_damping_coeff` as given -/
  damp : ℝ
  /-- `get_maximum_lagrangian_grid_spacing()` on the master; the other ranks receive it (IB.py:47-50) -/
  lagDx : ℝ
  /-- `eul_grid_coord_shift` -/
  shift : Option ℝ
  /-- `interp_kernel_width` -/
  width : Option ℕ
  /-- `enable_eul_grid_forcing_reset` -/
  reset : Bool
  /-- `auto_ghosting` -/
  auto : Bool

/-- `eul_grid_coord_shift`, default `dx / 2` (VBF.py:83-84). -/
noncomputable def Ib2.sh (a : Ib2) (dx : ℝ) : ℝ := a.shift.getD (dx / 2)

/-- `interp_kernel_width`, default 2 (VBF.py:85-87). -/
def Ib2.w (a : Ib2) : ℕ := a.width.getD 2

/-- Positions of the nodes, as (x, y). -/
def points2 (N : ℕ) (X : LagField ℝ) : List (ℝ × ℝ) := (List.range N).map fun i => (X 0 i, X 1 i)

/-- The node mapping of the positions on the master (VBF.py:137-140, 250-252). -/
noncomputable def Ib2.mapping (a : Ib2) (T : Cart2) (dx : ℝ) (X : LagField ℝ) : Except PyErr (List C2) :=
  rankAddress2 T dx (a.sh dx) (points2 a.N X)

/-- The forcing object the interactor is (IB.py:84-104): the coefficients are scaled with `max_lag_grid_dx ** (grid_dim - 1)`. -/
noncomputable def Ib2.vbf (a : Ib2) (T : Cart2) (dx : ℝ) : VbfCfg C2 ℝ :=
  { d := 2, m := a.m, ranks := ranks2 T, ord := a.ord, junk := a.junk,
    stiff := a.stiff * a.lagDx ^ (2 - 1), damp := a.damp * a.lagDx ^ (2 - 1),
    addrOf := fun X => okOr [] (a.mapping T dx X) }

/-- State of an interactor: the forcing object and the receive buffers of its ghost sum communicator, by rank. -/
structure IbSt2 where
  v : Vbf C2 ℝ
  row : C2 → C2 → ℝ
  col : C2 → C2 → ℝ

/-- `__init__` (IB.py:19-126, VBF.py:71-177). `g` is the ghost size of the ghost exchange communicator. The kernel type is the default, "cosine". -/
noncomputable def ibInit2 (T : Cart2) (g : ℕ) (dx : ℝ) (a : Ib2) (X0 : LagField ℝ) (t0 : ℝ) : Except PyErr IbSt2 := do
  let _ ← vbfCheck 2 a.w g
  let _ ← elCheck 2 g a.w 2 "cosine"
  let _ ← a.mapping T dx X0
  .ok { v := vbfInit (a.vbf T dx) X0 t0, row := fun _ _ => 0, col := fun _ _ => 0 }

/-! ## Interaction -/

variable {T : Cart2}

/-- `_ghost_velocity_field_for_interaction` (IB.py:131-138) with the simulator's communicator (`full_exchange=False`, F2D.py:102-108). -/
noncomputable def ghostVel2 (T : Cart2) (g : ℕ) (s : List Ev) (vel : Fin 2 → World C2 C2 ℝ) : Fin 2 → World C2 C2 ℝ :=
  let w : World C2 (Fin 2 × ℤ) ℝ := fun c i => toFlat2 T g (vel i.1) c i.2
  fun j => ofFlat2 T g fun c i => multiExchange2 T g false [0, 1] w s c (j, i)

/-- Component `k` of a NumPy array with two components. -/
def comp2 (k : ℕ) : Fin 2 := if k = 0 then 0 else 1

/-- What rank `r` interpolates at `x` from its velocity array (VBF.py:362-380). -/
noncomputable def flowVel2 (T : Cart2) (g : ℕ) (dx : ℝ) (a : Ib2) (vel : Fin 2 → World C2 C2 ℝ) (r : C2) (x : ℕ → ℝ) (k : ℕ) : ℝ :=
  eulToLag2 T g a.w dx (a.sh dx) (cosW2 dx) r (vel (comp2 k) r) (x 0, x 1)

/-- Nodes of rank `r` with component `k` of their forces, as the spreading kernel sees them. -/
def rankNodes2 (v : Vbf C2 ℝ) (r : C2) (k : ℕ) : List ((ℝ × ℝ) × ℝ) :=
  (List.range (v.cnt r)).map fun j => ((v.lpos r 0 j, v.lpos r 1 j), v.force r k j)

/-- Spreading of the forces (VBF.py:424-430): both components are spread, then the ghost sum is done for the first and then for the second, with the same
buffers (`EulerianLagrangianGridCommunicatorMPI2D.py:99-114, 377-386`). -/
noncomputable def spreadForces2 (T : Cart2) (g : ℕ) (dx : ℝ) (a : Ib2) (b : IbSt2) (f : Fin 2 → World C2 C2 ℝ) : IbSt2 × (Fin 2 → World C2 C2 ℝ) :=
  let A : Fin 2 → World C2 C2 ℝ := fun k r => spread2 T g a.w dx (a.sh dx) (cosW2 dx) r (f k r) (rankNodes2 b.v r k.1)
  let r0 := ghostSum2 T g fun c => ⟨A 0 c, b.row c, b.col c⟩
  let r1 := ghostSum2 T g fun c => ⟨A 1 c, (r0 c).row, (r0 c).col⟩
  ({ b with row := fun c => (r1 c).row, col := fun c => (r1 c).col }, ![fun c => (r0 c).A, fun c => (r1 c).A])

/-- `compute_interaction_on_lag_grid` (IB.py:140-157). `X`, `U`: what the forcing grid of the master computes. The ranks abort if a node lies outside. -/
noncomputable def lagInteract2 (C : Cfg2) (a : Ib2) (s : List Ev) (X U : LagField ℝ) (S : Sim2 T) (b : IbSt2) : Except PyErr (Sim2 T × IbSt2) :=
  let dx := simDx2 T C.xr
  let vel := if a.auto then ghostVel2 T C.g s S.vel else S.vel
  match a.mapping T dx X with
  | .error e => .error e
  | .ok _ => .ok ({ S with vel := vel }, { b with v := vbfInteract (a.vbf T dx) X U (flowVel2 T C.g dx a vel) b.v })

/-- `__call__` = `compute_full_interaction` (IB.py:128-129, 159-175; VBF.py:409-450). -/
noncomputable def fullInteract2 (C : Cfg2) (a : Ib2) (s : List Ev) (X U : LagField ℝ) (S : Sim2 T) (b : IbSt2) : Except PyErr (Sim2 T × IbSt2) :=
  let S1 : Sim2 T := if a.reset then { S with forcing := fun _ _ _ => 0 } else S
  match lagInteract2 C a s X U S1 b with
  | .error e => .error e
  | .ok (S2, b2) =>
    let r := spreadForces2 T C.g (simDx2 T C.xr) a b2 S2.forcing
    .ok ({ S2 with forcing := r.2 }, r.1)

/-! ## Driver programs -/

/-- A driver: what it does next may depend on everything it was told before. `B` names its interactors. -/
inductive Prog2 (B : Type) where
  | stop
  /-- `interactor()` with the forcing grid of the body at `X`, moving with `U` -/
  | interact (b : B) (X U : LagField ℝ) (k : Prog2 B)
  /-- `interactor.compute_flow_forces_and_torques()`: the body is handed the forces on the nodes -/
  | forces (b : B) (X U : LagField ℝ) (k : LagField ℝ → Prog2 B)
  /-- `interactor.time_step(dt)` -/
  | advance (b : B) (dt : ℝ) (k : Prog2 B)
  /-- `flow_sim.time_step(dt, free_stream_velocity)` -/
  | flow (dt : ℝ) (fs : Fin 2 → ℝ) (k : Prog2 B)
  /-- `flow_sim.compute_stable_timestep(dt_prefac)` -/
  | stableDt (pre : ℝ) (k : ℝ → Prog2 B)
  /-- `interactor.get_grid_deviation_error_l2_norm()` -/
  | deviation (b : B) (k : ℝ → Prog2 B)
  /-- `flow_sim.get_max_vorticity()` -/
  | maxVort (k : ℝ → Prog2 B)
  /-- exchange of the ghost cells of the velocity by the user -/
  | ghost (k : Prog2 B)
  /-- printing a number -/
  | out (x : ℝ) (k : Prog2 B)

/-- State of all ranks under a driver. -/
structure CSt2 (T : Cart2) (B : Type) where
  sim : Sim2 T
  ib : B → IbSt2
  /-- what was printed -/
  log : List ℝ

/-- Message schedules of one call. -/
structure CScheds2 where
  step : Scheds2
  ghost : List Ev

/-- The `2 × N` array of forces which the master holds (`global_lag_grid_forcing_field`). -/
def forcesOf (d N : ℕ) (v : Vbf C2 ℝ) : LagField ℝ := fun k i => if k < d ∧ i < N then v.gforce k i else 0

variable {B : Type} [DecidableEq B]

/-- The driver on all ranks; `o n` says how the messages of call `n` move. An exception ends the program. -/
noncomputable def cRun2 [NeZero T.gy] [NeZero T.gx] (C : Cfg2) (K : Kern2) (tol : ℝ) (A : B → Ib2) (o : ℕ → CScheds2) :
    Prog2 B → ℕ → CSt2 T B → CSt2 T B × Option PyErr
  | .stop, _, S => (S, none)
  | .interact b X U k, n, S => match fullInteract2 C (A b) (o n).ghost X U S.sim (S.ib b) with
    | .error e => (S, some e)
    | .ok r => cRun2 C K tol A o k (n + 1) { S with sim := r.1, ib := Function.update S.ib b r.2 }
  | .forces b X U k, n, S => match lagInteract2 C (A b) (o n).ghost X U S.sim (S.ib b) with
    | .error e => (S, some e)
    | .ok r => cRun2 C K tol A o (k (forcesOf 2 (A b).N r.2.v)) (n + 1) { S with sim := r.1, ib := Function.update S.ib b r.2 }
  | .advance b dt k, n, S =>
    cRun2 C K tol A o k (n + 1) { S with ib := Function.update S.ib b { S.ib b with v := vbfStep dt (S.ib b).v } }
  | .flow dt fs k, n, S => match timeStep2 C K (o n).step dt fs S.sim with
    | (S', some e) => ({ S with sim := S' }, some e)
    | (S', none) => cRun2 C K tol A o k (n + 1) { S with sim := S' }
  | .stableDt pre k, n, S => match stableDt2 C tol pre S.sim with
    | (S', .error e) => ({ S with sim := S' }, some e)
    | (S', .ok dt) => cRun2 C K tol A o (k dt) (n + 1) { S with sim := S' }
  | .deviation b k, n, S => cRun2 C K tol A o (k (gridDeviation 2 (ranks2 T) (A b).N (S.ib b).v (A b).m)) (n + 1) S
  | .maxVort k, n, S => match maxVorticity2 C S.sim with
    | .error e => (S, some e)
    | .ok x => cRun2 C K tol A o (k x) (n + 1) S
  | .ghost k, n, S => cRun2 C K tol A o k (n + 1) { S with sim := { S.sim with vel := ghostVel2 T C.g (o n).ghost S.sim.vel } }
  | .out x k, n, S => cRun2 C K tol A o k (n + 1) { S with log := S.log ++ [x] }

end Sopht
