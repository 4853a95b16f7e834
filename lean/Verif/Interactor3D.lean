import Verif.Sim3D
import Verif.Interactor2D
import Verif.Weights

/-!
# Immersed bodies in the 3D flow simulator

As `Verif.Interactor2D` ("IB.py", "VBF.py"), attached to the simulator of `Verif.Sim3D`; the exchange of the velocity before an interaction includes edges and
corners (`full_exchange`, F3D.py:117-122).
-/

namespace Sopht

/-! ## Construction -/

/-- Arguments of an interactor (IB.py:19-35). -/
structure Ib3 where
  /-- number of nodes of the forcing grid (on the master) -/
  N : ℕ
  /-- `master_rank` -/
  m : C3
  /-- iteration order of sets of ranks -/
  ord : List C3 → List C3
  /-- content of uninitialised receive buffers -/
  junk : LagField ℝ
  /-- `virtual_boundary_stiffness_coeff` as given -/
  stiff : ℝ
  /-- `virtual_boundary_damping_coeff` as given -/
  damp : ℝ
  /-- `get_maximum_lagrangian_grid_spacing()` on the master; the other ranks receive it (IB.py:47-50) -/
  lagDx : ℝ
  /-- `eul_grid_coord_shift` -/
  shift : Option ℝ
  /-- `interp_kernel_width` -/
  width : Option ℕ
  /-- `enable_eul_grid_forcing_reset` -/
  reset : Bool
  /-- `auto_ghosting` -/
  auto : Bool

/-- `eul_grid_coord_shift`, default `dx / 2` (VBF.py:83-84). -/
noncomputable def Ib3.sh (a : Ib3) (dx : ℝ) : ℝ := a.shift.getD (dx / 2)

/-- `interp_kernel_width`, default 2 (VBF.py:85-87). -/
def Ib3.w (a : Ib3) : ℕ := a.width.getD 2

/-- Positions of the nodes, as (x, y, z). -/
def points3 (N : ℕ) (X : LagField ℝ) : List (ℝ × ℝ × ℝ) := (List.range N).map fun i => (X 0 i, X 1 i, X 2 i)

/-- The node mapping of the positions on the master (VBF.py:137-140, 250-252). -/
noncomputable def Ib3.mapping (a : Ib3) (T : Cart3) (dx : ℝ) (X : LagField ℝ) : Except PyErr (List C3) :=
  rankAddress3 T dx (a.sh dx) (points3 a.N X)

/-- The forcing object the interactor is (IB.py:84-104): the coefficients are scaled with `max_lag_grid_dx ** (grid_dim - 1)`. -/
noncomputable def Ib3.vbf (a : Ib3) (T : Cart3) (dx : ℝ) : VbfCfg C3 ℝ :=
  { d := 3, m := a.m, ranks := ranks3 T, ord := a.ord, junk := a.junk,
    stiff := a.stiff * a.lagDx ^ (3 - 1), damp := a.damp * a.lagDx ^ (3 - 1),
    addrOf := fun X => okOr [] (a.mapping T dx X) }

/-- State of an interactor: the forcing object and the receive buffers of its ghost sum communicator, by rank. -/
structure IbSt3 where
  v : Vbf C3 ℝ
  bz : C3 → C3 → ℝ
  by' : C3 → C3 → ℝ
  bx : C3 → C3 → ℝ

/-- `__init__` (IB.py:19-126, VBF.py:71-177). `g` is the ghost size of the ghost exchange communicator. The kernel type is the default, "cosine". -/
noncomputable def ibInit3 (T : Cart3) (g : ℕ) (dx : ℝ) (a : Ib3) (X0 : LagField ℝ) (t0 : ℝ) : Except PyErr IbSt3 := do
  let _ ← vbfCheck 3 a.w g
  let _ ← elCheck 3 g a.w 3 "cosine"
  let _ ← a.mapping T dx X0
  .ok { v := vbfInit (a.vbf T dx) X0 t0, bz := fun _ _ => 0, by' := fun _ _ => 0, bx := fun _ _ => 0 }

/-! ## Interaction -/

variable {T : Cart3}

/-- `_ghost_velocity_field_for_interaction` (IB.py:131-138) with the simulator's communicator (F3D.py:117-122). -/
noncomputable def ghostVel3 (T : Cart3) (g : ℕ) (full : Bool) (s : List Ev) (vel : Fin 3 → World C3 C3 ℝ) : Fin 3 → World C3 C3 ℝ :=
  ofFam (multiExchange3 T g full [0, 1, 2] (asFam vel) s)

/-- Component `k` of a NumPy array with three components. -/
def axis3 (k : ℕ) : Fin 3 := if k = 0 then 0 else if k = 1 then 1 else 2

/-- What rank `r` interpolates at `x` from its velocity array (VBF.py:362-380). -/
noncomputable def flowVel3 (T : Cart3) (g : ℕ) (dx : ℝ) (a : Ib3) (vel : Fin 3 → World C3 C3 ℝ) (r : C3) (x : ℕ → ℝ) (k : ℕ) : ℝ :=
  eulToLag3 T g a.w dx (a.sh dx) (cosW3 dx) r (vel (axis3 k) r) (x 0, x 1, x 2)

/-- Nodes of rank `r` with component `k` of their forces, as the spreading kernel sees them. -/
def rankNodes3 (v : Vbf C3 ℝ) (r : C3) (k : ℕ) : List ((ℝ × ℝ × ℝ) × ℝ) :=
  (List.range (v.cnt r)).map fun j => ((v.lpos r 0 j, v.lpos r 1 j, v.lpos r 2 j), v.force r k j)

/-- Spreading of the forces (VBF.py:424-430): all components are spread, then the ghost sum is done for one after the other, with the same
buffers (`EulerianLagrangianGridCommunicatorMPI3D.py:99-114, 429-442`). -/
noncomputable def spreadForces3 (T : Cart3) (g : ℕ) (dx : ℝ) (a : Ib3) (b : IbSt3) (f : Fin 3 → World C3 C3 ℝ) : IbSt3 × (Fin 3 → World C3 C3 ℝ) :=
  let A : Fin 3 → World C3 C3 ℝ := fun k r => spread3 T g a.w dx (a.sh dx) (cosW3 dx) r (f k r) (rankNodes3 b.v r k.1)
  let r0 := ghostSum3 T g fun c => ⟨A 0 c, b.bz c, b.by' c, b.bx c⟩
  let r1 := ghostSum3 T g fun c => ⟨A 1 c, (r0 c).bz, (r0 c).by', (r0 c).bx⟩
  let r2 := ghostSum3 T g fun c => ⟨A 2 c, (r1 c).bz, (r1 c).by', (r1 c).bx⟩
  ({ b with bz := fun c => (r2 c).bz, by' := fun c => (r2 c).by', bx := fun c => (r2 c).bx }, ![fun c => (r0 c).A, fun c => (r1 c).A, fun c => (r2 c).A])

/-- `compute_interaction_on_lag_grid` (IB.py:140-157). `X`, `U`: what the forcing grid of the master computes. The ranks abort if a node lies outside. -/
noncomputable def lagInteract3 (C : Cfg3) (a : Ib3) (s : List Ev) (X U : LagField ℝ) (S : Sim3 T) (b : IbSt3) : Except PyErr (Sim3 T × IbSt3) :=
  let dx := simDx3 T C.xr
  let vel := if a.auto then ghostVel3 T C.g C.full s S.vel else S.vel
  match a.mapping T dx X with
  | .error e => .error e
  | .ok _ => .ok ({ S with vel := vel }, { b with v := vbfInteract (a.vbf T dx) X U (flowVel3 T C.g dx a vel) b.v })

/-- `__call__` = `compute_full_interaction` (IB.py:128-129, 159-175; VBF.py:409-450). -/
noncomputable def fullInteract3 (C : Cfg3) (a : Ib3) (s : List Ev) (X U : LagField ℝ) (S : Sim3 T) (b : IbSt3) : Except PyErr (Sim3 T × IbSt3) :=
  let S1 : Sim3 T := if a.reset then { S with forcing := fun _ _ _ => 0 } else S
  match lagInteract3 C a s X U S1 b with
  | .error e => .error e
  | .ok (S2, b2) =>
    let r := spreadForces3 T C.g (simDx3 T C.xr) a b2 S2.forcing
    .ok ({ S2 with forcing := r.2 }, r.1)

/-! ## Driver programs -/

/-- A driver: what it does next may depend on everything it was told before. `B` names its interactors. -/
inductive Prog3 (B : Type) where
  | stop
  /-- `interactor()` with the forcing grid of the body at `X`, moving with `U` -/
  | interact (b : B) (X U : LagField ℝ) (k : Prog3 B)
  /-- `interactor.compute_flow_forces_and_torques()`: the body is handed the forces on the nodes -/
  | forces (b : B) (X U : LagField ℝ) (k : LagField ℝ → Prog3 B)
  /-- `interactor.time_step(dt)` -/
  | advance (b : B) (dt : ℝ) (k : Prog3 B)
  /-- `flow_sim.time_step(dt, free_stream_velocity)` -/
  | flow (dt : ℝ) (fs : Fin 3 → ℝ) (k : Prog3 B)
  /-- `flow_sim.compute_stable_timestep(dt_prefac)` -/
  | stableDt (pre : ℝ) (k : ℝ → Prog3 B)
  /-- `interactor.get_grid_deviation_error_l2_norm()` -/
  | deviation (b : B) (k : ℝ → Prog3 B)
  /-- `flow_sim.get_max_vorticity()` -/
  | maxVort (k : ℝ → Prog3 B)
  /-- `flow_sim.get_vorticity_divergence_l2_norm()` -/
  | divNorm (k : ℝ → Prog3 B)
  /-- exchange of the ghost cells of the velocity by the user -/
  | ghost (k : Prog3 B)
  /-- printing a number -/
  | out (x : ℝ) (k : Prog3 B)

/-- State of all ranks under a driver. -/
structure CSt3 (T : Cart3) (B : Type) where
  sim : Sim3 T
  ib : B → IbSt3
  /-- what was printed -/
  log : List ℝ

/-- Message schedules of one call. -/
structure CScheds3 where
  step : Scheds3
  ghost : List Ev
  div : Sched3

/-- The `3 × N` array of forces which the master holds (`global_lag_grid_forcing_field`). -/
def forcesOf3 (d N : ℕ) (v : Vbf C3 ℝ) : LagField ℝ := fun k i => if k < d ∧ i < N then v.gforce k i else 0

variable {B : Type} [DecidableEq B]

/-- The driver on all ranks; `o n` says how the messages of call `n` move. An exception ends the program. -/
noncomputable def cRun3 [NeZero T.gz] [NeZero T.gy] [NeZero T.gx] (C : Cfg3) (K : Kern3) (tol : ℝ) (A : B → Ib3) (o : ℕ → CScheds3) :
    Prog3 B → ℕ → CSt3 T B → CSt3 T B × Option PyErr
  | .stop, _, S => (S, none)
  | .interact b X U k, n, S => match fullInteract3 C (A b) (o n).ghost X U S.sim (S.ib b) with
    | .error e => (S, some e)
    | .ok r => cRun3 C K tol A o k (n + 1) { S with sim := r.1, ib := Function.update S.ib b r.2 }
  | .forces b X U k, n, S => match lagInteract3 C (A b) (o n).ghost X U S.sim (S.ib b) with
    | .error e => (S, some e)
    | .ok r => cRun3 C K tol A o (k (forcesOf3 3 (A b).N r.2.v)) (n + 1) { S with sim := r.1, ib := Function.update S.ib b r.2 }
  | .advance b dt k, n, S =>
    cRun3 C K tol A o k (n + 1) { S with ib := Function.update S.ib b { S.ib b with v := vbfStep dt (S.ib b).v } }
  | .flow dt fs k, n, S => match timeStep3 C K (o n).step dt (some fs) S.sim with
    | (S', some e) => ({ S with sim := S' }, some e)
    | (S', none) => cRun3 C K tol A o k (n + 1) { S with sim := S' }
  | .stableDt pre k, n, S => match stableDt3 C tol pre S.sim with
    | (S', .error e) => ({ S with sim := S' }, some e)
    | (S', .ok dt) => cRun3 C K tol A o (k dt) (n + 1) { S with sim := S' }
  | .deviation b k, n, S => cRun3 C K tol A o (k (gridDeviation 3 (ranks3 T) (A b).N (S.ib b).v (A b).m)) (n + 1) S
  | .maxVort k, n, S => match maxVorticity3 C S.sim with
    | .error e => (S, some e)
    | .ok x => cRun3 C K tol A o (k x) (n + 1) S
  | .divNorm k, n, S => match divNorm3 C K (o n).div S.sim with
    | (S', .error e) => ({ S with sim := S' }, some e)
    | (S', .ok x) => cRun3 C K tol A o (k x) (n + 1) { S with sim := S' }
  | .ghost k, n, S => cRun3 C K tol A o k (n + 1) { S with sim := { S.sim with vel := ghostVel3 T C.g C.full (o n).ghost S.sim.vel } }
  | .out x k, n, S => cRun3 C K tol A o k (n + 1) { S with log := S.log ++ [x] }

end Sopht
