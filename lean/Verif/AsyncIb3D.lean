import Verif.AsyncGS
import Verif.AsyncSim3DProps
import Verif.Interactor3DRun

/-!
# Flow and immersed bodies in 3D, run by ranks at their own speed

One rank of a driver (`Prog3`) with the flow simulator (`sopht_mpi/simulator/flow/flow_simulators_mpi_3d.py`, "F3D.py") and immersed bodies
(`sopht_mpi/simulator/immersed_body/immersed_body_flow_interaction_mpi.py`, "IB.py"; `sopht_mpi/numeric/immersed_boundary_ops/VirtualBoundaryForcingMPI.py`, "VBF.py"): it
executes its own local computations, point-to-point messages and collective operations, and decides from what it holds itself which messages come next.
-/

namespace Sopht

/-! ## What a rank holds -/

/-- One body on one rank: the forcing object, the receive buffers of the ghost sum, `self.time`. -/
structure IbRk3 where
  rk : VbfRk C3 ℝ
  bz : C3 → ℝ
  by' : C3 → ℝ
  bx : C3 → ℝ
  time : ℝ

/-- One rank. -/
structure RkC3 (T : Cart3) (B : Type) where
  sim : Rk3 T
  ib : B → IbRk3
  /-- the number a reduction gave -/
  val : ℝ
  /-- packets of the reductions of the driver -/
  mb : C3 → List ℝ
  /-- what this rank printed -/
  log : List ℝ

section
variable {T : Cart3} {B : Type}

/-- The flow simulator. -/
def simPart3 : Part (RkC3 T B) (Rk3 T) := ⟨fun s => s.sim, fun s a => { s with sim := a }, fun _ _ => rfl, fun _ => rfl, fun _ _ _ => rfl⟩

/-- Packets. -/
def qPart3 : Part (RkC3 T B) (C3 → List ℝ) := ⟨fun s => s.mb, fun s a => { s with mb := a }, fun _ _ => rfl, fun _ => rfl, fun _ _ _ => rfl⟩

variable [DecidableEq B]

/-- The forcing object of body `b`. -/
def rkPart3 (b : B) : Part (RkC3 T B) (VbfRk C3 ℝ) where
  get s := (s.ib b).rk
  put s a := { s with ib := Function.update s.ib b { s.ib b with rk := a } }
  get_put s a := by simp
  put_get s := by simp
  put_put s a a' := by simp

/-- What the ghost sum of component `k` of the forcing works on: the field and the buffers of body `b`. -/
def gsPart3 (b : B) (k : Fin 3) : Part (RkC3 T B) (GS3 ℝ) where
  get s := ⟨s.sim.forcing k, (s.ib b).bz, (s.ib b).by', (s.ib b).bx⟩
  put s a := { s with sim := { s.sim with forcing := Function.update s.sim.forcing k a.A }, ib := Function.update s.ib b { s.ib b with bz := a.bz, by' := a.by', bx := a.bx } }
  get_put s a := by simp
  put_get s := by simp
  put_put s a a' := by simp

end

/-! ## What a rank does -/

section
variable {T : Cart3} {B : Type} [DecidableEq B]

/-- Instructions of a rank. -/
abbrev CIns3 (T : Cart3) (B : Type) := AIns C3 (RkC3 T B) (Pkt C3 C3 ℝ)

/-- Exchange of the ghost cells of the velocity (IB.py:131-138). -/
noncomputable def ghostPiece3 (C : Cfg3) : List (Piece3 T) :=
  [exchLayer (ranks3 T) partF3 (fun _ s => { s with wF := fun i => s.vel i.1 (i.2) }) (vecPosts [0, 1, 2] (posts3 T C.g C.full)) (fun _ s => s),
   locLayer (ranks3 T) fun _ s => { s with vel := fun j p => s.wF (j, p) }]

/-- Ghost cells of the velocity (IB.py:131-138, 164-166), then, in a full interaction with reset, zero forcing (VBF.py:431-444). -/
noncomputable def prePiece3 (C : Cfg3) (a : Ib3) (full : Bool) : List (Piece3 T) :=
  (if a.auto then ghostPiece3 C else []) ++ (if full && a.reset then [locLayer (ranks3 T) fun _ s => { s with forcing := fun _ _ => 0 }] else [])

/-- A rank spreads the components of the forces on its nodes (VBF.py:424-430). -/
noncomputable def spreadLoc3 (C : Cfg3) (a : Ib3) (b : B) (r : C3) (s : RkC3 T B) : RkC3 T B :=
  let v := (s.ib b).rk.v
  { s with
    sim := { s.sim with
      forcing := fun k => spread3 T C.g a.w (simDx3 T C.xr) (a.sh (simDx3 T C.xr)) (cosW3 (simDx3 T C.xr)) r (s.sim.forcing k)
        ((List.range v.cnt).map fun j => ((v.lpos 0 j, v.lpos 1 j, v.lpos 2 j), v.force k.1 j)) } }

/-- Spreading with the ghost sums of all components (VBF.py:424-430). -/
noncomputable def spreadProg3 (C : Cfg3) (a : Ib3) (b : B) (r : C3) : List (CIns3 T B) :=
  .loc (spreadLoc3 C a b r) ::
  (liftProg (gsPart3 b 0) Pkt.embArr (asyncProg (gsProg3 T C.g r)) ++
   (liftProg (gsPart3 b 1) Pkt.embArr (asyncProg (gsProg3 T C.g r)) ++
    liftProg (gsPart3 b 2) Pkt.embArr (asyncProg (gsProg3 T C.g r))))

/-- `get_grid_deviation_error_l2_norm` (IB.py:187-202): `reduce` to the master, which takes the roots, and `bcast`. -/
noncomputable def devPiece3 (a : Ib3) (b : B) : List (C3 → List (AIns C3 (RkC3 T B) (List ℝ))) :=
  [collLayer (ranks3 T) qPart3 (fun _ s => s) (fun _ d => decide (d = a.m)) (fun _ _ s => [frobNorm 3 (s.ib b).rk.v.cnt (s.ib b).rk.v.posM ^ 2]),
   locLayer (ranks3 T) fun r s => if r = a.m then { s with val := Real.sqrt ((ranks3 T).map fun q => packet0 (s.mb q)).sum / Real.sqrt a.N } else s,
   collLayer (ranks3 T) qPart3 (fun _ s => s) (fun c _ => decide (c = a.m)) (fun _ _ s => [s.val]),
   locLayer (ranks3 T) fun _ s => { s with val := packet0 (s.mb a.m) }]

/-- `get_max_vorticity` (F3D.py:471-476): `allreduce` with `MPI.MAX`. -/
noncomputable def maxPiece3 (C : Cfg3) : List (C3 → List (AIns C3 (RkC3 T B) (List ℝ))) :=
  [collLayer (ranks3 T) qPart3 (fun _ s => s) (fun _ _ => true) (fun _ _ s => [okOr 0 (amax (([0, 1, 2] : List (Fin 3)).flatMap fun j => (innerCells3 T C.g).map (s.sim.om j)))]),
   locLayer (ranks3 T) fun _ s => { s with val := okOr 0 (allreduce max (ranks3 T) fun r => .ok (packet0 (s.mb r))) }]

/-- `get_vorticity_divergence_l2_norm` (F3D.py:451-469), first part: the divergence of the vorticity in the scalar buffer. -/
noncomputable def divPiece3 (C : Cfg3) (K : Kern3) : List (Piece3 T) :=
  [exchLayer (ranks3 T) partF3 (fun _ s => { s with wF := fun i => s.om i.1 i.2 }) (vecPosts [0, 1, 2] (posts3 T C.g C.full))
    (fun _ s => { s with buf := midPass3 T C.g 1 false (fun _ b => b) (K.div (1.0 / simDx3 T C.xr)) s.wF s.buf }),
   locLayer (ranks3 T) fun c s =>
    { s with
      buf := zeroSides3 T C.g (0 : ℝ) c (endPass3 T C.g 1 (fun _ b => b) (K.div (1.0 / simDx3 T C.xr)) s.wF s.buf)
      om := fun j p => s.wF (j, p) }]

/-- … second part: the norm, with `allreduce` of the squares. -/
noncomputable def normPiece3 (C : Cfg3) : List (C3 → List (AIns C3 (RkC3 T B) (List ℝ))) :=
  [collLayer (ranks3 T) qPart3 (fun _ s => s) (fun _ _ => true) (fun _ _ s => [Real.sqrt (((innerCells3 T C.g).map fun p => s.sim.buf p ^ 2).sum) ^ 2]),
   locLayer (ranks3 T) fun _ s =>
    { s with val := Real.sqrt (okOr 0 (allreduce (fun a b => a + b) (ranks3 T) fun r => .ok (packet0 (s.mb r)))) * simDx3 T C.xr ^ (1.5 : ℝ) }]

/-- `flow_sim.time_step(dt, free_stream_velocity)` (F3D.py:347-354). -/
noncomputable def stepPiece3 [NeZero T.gz] [NeZero T.gy] [NeZero T.gx] (C : Cfg3) (K : Kern3) (tol dt : ℝ) (fs : Fin 3 → ℝ) : List (Piece3 T) :=
  dtPiece3 C tol (.fixed dt) ++ flowPiece3 C K fs ++ [locLayer (ranks3 T) fun _ s => { s with time := s.time + s.dt }]

/-- `interactor.time_step(dt)` (VBF.py:452-459). -/
noncomputable def advanceIns3 (b : B) (dt : ℝ) : List (CIns3 T B) :=
  liftProg (rkPart3 b) .all (stepStage dt) ++ [.loc fun s => { s with ib := Function.update s.ib b { s.ib b with time := (s.ib b).time + dt } }]

/-- Both halves of `compute_interaction_force_on_lag_grid` (VBF.py:333-406) after the reset and the ghost exchange; `rest` is what follows. -/
noncomputable def interactCode3 (C : Cfg3) (A : B → Ib3) (r : C3) (full : Bool) (b : B) (X U : LagField ℝ) (rest : RProg C3 (RkC3 T B) (Pkt C3 C3 ℝ)) :
    RProg C3 (RkC3 T B) (Pkt C3 C3 ℝ) :=
  .run (liftProg simPart3 Pkt.embVals (layersProg (prePiece3 C (A b) full) r)) <|
  .blk (fun s => liftProg (rkPart3 b) .all (stage1Prog ((A b).vbf T (simDx3 T C.xr)) (s.ib b).rk.v.addr X r)) fun _ =>
  .blk (fun s => liftProg (rkPart3 b) .all (stage2Prog ((A b).vbf T (simDx3 T C.xr)) (s.ib b).rk.v.addr (s.ib b).rk.v.flag X U
    (flowVel3 T C.g (simDx3 T C.xr) (A b) (fun j _ => s.sim.vel j) r) r)) fun _ => rest

/-- The forces which a rank reads off its global array (defined on the master only). -/
def forcesHere3 (N : ℕ) (f : LagField ℝ) : LagField ℝ := fun k i => if k < 3 ∧ i < N then f k i else 0

/-- The program of rank `r` for a driver. -/
noncomputable def cCode3 [NeZero T.gz] [NeZero T.gy] [NeZero T.gx] (C : Cfg3) (K : Kern3) (tol : ℝ) (A : B → Ib3) (r : C3) : Prog3 B → RProg C3 (RkC3 T B) (Pkt C3 C3 ℝ)
  | .stop => .stop
  | .interact b X U k => interactCode3 C A r true b X U <| .run (spreadProg3 C (A b) b r) (cCode3 C K tol A r k)
  | .forces b X U k => interactCode3 C A r false b X U <| .read fun s => cCode3 C K tol A r (k (forcesHere3 (A b).N (s.ib b).rk.v.gforce))
  | .advance b dt k => .run (advanceIns3 b dt) (cCode3 C K tol A r k)
  | .flow dt fs k => .run (liftProg simPart3 Pkt.embVals (layersProg (stepPiece3 C K tol dt fs) r)) (cCode3 C K tol A r k)
  | .stableDt pre k => .run (liftProg simPart3 Pkt.embVals (layersProg (dtPiece3 C tol (.stable pre)) r)) (.read fun s => cCode3 C K tol A r (k s.sim.dt))
  | .deviation b k => .run (liftProg .whole Pkt.embVals (layersProg (devPiece3 (A b) b) r)) (.read fun s => cCode3 C K tol A r (k s.val))
  | .maxVort k => .run (liftProg .whole Pkt.embVals (layersProg (maxPiece3 C) r)) (.read fun s => cCode3 C K tol A r (k s.val))
  | .divNorm k => .run (liftProg simPart3 Pkt.embVals (layersProg (divPiece3 C K) r)) <|
      .run (liftProg .whole Pkt.embVals (layersProg (normPiece3 C) r)) (.read fun s => cCode3 C K tol A r (k s.val))
  | .ghost k => .run (liftProg simPart3 Pkt.embVals (layersProg (ghostPiece3 C) r)) (cCode3 C K tol A r k)
  | .out x k => .run [.loc fun s => { s with log := s.log ++ [x] }] (cCode3 C K tol A r k)

/-- All ranks; rank `r` runs the driver `q r`. -/
noncomputable def cCodes3 [NeZero T.gz] [NeZero T.gy] [NeZero T.gx] (C : Cfg3) (K : Kern3) (tol : ℝ) (A : B → Ib3) (q : C3 → Prog3 B) : C3 → RProg C3 (RkC3 T B) (Pkt C3 C3 ℝ) :=
  onRanks (ranks3 T) fun r => cCode3 C K tol A r (q r)

omit [DecidableEq B] in
/-- The driver of rank `r` makes the calls of the driver `p`, though it may know less: positions and velocities of a body, and the forces it is handed, exist on the
master of the body only, and what is printed matters on rank `pr` only. -/
def Follows3 (A : B → Ib3) (pr r : C3) : Prog3 B → Prog3 B → Prop
  | .stop, q => q = .stop
  | .interact b X U k, q => ∃ X' U' k', q = .interact b X' U' k' ∧ (r = (A b).m → X' = X ∧ U' = U) ∧ Follows3 A pr r k k'
  | .forces b X U k, q => ∃ X' U' k', q = .forces b X' U' k' ∧ (r = (A b).m → X' = X ∧ U' = U) ∧ ∀ f f', (r = (A b).m → f' = f) → Follows3 A pr r (k f) (k' f')
  | .advance b dt k, q => ∃ k', q = .advance b dt k' ∧ Follows3 A pr r k k'
  | .flow dt fs k, q => ∃ k', q = .flow dt fs k' ∧ Follows3 A pr r k k'
  | .stableDt pre k, q => ∃ k', q = .stableDt pre k' ∧ ∀ x, Follows3 A pr r (k x) (k' x)
  | .deviation b k, q => ∃ k', q = .deviation b k' ∧ ∀ x, Follows3 A pr r (k x) (k' x)
  | .maxVort k, q => ∃ k', q = .maxVort k' ∧ ∀ x, Follows3 A pr r (k x) (k' x)
  | .divNorm k, q => ∃ k', q = .divNorm k' ∧ ∀ x, Follows3 A pr r (k x) (k' x)
  | .ghost k, q => ∃ k', q = .ghost k' ∧ Follows3 A pr r k k'
  | .out x k, q => ∃ x' k', q = .out x' k' ∧ (r = pr → x' = x) ∧ Follows3 A pr r k k'

end

end Sopht
