import Verif.AsyncGS
import Verif.AsyncSim2DProps
import Verif.Interactor2DRun

/-!
# Flow and immersed bodies in 2D, run by ranks at their own speed

One rank of a driver (`Prog2`) with the flow simulator (`sopht_mpi/simulator/flow/flow_simulators_mpi_2d.py`, "F2D.py") and immersed bodies
(`sopht_mpi/simulator/immersed_body/immersed_body_flow_interaction_mpi.py`, "IB.py"; `sopht_mpi/numeric/immersed_boundary_ops/VirtualBoundaryForcingMPI.py`, "VBF.py"): it
executes its own local computations, point-to-point messages and collective operations, and decides from what it holds itself which messages come next.
-/

namespace Sopht

/-! ## What a rank holds -/

/-- One body on one rank: the forcing object, the receive buffers of the ghost sum, `self.time`. -/
structure IbRk2 where
  rk : VbfRk C2 ℝ
  row : C2 → ℝ
  col : C2 → ℝ
  time : ℝ

/-- One rank. -/
structure RkC2 (T : Cart2) (B : Type) where
  sim : Rk2 T
  ib : B → IbRk2
  /-- the number a reduction gave -/
  val : ℝ
  /-- packets of the reductions of the driver -/
  mb : C2 → List ℝ
  /-- what this rank printed -/
  log : List ℝ

section
variable {T : Cart2} {B : Type}

/-- The flow simulator. -/
def simPart2 : Part (RkC2 T B) (Rk2 T) := ⟨fun s => s.sim, fun s a => { s with sim := a }, fun _ _ => rfl, fun _ => rfl, fun _ _ _ => rfl⟩

/-- Packets. -/
def qPart2 : Part (RkC2 T B) (C2 → List ℝ) := ⟨fun s => s.mb, fun s a => { s with mb := a }, fun _ _ => rfl, fun _ => rfl, fun _ _ _ => rfl⟩

variable [DecidableEq B]

/-- The forcing object of body `b`. -/
def rkPart2 (b : B) : Part (RkC2 T B) (VbfRk C2 ℝ) where
  get s := (s.ib b).rk
  put s a := { s with ib := Function.update s.ib b { s.ib b with rk := a } }
  get_put s a := by simp
  put_get s := by simp
  put_put s a a' := by simp

/-- What the ghost sum of component `k` of the forcing works on: the field and the buffers of body `b`. -/
def gsPart2 (b : B) (k : Fin 2) : Part (RkC2 T B) (GS2 ℝ) where
  get s := ⟨s.sim.forcing k, (s.ib b).row, (s.ib b).col⟩
  put s a := { s with sim := { s.sim with forcing := Function.update s.sim.forcing k a.A }, ib := Function.update s.ib b { s.ib b with row := a.row, col := a.col } }
  get_put s a := by simp
  put_get s := by simp
  put_put s a a' := by simp

end

/-! ## What a rank does -/

section
variable {T : Cart2} {B : Type} [DecidableEq B]

/-- Instructions of a rank. -/
abbrev CIns2 (T : Cart2) (B : Type) := AIns C2 (RkC2 T B) (Pkt C2 C2 ℝ)

/-- Exchange of the ghost cells of the velocity (IB.py:131-138). -/
noncomputable def ghostPiece2 (C : Cfg2) : List (Piece2 T) :=
  [exchLayer (ranks2 T) partF2 (fun _ s => { s with wF := fun i => s.vel i.1 (unflat2 T C.g i.2) }) (vecPosts [0, 1] (posts2 T C.g false)) (fun _ s => s),
   locLayer (ranks2 T) fun _ s => { s with vel := fun j p => s.wF (j, flat2 T C.g p) }]

/-- Ghost cells of the velocity (IB.py:131-138, 164-166), then, in a full interaction with reset, zero forcing (VBF.py:431-444). -/
noncomputable def prePiece2 (C : Cfg2) (a : Ib2) (full : Bool) : List (Piece2 T) :=
  (if a.auto then ghostPiece2 C else []) ++ (if full && a.reset then [locLayer (ranks2 T) fun _ s => { s with forcing := fun _ _ => 0 }] else [])

/-- A rank spreads both components of the forces on its nodes (VBF.py:424-430). -/
noncomputable def spreadLoc2 (C : Cfg2) (a : Ib2) (b : B) (r : C2) (s : RkC2 T B) : RkC2 T B :=
  let v := (s.ib b).rk.v
  { s with
    sim := { s.sim with
      forcing := fun k => spread2 T C.g a.w (simDx2 T C.xr) (a.sh (simDx2 T C.xr)) (cosW2 (simDx2 T C.xr)) r (s.sim.forcing k)
        ((List.range v.cnt).map fun j => ((v.lpos 0 j, v.lpos 1 j), v.force k.1 j)) } }

/-- Spreading with the ghost sums of both components (VBF.py:424-430). -/
noncomputable def spreadProg2 (C : Cfg2) (a : Ib2) (b : B) (r : C2) : List (CIns2 T B) :=
  .loc (spreadLoc2 C a b r) ::
  (liftProg (gsPart2 b 0) Pkt.embArr (asyncProg (gsProg2 T C.g r)) ++
   liftProg (gsPart2 b 1) Pkt.embArr (asyncProg (gsProg2 T C.g r)))

/-- `get_grid_deviation_error_l2_norm` (IB.py:187-202): `reduce` to the master, which takes the roots, and `bcast`. -/
noncomputable def devPiece2 (a : Ib2) (b : B) : List (C2 → List (AIns C2 (RkC2 T B) (List ℝ))) :=
  [collLayer (ranks2 T) qPart2 (fun _ s => s) (fun _ d => decide (d = a.m)) (fun _ _ s => [frobNorm 2 (s.ib b).rk.v.cnt (s.ib b).rk.v.posM ^ 2]),
   locLayer (ranks2 T) fun r s => if r = a.m then { s with val := Real.sqrt ((ranks2 T).map fun q => packet0 (s.mb q)).sum / Real.sqrt a.N } else s,
   collLayer (ranks2 T) qPart2 (fun _ s => s) (fun c _ => decide (c = a.m)) (fun _ _ s => [s.val]),
   locLayer (ranks2 T) fun _ s => { s with val := packet0 (s.mb a.m) }]

/-- `get_max_vorticity` (F2D.py:323-329): `allreduce` with `MPI.MAX`. -/
noncomputable def maxPiece2 (C : Cfg2) : List (C2 → List (AIns C2 (RkC2 T B) (List ℝ))) :=
  [collLayer (ranks2 T) qPart2 (fun _ s => s) (fun _ _ => true) (fun _ _ s => [okOr 0 (amax (innerElems2 T C.g s.sim.prim))]),
   locLayer (ranks2 T) fun _ s => { s with val := okOr 0 (allreduce max (ranks2 T) fun r => .ok (packet0 (s.mb r))) }]

/-- `flow_sim.time_step(dt, free_stream_velocity)` (F2D.py:251-258). -/
noncomputable def stepPiece2 [NeZero T.gy] [NeZero T.gx] (C : Cfg2) (K : Kern2) (tol dt : ℝ) (fs : Fin 2 → ℝ) : List (Piece2 T) :=
  dtPiece2 C tol (.fixed dt) ++ flowPiece2 C K fs ++ [locLayer (ranks2 T) fun _ s => { s with time := s.time + s.dt }]

/-- `interactor.time_step(dt)` (VBF.py:452-459). -/
noncomputable def advanceIns2 (b : B) (dt : ℝ) : List (CIns2 T B) :=
  liftProg (rkPart2 b) .all (stepStage dt) ++ [.loc fun s => { s with ib := Function.update s.ib b { s.ib b with time := (s.ib b).time + dt } }]

/-- Both halves of `compute_interaction_force_on_lag_grid` (VBF.py:333-406) after the reset and the ghost exchange; `rest` is what follows. -/
noncomputable def interactCode2 (C : Cfg2) (A : B → Ib2) (r : C2) (full : Bool) (b : B) (X U : LagField ℝ) (rest : RProg C2 (RkC2 T B) (Pkt C2 C2 ℝ)) :
    RProg C2 (RkC2 T B) (Pkt C2 C2 ℝ) :=
  .run (liftProg simPart2 Pkt.embVals (layersProg (prePiece2 C (A b) full) r)) <|
  .blk (fun s => liftProg (rkPart2 b) .all (stage1Prog ((A b).vbf T (simDx2 T C.xr)) (s.ib b).rk.v.addr X r)) fun _ =>
  .blk (fun s => liftProg (rkPart2 b) .all (stage2Prog ((A b).vbf T (simDx2 T C.xr)) (s.ib b).rk.v.addr (s.ib b).rk.v.flag X U
    (flowVel2 T C.g (simDx2 T C.xr) (A b) (fun j _ => s.sim.vel j) r) r)) fun _ => rest

/-- The forces which a rank reads off its global array (defined on the master only). -/
def forcesHere2 (N : ℕ) (f : LagField ℝ) : LagField ℝ := fun k i => if k < 2 ∧ i < N then f k i else 0

/-- The program of rank `r` for a driver. -/
noncomputable def cCode2 [NeZero T.gy] [NeZero T.gx] (C : Cfg2) (K : Kern2) (tol : ℝ) (A : B → Ib2) (r : C2) : Prog2 B → RProg C2 (RkC2 T B) (Pkt C2 C2 ℝ)
  | .stop => .stop
  | .interact b X U k => interactCode2 C A r true b X U <| .run (spreadProg2 C (A b) b r) (cCode2 C K tol A r k)
  | .forces b X U k => interactCode2 C A r false b X U <| .read fun s => cCode2 C K tol A r (k (forcesHere2 (A b).N (s.ib b).rk.v.gforce))
  | .advance b dt k => .run (advanceIns2 b dt) (cCode2 C K tol A r k)
  | .flow dt fs k => .run (liftProg simPart2 Pkt.embVals (layersProg (stepPiece2 C K tol dt fs) r)) (cCode2 C K tol A r k)
  | .stableDt pre k => .run (liftProg simPart2 Pkt.embVals (layersProg (dtPiece2 C tol (.stable pre)) r)) (.read fun s => cCode2 C K tol A r (k s.sim.dt))
  | .deviation b k => .run (liftProg .whole Pkt.embVals (layersProg (devPiece2 (A b) b) r)) (.read fun s => cCode2 C K tol A r (k s.val))
  | .maxVort k => .run (liftProg .whole Pkt.embVals (layersProg (maxPiece2 C) r)) (.read fun s => cCode2 C K tol A r (k s.val))
  | .ghost k => .run (liftProg simPart2 Pkt.embVals (layersProg (ghostPiece2 C) r)) (cCode2 C K tol A r k)
  | .out x k => .run [.loc fun s => { s with log := s.log ++ [x] }] (cCode2 C K tol A r k)

/-- All ranks; rank `r` runs the driver `q r`. -/
noncomputable def cCodes2 [NeZero T.gy] [NeZero T.gx] (C : Cfg2) (K : Kern2) (tol : ℝ) (A : B → Ib2) (q : C2 → Prog2 B) : C2 → RProg C2 (RkC2 T B) (Pkt C2 C2 ℝ) :=
  onRanks (ranks2 T) fun r => cCode2 C K tol A r (q r)

omit [DecidableEq B] in
/-- The driver of rank `r` makes the calls of the driver `p`, though it may know less: positions and velocities of a body, and the forces it is handed, exist on the
master of the body only, and what is printed matters on rank `pr` only. -/
def Follows2 (A : B → Ib2) (pr r : C2) : Prog2 B → Prog2 B → Prop
  | .stop, q => q = .stop
  | .interact b X U k, q => ∃ X' U' k', q = .interact b X' U' k' ∧ (r = (A b).m → X' = X ∧ U' = U) ∧ Follows2 A pr r k k'
  | .forces b X U k, q => ∃ X' U' k', q = .forces b X' U' k' ∧ (r = (A b).m → X' = X ∧ U' = U) ∧ ∀ f f', (r = (A b).m → f' = f) → Follows2 A pr r (k f) (k' f')
  | .advance b dt k, q => ∃ k', q = .advance b dt k' ∧ Follows2 A pr r k k'
  | .flow dt fs k, q => ∃ k', q = .flow dt fs k' ∧ Follows2 A pr r k k'
  | .stableDt pre k, q => ∃ k', q = .stableDt pre k' ∧ ∀ x, Follows2 A pr r (k x) (k' x)
  | .deviation b k, q => ∃ k', q = .deviation b k' ∧ ∀ x, Follows2 A pr r (k x) (k' x)
  | .maxVort k, q => ∃ k', q = .maxVort k' ∧ ∀ x, Follows2 A pr r (k x) (k' x)
  | .ghost k, q => ∃ k', q = .ghost k' ∧ Follows2 A pr r k k'
  | .out x k, q => ∃ x' k', q = .out x' k' ∧ (r = pr → x' = x) ∧ Follows2 A pr r k k'

end

end Sopht
