import Verif.Choreo
import Verif.FieldComm
import Verif.Vbf

/-!
# What each rank executes in scatter, gather and the virtual boundary forcing

The programs of the single ranks (blocking calls in the order of the code), of which `Verif.FieldComm`, `Verif.Lagrangian` and `Verif.Vbf` give the
results.  Payloads are lists of values.
-/

namespace Sopht

/-! ## Fields -/

/-- Arrays of a rank, by component `K`: the local field (index `I`) and the global field (only the master's is used). -/
structure FieldSt (K I α : Type) where
  loc : K → I → α
  glob : K → ℤ → α

variable {K α : Type} [DecidableEq K]

/-- `gather_local_scalar_field` of component `k` on rank `r` (mpi_utils_2d.py:470-508). -/
def gatherProg2 (T : Cart2) (g : ℕ) (m : C2) (order : List C2) (k : K) (r : C2) : List (Ins C2 (FieldSt K ℤ α) (List α)) :=
  if r = m then
    .loc (fun s => { s with glob := Function.update s.glob k (unpack (s.glob k) (chunkIx2 T m) ((innerIx2 T g).map (s.loc k))) }) ::
      order.map fun q => .recv q fun v s => { s with glob := Function.update s.glob k (unpack (s.glob k) (masterBuf2 T q) v) }
  else [.send m fun s => (slaveBuf2 T g).map (s.loc k)]

/-- `scatter_global_scalar_field` of component `k` on rank `r` (mpi_utils_2d.py:524-555). -/
def scatterProg2 (T : Cart2) (g : ℕ) (m : C2) (order : List C2) (k : K) (r : C2) : List (Ins C2 (FieldSt K ℤ α) (List α)) :=
  if r = m then
    .loc (fun s => { s with loc := Function.update s.loc k (unpack (s.loc k) (innerIx2 T g) ((chunkIx2 T m).map (s.glob k))) }) ::
      order.map fun q => .send q fun s => (masterBuf2 T q).map (s.glob k)
  else [.recv m fun v s => { s with loc := Function.update s.loc k (unpack (s.loc k) (slaveBuf2 T g) v) }]

/-- `gather_local_vector_field` (mpi_utils_2d.py:510-522). -/
def gatherVecProg2 (T : Cart2) (g : ℕ) (m : C2) (order : List C2) (r : C2) : List (Ins C2 (FieldSt (Fin 2) ℤ α) (List α)) :=
  gatherProg2 T g m order 0 r ++ gatherProg2 T g m order 1 r

/-- `scatter_global_vector_field` (mpi_utils_2d.py:557-568). -/
def scatterVecProg2 (T : Cart2) (g : ℕ) (m : C2) (order : List C2) (r : C2) : List (Ins C2 (FieldSt (Fin 2) ℤ α) (List α)) :=
  scatterProg2 T g m order 0 r ++ scatterProg2 T g m order 1 r

/-- `gather_local_scalar_field` of component `k` on rank `r` (mpi_utils_3d.py:1192-1230). -/
def gatherProg3 (T : Cart3) (g : ℕ) (m : C3) (order : List C3) (k : K) (r : C3) : List (Ins C3 (FieldSt K C3 α) (List α)) :=
  if r = m then
    .loc (fun s => { s with glob := Function.update s.glob k (unpack (s.glob k) (chunkIx3 T m) ((innerIx3 T g).map (s.loc k))) }) ::
      order.map fun q => .recv q fun v s => { s with glob := Function.update s.glob k (unpack (s.glob k) (masterBuf3 T q) v) }
  else [.send m fun s => (slaveBuf3 T g).map (s.loc k)]

/-- `scatter_global_scalar_field` of component `k` on rank `r` (mpi_utils_3d.py:1250-1287). -/
def scatterProg3 (T : Cart3) (g : ℕ) (m : C3) (order : List C3) (k : K) (r : C3) : List (Ins C3 (FieldSt K C3 α) (List α)) :=
  if r = m then
    .loc (fun s => { s with loc := Function.update s.loc k (unpack (s.loc k) (innerIx3 T g) ((chunkIx3 T m).map (s.glob k))) }) ::
      order.map fun q => .send q fun s => (masterBuf3 T q).map (s.glob k)
  else [.recv m fun v s => { s with loc := Function.update s.loc k (unpack (s.loc k) (slaveBuf3 T g) v) }]

/-- `gather_local_vector_field` (mpi_utils_3d.py:1232-1248). -/
def gatherVecProg3 (T : Cart3) (g : ℕ) (m : C3) (order : List C3) (r : C3) : List (Ins C3 (FieldSt (Fin 3) C3 α) (List α)) :=
  gatherProg3 T g m order 0 r ++ gatherProg3 T g m order 1 r ++ gatherProg3 T g m order 2 r

/-- `scatter_global_vector_field` (mpi_utils_3d.py:1289-1305). -/
def scatterVecProg3 (T : Cart3) (g : ℕ) (m : C3) (order : List C3) (r : C3) : List (Ins C3 (FieldSt (Fin 3) C3 α) (List α)) :=
  scatterProg3 T g m order 0 r ++ scatterProg3 T g m order 1 r ++ scatterProg3 T g m order 2 r

/-! ## Lagrangian fields -/

section Lag
variable {R S : Type} [DecidableEq R]

/-- `gather_local_field` on rank `r` (mpi_utils_2d.py:687-712, mpi_utils_3d.py:1435-1459); `get` is the local field in the state of a rank, `upd` replaces the
global field by a function of it, `order` is the iteration order of `slave_ranks_containing_lag_nodes`. -/
def gatherLagProg (d : ℕ) (addr : List R) (m : R) (order : List R) (junk : LagField α) (get : S → LagField α)
    (upd : (LagField α → LagField α) → S → S) (r : R) : List (Ins R S (List α)) :=
  (if r ∈ order then [.send m fun s => ravelLag d (localCount addr r) (get s)] else []) ++
  (if r = m then
    .loc (fun s => upd (setCols d (whereEq addr m) (get s)) s) ::
      order.map fun q => .recv q fun v s => upd (setCols d (whereEq addr q) (fillLag d (whereEq addr q).length v junk)) s
  else [])

/-- `scatter_global_field` on rank `r` (mpi_utils_2d.py:662-685, mpi_utils_3d.py:1410-1433); `get` is the global field in the state of a rank, `upd`
replaces the local field by a function of it. -/
def scatterLagProg (d : ℕ) (addr : List R) (m : R) (order : List R) (get : S → LagField α) (upd : (LagField α → LagField α) → S → S) (r : R) :
    List (Ins R S (List α)) :=
  (if r = m then
    .loc (fun s => upd (fun l k j => if k < d ∧ j < localCount addr m then cols (whereEq addr m) (get s) k j else l k j) s) ::
      order.map fun q => .send q fun s => ravelLag d (whereEq addr q).length (cols (whereEq addr q) (get s))
  else []) ++
  (if r ∈ order then [.recv m fun v s => upd (fillLag d (localCount addr r) v) s] else [])

/-! ## Virtual boundary forcing -/

/-- The part of the state of a forcing object which lives on one rank. -/
structure VbfLoc (R α : Type) where
  /-- `rank_address` of the communicator -/
  addr : List R
  /-- the mapping the master is about to broadcast -/
  box : List R
  /-- `local_num_lag_nodes` -/
  cnt : ℕ
  /-- `update_buffer_flag` -/
  flag : Bool
  posM : LagField α
  velM : LagField α
  force : LagField α
  lpos : LagField α
  lvel : LagField α
  /-- `global_lag_grid_position_mismatch_field` of this rank (used on the master only), … -/
  gposM : LagField α
  gvelM : LagField α
  gforce : LagField α

variable [Ring α]

/-- `rank_address = bcast(rank_address, root=master_rank)` in `map_lagrangian_nodes_based_on_position` (mpi_utils_2d.py:639-660), for rank `r`. -/
def bcastStep (c : VbfCfg R α) (r : R) (w : R → VbfLoc R α) : VbfLoc R α := { w r with addr := (w c.m).box }

/-- `allreduce(local_num_lag_nodes != communicator.local_num_lag_nodes, LOR)` (VirtualBoundaryForcingMPI.py:254-260), for rank `r`. -/
def reduceStep (c : VbfCfg R α) (r : R) (w : R → VbfLoc R α) : VbfLoc R α :=
  { w r with flag := c.ranks.any fun q => decide ((w q).cnt ≠ localCount (w q).addr q) }

/-- `update_buffers` up to the reduced flag (VirtualBoundaryForcingMPI.py:239-262) on rank `r`, with the old mapping `addr`. -/
def updateProg1 (c : VbfCfg R α) (addr : List R) (X : LagField α) (r : R) : List (Ins R (VbfLoc R α) (List α)) :=
  gatherLagProg c.d addr c.m (c.ord addr) c.junk VbfLoc.posM (fun f s => { s with gposM := f s.gposM }) r ++
  gatherLagProg c.d addr c.m (c.ord addr) c.junk VbfLoc.velM (fun f s => { s with gvelM := f s.gvelM }) r ++
  -- `map_lagrangian_nodes_based_on_position`: the master computes, `bcast`
  (if r = c.m then [.loc fun s => { s with box := c.addrOf X }] else []) ++
  [.coll (bcastStep c r), .coll (reduceStep c r)]

/-- The rest of `update_buffers` (VirtualBoundaryForcingMPI.py:264-276) on rank `r`, with the new mapping and the flag which the rank holds. -/
def updateProg2 (c : VbfCfg R α) (addr : List R) (flag : Bool) (r : R) : List (Ins R (VbfLoc R α) (List α)) :=
  if flag then
    .loc (fun s =>
      { s with
        cnt := localCount addr r, posM := fun _ _ => 0, velM := fun _ _ => 0
        force := fun _ _ => 0, lpos := fun _ _ => 0, lvel := fun _ _ => 0 }) ::
    (scatterLagProg c.d addr c.m (c.ord addr) VbfLoc.gposM (fun f s => { s with posM := f s.posM }) r ++
     scatterLagProg c.d addr c.m (c.ord addr) VbfLoc.gvelM (fun f s => { s with velM := f s.velM }) r)
  else []

/-- `compute_interaction_force_on_lag_grid` (VirtualBoundaryForcingMPI.py:333-406) after `update_buffers`, on rank `r`. -/
def interactProg2 (c : VbfCfg R α) (addr : List R) (X U : LagField α) (I : R → (ℕ → α) → ℕ → α) (r : R) : List (Ins R (VbfLoc R α) (List α)) :=
  scatterLagProg c.d addr c.m (c.ord addr) (fun _ => X) (fun f s => { s with lpos := f s.lpos }) r ++
  scatterLagProg c.d addr c.m (c.ord addr) (fun _ => U) (fun f s => { s with lvel := f s.lvel }) r ++
  .loc (fun s =>
      let velM : LagField α := fun k j => I r (fun k' => s.lpos k' j) k - s.lvel k j
      { s with velM := velM, force := fun k j => c.stiff * s.posM k j + c.damp * velM k j }) ::
    gatherLagProg c.d addr c.m (c.ord addr) c.junk VbfLoc.force (fun f s => { s with gforce := f s.gforce }) r

/-- First half of the call on rank `r`: `update_buffers` up to and including `allreduce`, with the mapping the rank holds. -/
def firstHalf (c : VbfCfg R α) (X : LagField α) (s : VbfLoc R α) (r : R) : List (Ins R (VbfLoc R α) (List α)) := updateProg1 c s.addr X r

/-- Second half, chosen by the mapping and the flag which the rank holds after `allreduce`.  No rank gets here before all ranks have entered `allreduce`,
that is, finished the first half. -/
def secondHalf (c : VbfCfg R α) (X U : LagField α) (I : R → (ℕ → α) → ℕ → α) (s : VbfLoc R α) (r : R) : List (Ins R (VbfLoc R α) (List α)) :=
  updateProg2 c s.addr s.flag r ++ interactProg2 c s.addr X U I r

/-- `time_step` on a rank (VirtualBoundaryForcingMPI.py:297-310). -/
def stepProg (dt : α) : List (Ins R (VbfLoc R α) (List α)) := [.loc fun s => { s with posM := fun k j => s.posM k j + dt * s.velM k j }]

/-- One call by all ranks takes the local states `w` to `out`, under every schedule and every decision about buffering. -/
inductive CallComputes (buffered : Bool) (c : VbfCfg R α) : VbfOp R α → (R → VbfLoc R α) → (R → VbfLoc R α) → Prop
  | interact (X U : LagField α) (I : R → (ℕ → α) → ℕ → α) (w w1 out : R → VbfLoc R α)
      (h1 : Computes buffered c.ranks (fun r => firstHalf c X (w r) r) w w1)
      (h2 : Computes buffered c.ranks (fun r => secondHalf c X U I (w1 r) r) w1 out) : CallComputes buffered c (.interact X U I) w out
  | step (dt : α) (w out : R → VbfLoc R α) (h : Computes buffered c.ranks (fun _ => stepProg dt) w out) : CallComputes buffered c (.step dt) w out

/-- A history of calls. -/
inductive CallsCompute (buffered : Bool) (c : VbfCfg R α) : List (VbfOp R α) → (R → VbfLoc R α) → (R → VbfLoc R α) → Prop
  | nil (w : R → VbfLoc R α) : CallsCompute buffered c [] w w
  | cons {op : VbfOp R α} {ops : List (VbfOp R α)} {w w1 out : R → VbfLoc R α} (h : CallComputes buffered c op w w1)
      (t : CallsCompute buffered c ops w1 out) : CallsCompute buffered c (op :: ops) w out

/-- The ranks hold the parts of the state `s`. -/
structure HoldsVbf (c : VbfCfg R α) (s : Vbf R α) (w : R → VbfLoc R α) : Prop where
  addr : ∀ r ∈ c.ranks, (w r).addr = s.addr
  cnt : ∀ r ∈ c.ranks, (w r).cnt = s.cnt r
  posM : ∀ r ∈ c.ranks, (w r).posM = s.posM r
  velM : ∀ r ∈ c.ranks, (w r).velM = s.velM r
  force : ∀ r ∈ c.ranks, (w r).force = s.force r
  lpos : ∀ r ∈ c.ranks, (w r).lpos = s.lpos r
  lvel : ∀ r ∈ c.ranks, (w r).lvel = s.lvel r
  gposM : (w c.m).gposM = s.gposM
  gvelM : (w c.m).gvelM = s.gvelM
  gforce : (w c.m).gforce = s.gforce

end Lag
end Sopht
