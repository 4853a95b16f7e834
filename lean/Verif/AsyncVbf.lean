import Verif.AsyncLift
import Verif.VbfSchedule

/-!
# The virtual boundary forcing run by ranks at their own speed (C85)

Every rank executes its own history of calls of a forcing object (`sopht_mpi/numeric/immersed_boundary_ops/VirtualBoundaryForcingMPI.py`, "VBF.py").  Which messages a rank sends
and expects is decided by the rank alone, from the node mapping it received and the flag it computed; no barrier separates the calls.
-/

namespace Sopht

/-! ## Messages and state -/

/-- What ranks send each other: numbers, a node mapping (`bcast`), flags (`allreduce` with `MPI.LOR`), a block of a field. -/
inductive Pkt (R I α : Type) where
  | vals (l : List α)
  | addr (l : List R)
  | flag (l : List Bool)
  | arr (f : I → α)

section
variable {R I α : Type}

/-- Messages of numbers. -/
def Pkt.embVals : Emb (List α) (Pkt R I α) := ⟨.vals, fun x => match x with | .vals l => l | _ => [], fun _ => rfl⟩
/-- Node mappings. -/
def Pkt.embAddr : Emb (List R) (Pkt R I α) := ⟨.addr, fun x => match x with | .addr l => l | _ => [], fun _ => rfl⟩
/-- Flags. -/
def Pkt.embFlag : Emb (List Bool) (Pkt R I α) := ⟨.flag, fun x => match x with | .flag l => l | _ => [], fun _ => rfl⟩
/-- Blocks of a field. -/
def Pkt.embArr [Zero α] : Emb (I → α) (Pkt R I α) := ⟨.arr, fun x => match x with | .arr f => f | _ => fun _ => 0, fun _ => rfl⟩

end

/-- What a rank holds: its part of the forcing object, and the packets of the collective operations. -/
structure VbfRk (R α : Type) where
  v : VbfLoc R α
  mbA : R → List R
  mbF : R → List Bool

section
variable {R I α : Type}

/-- The part of the forcing object. -/
def vbfPart : Part (VbfRk R α) (VbfLoc R α) := ⟨fun s => s.v, fun s a => { s with v := a }, fun _ _ => rfl, fun _ => rfl, fun _ _ _ => rfl⟩
/-- Packets of `bcast`. -/
def mbAPart : Part (VbfRk R α) (R → List R) := ⟨fun s => s.mbA, fun s a => { s with mbA := a }, fun _ _ => rfl, fun _ => rfl, fun _ _ _ => rfl⟩
/-- Packets of `allreduce`. -/
def mbFPart : Part (VbfRk R α) (R → List Bool) := ⟨fun s => s.mbF, fun s a => { s with mbF := a }, fun _ _ => rfl, fun _ => rfl, fun _ _ _ => rfl⟩

variable [DecidableEq R] [Ring α]

/-- Gathers of `update_buffers` and, on the master, the new mapping (VBF.py:239-252, mpi_utils_2d.py:639-656). -/
def gatherStage (c : VbfCfg R α) (addr : List R) (X : LagField α) (r : R) : List (Ins R (VbfLoc R α) (List α)) :=
  gatherLagProg c.d addr c.m (c.ord addr) c.junk VbfLoc.posM (fun f s => { s with gposM := f s.gposM }) r ++
  gatherLagProg c.d addr c.m (c.ord addr) c.junk VbfLoc.velM (fun f s => { s with gvelM := f s.gvelM }) r ++
  (if r = c.m then [.loc fun s => { s with box := c.addrOf X }] else [])

/-- `rank_address = bcast(rank_address, root=master_rank)` (mpi_utils_2d.py:657-660): one message from the master to each rank. -/
def bcastLayer (c : VbfCfg R α) : R → List (AIns R (VbfRk R α) (List R)) :=
  collLayer c.ranks mbAPart (fun _ s => s) (fun a _ => decide (a = c.m)) fun _ _ s => s.v.box

/-- `allreduce(local_num_lag_nodes != communicator.local_num_lag_nodes, LOR)` (VBF.py:254-260): every rank needs the flags of all. -/
def lorLayer (c : VbfCfg R α) : R → List (AIns R (VbfRk R α) (List Bool)) :=
  collLayer c.ranks mbFPart (fun _ s => s) (fun _ _ => true) fun a _ s => [decide (s.v.cnt ≠ localCount s.v.addr a)]

/-- `update_buffers` up to the reduced flag (VBF.py:239-262) on rank `r`, which holds the mapping `addr`. -/
def stage1Prog (c : VbfCfg R α) (addr : List R) (X : LagField α) (r : R) : List (AIns R (VbfRk R α) (Pkt R I α)) :=
  liftProg vbfPart Pkt.embVals (asyncProg (gatherStage c addr X r)) ++
  (liftProg .whole Pkt.embAddr (bcastLayer c r) ++
  (.loc (fun s => { s with v := { s.v with addr := s.mbA c.m } }) ::
  (liftProg .whole Pkt.embFlag (lorLayer c r) ++
  [.loc fun s => { s with v := { s.v with flag := c.ranks.any fun q => (s.mbF q).headD false } }])))

/-- The rest of the call (VBF.py:264-276, 333-406) on rank `r`, which holds the mapping `addr` and the flag `flag`. -/
def stage2Prog (c : VbfCfg R α) (addr : List R) (flag : Bool) (X U : LagField α) (F : (ℕ → α) → ℕ → α) (r : R) : List (AIns R (VbfRk R α) (Pkt R I α)) :=
  liftProg vbfPart Pkt.embVals (asyncProg (updateProg2 c addr flag r ++ interactProg2 c addr X U (fun _ => F) r))

/-- `time_step(dt)` (VBF.py:297-310). -/
def stepStage (dt : α) : List (AIns R (VbfRk R α) (Pkt R I α)) := liftProg vbfPart Pkt.embVals (asyncProg (stepProg dt))

/-- A call as made on one rank: `X`, `U` are what the forcing grid of this rank has, `F` interpolates the flow velocity of this rank. -/
inductive VbfCall (α : Type) where
  | interact (X U : LagField α) (F : (ℕ → α) → ℕ → α)
  | step (dt : α)

/-- The program of rank `r` for a history of calls. -/
def vbfCode (c : VbfCfg R α) (r : R) : List (VbfCall α) → RProg R (VbfRk R α) (Pkt R I α)
  | [] => .stop
  | .interact X U F :: l => .blk (fun s => stage1Prog c s.v.addr X r) fun _ => .blk (fun s => stage2Prog c s.v.addr s.v.flag X U F r) fun _ => vbfCode c r l
  | .step dt :: l => .blk (fun _ => stepStage dt) fun _ => vbfCode c r l

/-- What rank `r` knows of a call: its own flow field, and the body only on the master. -/
def Sees (m r : R) : VbfOp R α → VbfCall α → Prop
  | .interact X U I, .interact X' U' F => F = I r ∧ (r = m → X' = X ∧ U' = U)
  | .step dt, .step dt' => dt' = dt
  | _, _ => False

/-! ## Pieces -/

/-- Programs of blocking calls which are the parts of a sequence of messages. -/
structure PParts {S M : Type} (ranks : List R) (prog : R → List (Ins R S M)) (L : List (Item R S M)) : Prop where
  plain : ∀ x ∈ L, x.Plain ranks
  prog : ∀ r ∈ ranks, prog r = proj r L

theorem PParts.append {S M : Type} {ranks : List R} {p q : R → List (Ins R S M)} {L L' : List (Item R S M)} (h : PParts ranks p L) (h' : PParts ranks q L') :
    PParts ranks (fun r => p r ++ q r) (L ++ L') :=
  ⟨fun x hx => (List.mem_append.1 hx).elim (h.plain x) (h'.plain x), fun r hr => by rw [proj_append, h.prog r hr, h'.prog r hr]⟩

theorem Parts.plain {S M : Type} {ranks : List R} {p : R → List (Ins R S M)} {L : List (Item R S M)} (h : Parts ranks p L) (hp : ∀ x ∈ L, x.P2P) : PParts ranks p L :=
  ⟨fun x hx => plain_of (h.wf x hx) (hp x hx), h.prog⟩

theorem proj_plain_nil {S M : Type} {ranks : List R} {L : List (Item R S M)} (h : ∀ x ∈ L, x.Plain ranks) {r : R} (hr : r ∉ ranks) : proj r L = [] := by
  apply proj_nil_of
  intro x hx
  have hp := h x hx
  cases x with
  | loc a f =>
    have ha : a ∈ ranks := hp
    change (if r = a then _ else []) = []
    rw [if_neg]; rintro rfl; exact hr ha
  | msg s d val put =>
    obtain ⟨hs, hd, -⟩ := hp
    change (if r = s then _ else if r = d then _ else []) = []
    rw [if_neg, if_neg]
    · rintro rfl; exact hr hd
    · rintro rfl; exact hr hs
  | half => exact hp.elim
  | coll => exact hp.elim

theorem gatherLag_p2p {S : Type} (d : ℕ) (addr : List R) (m : R) (order : List R) (junk : LagField α) (get : S → LagField α)
    (upd : (LagField α → LagField α) → S → S) : ∀ x ∈ gatherLagItems d addr m order junk get upd, x.P2P := by
  intro x hx
  unfold gatherLagItems gatherSeq at hx
  rcases List.mem_cons.1 hx with rfl | hx
  · trivial
  · obtain ⟨q, -, rfl⟩ := List.mem_map.1 hx; trivial

theorem scatterLag_p2p {S : Type} (d : ℕ) (addr : List R) (m : R) (order : List R) (get : S → LagField α)
    (upd : (LagField α → LagField α) → S → S) : ∀ x ∈ scatterLagItems d addr m order get upd, x.P2P := by
  intro x hx
  unfold scatterLagItems scatterSeq at hx
  rcases List.mem_cons.1 hx with rfl | hx
  · trivial
  · obtain ⟨q, -, rfl⟩ := List.mem_map.1 hx; trivial

theorem allLoc_p2p {S M : Type} (ranks : List R) (f : R → S → S) : ∀ x ∈ (allLoc ranks f : List (Item R S M)), x.P2P := by
  intro x hx
  obtain ⟨q, -, rfl⟩ := List.mem_map.1 hx; trivial

/-- the messages of the gathers, and the mapping on the master -/
def gatherItems (c : VbfCfg R α) (addr : List R) (X : LagField α) : List (Item R (VbfLoc R α) (List α)) :=
  gatherLagItems c.d addr c.m (c.ord addr) c.junk VbfLoc.posM (fun f s => { s with gposM := f s.gposM }) ++
  gatherLagItems c.d addr c.m (c.ord addr) c.junk VbfLoc.velM (fun f s => { s with gvelM := f s.gvelM }) ++
  [.loc c.m fun s => { s with box := c.addrOf X }]

variable {c : VbfCfg R α}

theorem gatherItems_parts (hc : CfgOk c) {addr : List R} (ha : ∀ r ∈ addr, r ∈ c.ranks) (X : LagField α) : PParts c.ranks (gatherStage c addr X) (gatherItems c addr X) := by
  unfold gatherItems
  refine (((gatherLagItems_parts hc.master ha (hc.ord addr) _ _ _ _).append (gatherLagItems_parts hc.master ha (hc.ord addr) _ _ _ _)).append
    (loc_parts hc.master _)).plain ?_
  intro x hx
  rcases List.mem_append.1 hx with hx | hx
  · rcases List.mem_append.1 hx with hx | hx
    · exact gatherLag_p2p _ _ _ _ _ _ _ x hx
    · exact gatherLag_p2p _ _ _ _ _ _ _ x hx
  · rw [List.mem_singleton.1 hx]; trivial

/-- the messages of the second half -/
def restItems (c : VbfCfg R α) (addr : List R) (flag : Bool) (X U : LagField α) (I : R → (ℕ → α) → ℕ → α) : List (Item R (VbfLoc R α) (List α)) :=
  secondItems c addr flag ++ thirdItems c addr X U I

theorem restItems_parts (hc : CfgOk c) {addr : List R} (ha : ∀ r ∈ addr, r ∈ c.ranks) (flag : Bool) (X U : LagField α) (I : R → (ℕ → α) → ℕ → α) :
    PParts c.ranks (fun r => updateProg2 c addr flag r ++ interactProg2 c addr X U I r) (restItems c addr flag X U I) := by
  refine ((secondItems_parts hc ha flag).append (thirdItems_parts hc ha X U I)).plain ?_
  intro x hx
  rcases List.mem_append.1 hx with hx | hx
  · unfold secondItems at hx
    split at hx
    · rcases List.mem_append.1 hx with hx | hx
      · exact allLoc_p2p _ _ x hx
      · rcases List.mem_append.1 hx with hx | hx <;> exact scatterLag_p2p _ _ _ _ _ _ x hx
    · cases hx
  · unfold thirdItems at hx
    rcases List.mem_append.1 hx with hx | hx
    · rcases List.mem_append.1 hx with hx | hx <;> exact scatterLag_p2p _ _ _ _ _ _ x hx
    · rcases List.mem_append.1 hx with hx | hx
      · exact allLoc_p2p _ _ x hx
      · exact gatherLag_p2p _ _ _ _ _ _ _ x hx

/-- the pieces of the first half -/
def stage1Pieces (c : VbfCfg R α) (addr : List R) (X : LagField α) : List (R → List (AIns R (VbfRk R α) (Pkt R I α))) :=
  ((gatherItems c addr X).map itemLayer).map (liftPiece vbfPart Pkt.embVals) ++
  [liftPiece .whole Pkt.embAddr (bcastLayer c),
   locLayer c.ranks (fun _ s => { s with v := { s.v with addr := s.mbA c.m } }),
   liftPiece .whole Pkt.embFlag (lorLayer c),
   locLayer c.ranks (fun _ s => { s with v := { s.v with flag := c.ranks.any fun q => (s.mbF q).headD false } })]

/-- the pieces of the second half -/
def stage2Pieces (c : VbfCfg R α) (addr : List R) (flag : Bool) (X U : LagField α) (F : R → (ℕ → α) → ℕ → α) : List (R → List (AIns R (VbfRk R α) (Pkt R I α))) :=
  ((restItems c addr flag X U F).map itemLayer).map (liftPiece vbfPart Pkt.embVals)

theorem stage1Pieces_pieces (hc : CfgOk c) {addr : List R} (ha : ∀ r ∈ addr, r ∈ c.ranks) (X : LagField α) :
    ∀ P ∈ (stage1Pieces c addr X : List (R → List (AIns R (VbfRk R α) (Pkt R I α)))), Piece c.ranks P := by
  intro P hP
  unfold stage1Pieces at hP
  rcases List.mem_append.1 hP with hP | hP
  · refine liftPieces_pieces _ _ ?_ P hP
    intro Q hQ
    obtain ⟨x, hx, rfl⟩ := List.mem_map.1 hQ
    exact itemLayer_piece ((gatherItems_parts hc ha X).plain x hx)
  · simp only [List.mem_cons, List.not_mem_nil, or_false] at hP
    rcases hP with rfl | rfl | rfl | rfl
    · exact liftPiece_piece _ _ (collLayer_piece hc.nodup _ _ _ _ fun _ _ _ _ => rfl)
    · exact locLayer_piece _ _
    · exact liftPiece_piece _ _ (collLayer_piece hc.nodup _ _ _ _ fun _ _ _ _ => rfl)
    · exact locLayer_piece _ _

theorem stage1_prog (hc : CfgOk c) {addr : List R} (ha : ∀ r ∈ addr, r ∈ c.ranks) (X : LagField α) {r : R} (hr : r ∈ c.ranks) {X' : LagField α} (hX : r = c.m → X' = X) :
    layersProg (stage1Pieces c addr X) r = (stage1Prog c addr X' r : List (AIns R (VbfRk R α) (Pkt R I α))) := by
  have e : gatherStage c addr X' r = gatherStage c addr X r := by
    unfold gatherStage
    by_cases h : r = c.m
    · rw [hX h]
    · rw [if_neg h, if_neg h]
  unfold stage1Pieces stage1Prog
  rw [layersProg_append, layersProg_lift, layersProg_items, e, (gatherItems_parts hc ha X).prog r hr]
  congr 1
  simp only [layersProg, List.flatMap_cons, List.flatMap_nil, List.append_nil, locLayer, if_pos hr]
  rfl

theorem layersProg_outside {S M : Type} {ranks : List R} {Ps : List (R → List (AIns R S M))} (h : ∀ P ∈ Ps, Piece ranks P) {r : R} (hr : r ∉ ranks) : layersProg Ps r = [] := by
  unfold layersProg
  rw [List.flatMap_eq_nil_iff]
  exact fun P hP => (h P hP).empty r hr

theorem stage2Pieces_pieces (hc : CfgOk c) {addr : List R} (ha : ∀ r ∈ addr, r ∈ c.ranks) (flag : Bool) (X U : LagField α) (F : R → (ℕ → α) → ℕ → α) :
    ∀ P ∈ (stage2Pieces c addr flag X U F : List (R → List (AIns R (VbfRk R α) (Pkt R I α)))), Piece c.ranks P := by
  refine liftPieces_pieces _ _ ?_
  intro Q hQ
  obtain ⟨x, hx, rfl⟩ := List.mem_map.1 hQ
  exact itemLayer_piece ((restItems_parts hc ha flag X U F).plain x hx)

theorem stage2_prog (hc : CfgOk c) {addr : List R} (ha : ∀ r ∈ addr, r ∈ c.ranks) (flag : Bool) (X U : LagField α) (F : R → (ℕ → α) → ℕ → α) {r : R} (hr : r ∈ c.ranks)
    {X' U' : LagField α} (hX : r = c.m → X' = X ∧ U' = U) :
    layersProg (stage2Pieces c addr flag X U F) r = (stage2Prog c addr flag X' U' (F r) r : List (AIns R (VbfRk R α) (Pkt R I α))) := by
  have e : updateProg2 c addr flag r ++ interactProg2 c addr X' U' (fun _ => F r) r = updateProg2 c addr flag r ++ interactProg2 c addr X U F r := by
    congr 1
    unfold interactProg2 scatterLagProg
    by_cases h : r = c.m
    · rw [(hX h).1, (hX h).2]
    · simp only [if_neg h]
  unfold stage2Pieces stage2Prog
  rw [layersProg_lift, layersProg_items, e]
  have := (restItems_parts hc ha flag X U F).prog r hr
  rw [this]

/-! ## What the stages do -/

theorem HoldsVbf.congr (hm : c.m ∈ c.ranks) {s : Vbf R α} {w w' : R → VbfLoc R α} (h : HoldsVbf c s w) (e : ∀ r ∈ c.ranks, w' r = w r) : HoldsVbf c s w' := by
  constructor
  case gposM => rw [e _ hm]; exact h.gposM
  case gvelM => rw [e _ hm]; exact h.gvelM
  case gforce => rw [e _ hm]; exact h.gforce
  all_goals
    intro r hr
    rw [e r hr]
    first | exact h.addr _ hr | exact h.cnt _ hr | exact h.posM _ hr | exact h.velM _ hr | exact h.force _ hr | exact h.lpos _ hr | exact h.lvel _ hr

variable {s : Vbf R α} {w w' : R → VbfRk R α} {b : Bool}

/-- the first half, by ranks at their own speed -/
theorem stage1_exec (hc : CfgOk c) (ha : ∀ r ∈ s.addr, r ∈ c.ranks) (h : HoldsVbf c s fun r => (w r).v) {X : LagField α}
    (hx : ExecSeq b (stage1Pieces c s.addr X : List (R → List (AIns R (VbfRk R α) (Pkt R I α)))) w w') :
    HoldsVbf c (vbfFirst c X s) (fun r => (w' r).v) ∧ ∀ r ∈ c.ranks, (w' r).v.flag = c.ranks.any fun q => decide (s.cnt q ≠ localCount (c.addrOf X) q) := by
  unfold stage1Pieces at hx
  obtain ⟨u1, h1, h2⟩ := execSeq_append hx
  obtain ⟨u2, k1, u3, k2, u4, k3, u5, k4, h5⟩ := h2
  have h5 : w' = u5 := h5
  subst h5
  obtain ⟨g1, -⟩ := liftPieces_exec h1
  have e1 := items_exec (gatherItems_parts hc ha X).plain g1
  obtain ⟨k1, -⟩ := liftPiece_exec k1
  obtain ⟨k3, -⟩ := liftPiece_exec k3
  have e2 := (collLayer_exec hc.nodup mbAPart _ _ _ (fun _ _ _ _ => rfl) k1).1
  have e3 := (locLayer_exec k2).1
  have e4 := (collLayer_exec hc.nodup mbFPart _ _ _ (fun _ _ _ _ => rfl) k3).1
  have e5 := (locLayer_exec k4).1
  -- the result is that of the sequence with collective operations
  have hv : ∀ r ∈ c.ranks, (w' r).v = execAll c.ranks (firstItems c s.addr X) (fun r => (w r).v) r := by
    have hfirst : ∀ r ∈ c.ranks, execAll c.ranks (firstItems c s.addr X) (fun r => (w r).v) r =
        { (u1 r).v with
          addr := (u1 c.m).v.box
          flag := c.ranks.any fun q => decide ((u1 q).v.cnt ≠ localCount (u1 c.m).v.box q) } := by
      intro r hr
      have e1' : (fun r => (u1 r).v) = execAll c.ranks (gatherItems c s.addr X) (fun r => (w r).v) := e1
      have : firstItems c s.addr X = gatherItems c s.addr X ++ ([.coll (bcastStep c)] ++ [.coll (reduceStep c)]) := rfl
      rw [this, execAll_append, ← e1', execAll_append]
      have hany : (c.ranks.any fun q => decide ((if q ∈ c.ranks then { (u1 q).v with addr := (u1 c.m).v.box } else (u1 q).v).cnt ≠
          localCount (if q ∈ c.ranks then { (u1 q).v with addr := (u1 c.m).v.box } else (u1 q).v).addr q)) =
          c.ranks.any fun q => decide ((u1 q).v.cnt ≠ localCount (u1 c.m).v.box q) := by
        rw [Bool.eq_iff_iff]
        simp only [List.any_eq_true]
        constructor
        · rintro ⟨q, hq, h⟩; exact ⟨q, hq, by simpa [if_pos hq] using h⟩
        · rintro ⟨q, hq, h⟩; exact ⟨q, hq, by simpa [if_pos hq] using h⟩
      simp only [execAll, List.foldl_cons, List.foldl_nil, Item.run, bcastStep, reduceStep, if_pos hr]
      rw [hany]
    intro r hr
    have hm := hc.master
    have hu3 : ∀ q ∈ c.ranks, (u3 q).v = { (u1 q).v with addr := (u1 c.m).v.box } := by
      intro q hq
      rw [e3 q hq]
      dsimp only
      have := e2 q hq
      simp only [Part.whole] at this
      rw [this]
      simp [mbAPart, hm]
    have hu4 : ∀ q ∈ c.ranks, (u4 q).v = (u3 q).v ∧ ∀ p ∈ c.ranks, (u4 q).mbF p = [decide ((u3 p).v.cnt ≠ localCount (u3 p).v.addr p)] := by
      intro q hq
      have := e4 q hq
      simp only [Part.whole] at this
      rw [this]
      refine ⟨rfl, ?_⟩
      intro p hp
      exact if_pos ⟨hp, trivial⟩
    rw [hfirst r hr, e5 r hr]
    dsimp only
    rw [(hu4 r hr).1, hu3 r hr]
    have : (c.ranks.any fun q => ((u4 r).mbF q).headD false) = c.ranks.any fun q => decide ((u1 q).v.cnt ≠ localCount (u1 c.m).v.box q) := by
      rw [Bool.eq_iff_iff]
      simp only [List.any_eq_true]
      constructor
      · rintro ⟨q, hq, h⟩
        refine ⟨q, hq, ?_⟩
        rw [(hu4 r hr).2 q hq, hu3 q hq] at h
        exact h
      · rintro ⟨q, hq, h⟩
        refine ⟨q, hq, ?_⟩
        rw [(hu4 r hr).2 q hq, hu3 q hq]
        exact h
    rw [this]
  obtain ⟨f1, f2⟩ := exec_first hc ha h X
  refine ⟨f1.congr hc.master hv, fun r hr => ?_⟩
  rw [hv r hr]
  exact f2 r hr

/-- the second half, by ranks at their own speed -/
theorem stage2_exec (hc : CfgOk c) {X : LagField α} (hX : ∀ r ∈ c.addrOf X, r ∈ c.ranks) (U : LagField α) (F : R → (ℕ → α) → ℕ → α)
    (h : HoldsVbf c (vbfFirst c X s) fun r => (w r).v)
    (hx : ExecSeq b (stage2Pieces c (c.addrOf X) (c.ranks.any fun q => decide (s.cnt q ≠ localCount (c.addrOf X) q)) X U F :
      List (R → List (AIns R (VbfRk R α) (Pkt R I α)))) w w') :
    HoldsVbf c (vbfInteract c X U F s) fun r => (w' r).v := by
  unfold stage2Pieces at hx
  obtain ⟨g1, -⟩ := liftPieces_exec hx
  have e1 := items_exec (restItems_parts hc hX _ X U F).plain g1
  have e1' : (fun r => (w' r).v) = execAll c.ranks (restItems c (c.addrOf X) (c.ranks.any fun q => decide (s.cnt q ≠ localCount (c.addrOf X) q)) X U F) (fun r => (w r).v) := e1
  rw [e1']
  unfold restItems
  rw [execAll_append]
  exact exec_third hc hX U F (exec_second hc h)

/-- `time_step`, by ranks at their own speed -/
theorem vbfStep_exec (hc : CfgOk c) (dt : α) (h : HoldsVbf c s fun r => (w r).v)
    (hx : ExecSeq b [liftPiece vbfPart (Pkt.embVals : Emb (List α) (Pkt R I α)) (locLayer c.ranks fun _ (s : VbfLoc R α) => { s with posM := fun k j => s.posM k j + dt * s.velM k j })] w w') :
    HoldsVbf c (vbfStep dt s) fun r => (w' r).v := by
  obtain ⟨u, h1, h2⟩ := hx
  have h2 : w' = u := h2
  subst h2
  obtain ⟨g1, -⟩ := liftPiece_exec h1
  obtain ⟨e, -⟩ := locLayer_exec g1
  have e : ∀ r ∈ c.ranks, (w' r).v = { (w r).v with posM := fun k j => (w r).v.posM k j + dt * (w r).v.velM k j } := e
  have hm := hc.master
  constructor
  case gposM => rw [e _ hm]; exact h.gposM
  case gvelM => rw [e _ hm]; exact h.gvelM
  case gforce => rw [e _ hm]; exact h.gforce
  case addr => intro r hr; rw [e r hr]; exact h.addr r hr
  case cnt => intro r hr; rw [e r hr]; exact h.cnt r hr
  case posM =>
    intro r hr; rw [e r hr]
    have h1 := h.posM r hr
    have h2 := h.velM r hr
    simp only [vbfStep, h1, h2]
  case velM => intro r hr; rw [e r hr]; exact h.velM r hr
  case lpos => intro r hr; rw [e r hr]; exact h.lpos r hr
  case lvel => intro r hr; rw [e r hr]; exact h.lvel r hr
  case force => intro r hr; rw [e r hr]; exact h.force r hr

/-! ## Histories -/

/-- The program of all ranks: rank `r` makes the calls `calls r`. -/
def vbfCodes (c : VbfCfg R α) (calls : R → List (VbfCall α)) (r : R) : RProg R (VbfRk R α) (Pkt R I α) := if r ∈ c.ranks then vbfCode c r (calls r) else .stop

theorem vbfRounds (hc : CfgOk c) (b : Bool) (ops : List (VbfOp R α)) : ∀ (s : Vbf R α) (calls : R → List (VbfCall α)) (w : R → VbfRk R α),
    (∀ r ∈ c.ranks, List.Forall₂ (Sees c.m r) ops (calls r)) → (∀ r ∈ s.addr, r ∈ c.ranks) → OpsOk c ops → HoldsVbf c s (fun r => (w r).v) →
    Rounds b c.ranks (fun w' => HoldsVbf c (vbfRun c s ops) fun r => (w' r).v) (vbfCodes c calls : R → RProg R (VbfRk R α) (Pkt R I α)) w := by
  induction ops with
  | nil =>
    intro s calls w hcalls _ _ h
    refine .stop ?_ h
    intro r
    unfold vbfCodes
    split
    · rename_i hr
      rw [List.forall₂_nil_left_iff.1 (hcalls r hr)]; rfl
    · rfl
  | cons op ops ih =>
    intro s calls w hcalls ha hops h
    have hops' : OpsOk c ops := fun X U I hm => hops X U I (List.mem_cons_of_mem _ hm)
    have hsplit : ∀ r, ∃ x l, r ∈ c.ranks → calls r = x :: l ∧ Sees c.m r op x ∧ List.Forall₂ (Sees c.m r) ops l := by
      intro r
      by_cases hr : r ∈ c.ranks
      · obtain ⟨x, l, h1, h2, h3⟩ := List.forall₂_cons_left_iff.1 (hcalls r hr)
        exact ⟨x, l, fun _ => ⟨h3, h1, h2⟩⟩
      · exact ⟨.step 0, [], fun h => absurd h hr⟩
    choose x l hxl using hsplit
    cases op with
    | step dt =>
      refine .round [liftPiece vbfPart Pkt.embVals (locLayer c.ranks fun _ (s : VbfLoc R α) => { s with posM := fun k j => s.posM k j + dt * s.velM k j })] (vbfCodes c l) ?_ ?_ ?_
      · intro P hP
        rw [List.mem_singleton.1 hP]
        exact liftPiece_piece _ _ (locLayer_piece _ _)
      · intro r
        by_cases hr : r ∈ c.ranks
        · obtain ⟨h1, h2, h3⟩ := hxl r hr
          left
          unfold vbfCodes
          rw [if_pos hr, if_pos hr, h1]
          cases hx : x r with
          | step dt' =>
            rw [hx] at h2
            have : dt' = dt := h2
            subst this
            refine ⟨_, _, rfl, ?_, rfl⟩
            simp only [layersProg, List.flatMap_cons, List.flatMap_nil, List.append_nil]
            unfold liftPiece locLayer stepStage
            rw [if_pos hr]; rfl
          | interact X U F => rw [hx] at h2; exact h2.elim
        · right
          refine ⟨?_, ?_⟩
          · simp only [layersProg, List.flatMap_cons, List.flatMap_nil, List.append_nil]
            unfold liftPiece locLayer
            rw [if_neg hr]; rfl
          · unfold vbfCodes; rw [if_neg hr, if_neg hr]
      · intro w' hx
        exact ih (vbfStep dt s) l w' (fun r hr => (hxl r hr).2.2) ha hops' (vbfStep_exec hc dt h hx)
    | interact X U F =>
      have hX := hops X U F List.mem_cons_self
      have hcall : ∀ r ∈ c.ranks, ∃ X' U', x r = .interact X' U' (F r) ∧ (r = c.m → X' = X ∧ U' = U) := by
        intro r hr
        obtain ⟨h1, h2, h3⟩ := hxl r hr
        cases hx : x r with
        | step => rw [hx] at h2; exact h2.elim
        | interact X' U' F' =>
          rw [hx] at h2
          obtain ⟨h2, h2'⟩ := h2
          subst h2
          exact ⟨X', U', rfl, h2'⟩
      have hcall' : ∀ r, ∃ X' U', r ∈ c.ranks → x r = .interact X' U' (F r) ∧ (r = c.m → X' = X ∧ U' = U) := by
        intro r
        by_cases hr : r ∈ c.ranks
        · obtain ⟨X', U', h⟩ := hcall r hr; exact ⟨X', U', fun _ => h⟩
        · exact ⟨X, U, fun h => absurd h hr⟩
      choose X' U' hXU using hcall'
      refine .round (stage1Pieces c s.addr X)
        (fun r => if r ∈ c.ranks then .blk (fun s => stage2Prog c s.v.addr s.v.flag (X' r) (U' r) (F r) r) fun _ => vbfCode c r (l r) else .stop)
        (stage1Pieces_pieces hc ha X) ?_ ?_
      · intro r
        by_cases hr : r ∈ c.ranks
        · left
          obtain ⟨e1, e2⟩ := hXU r hr
          unfold vbfCodes
          rw [if_pos hr, if_pos hr, (hxl r hr).1, e1]
          refine ⟨_, _, rfl, ?_, rfl⟩
          have had := h.addr r hr
          rw [had]
          exact stage1_prog hc ha X hr fun e => (e2 e).1
        · right
          refine ⟨layersProg_outside (stage1Pieces_pieces hc ha X) hr, ?_⟩
          unfold vbfCodes; rw [if_neg hr, if_neg hr]
      · intro w1 hx1
        obtain ⟨f1, f2⟩ := stage1_exec hc ha h hx1
        refine .round (stage2Pieces c (c.addrOf X) (c.ranks.any fun q => decide (s.cnt q ≠ localCount (c.addrOf X) q)) X U F) (vbfCodes c l)
          (stage2Pieces_pieces hc hX _ X U F) ?_ ?_
        · intro r
          by_cases hr : r ∈ c.ranks
          · left
            rw [if_pos hr]
            refine ⟨_, _, rfl, ?_, by unfold vbfCodes; rw [if_pos hr]⟩
            have had := f1.addr r hr
            rw [had, f2 r hr]
            exact stage2_prog hc hX _ X U F hr (hXU r hr).2
          · right
            refine ⟨layersProg_outside (stage2Pieces_pieces hc hX _ X U F) hr, ?_⟩
            unfold vbfCodes; rw [if_neg hr, if_neg hr]
        · intro w2 hx2
          refine ih (vbfInteract c X U F s) l w2 (fun r hr => (hxl r hr).2.2) ?_ hops' (stage2_exec hc hX U F f1 hx2)
          have e : (vbfInteract c X U F s).addr = c.addrOf X := vbfUpdateBuffers_addr c X s
          rw [e]; exact hX

/-- **C85** A history of interaction and time-step calls made by ranks at their own speed, each rank deciding by itself from the mapping and the flag it holds which messages it
sends and awaits: no schedule gets stuck or goes on for ever, and when all ranks have returned they hold the state of `vbfRun`. -/
theorem vbfRun_async (hc : CfgOk c) (b : Bool) {ops : List (VbfOp R α)} {calls : R → List (VbfCall α)} (hcalls : ∀ r ∈ c.ranks, List.Forall₂ (Sees c.m r) ops (calls r))
    (ha : ∀ r ∈ s.addr, r ∈ c.ranks) (hops : OpsOk c ops) (h : HoldsVbf c s fun r => (w r).v) :
    Fine b (fun w' => HoldsVbf c (vbfRun c s ops) fun r => (w' r).v) (DConf.start (vbfCodes c calls : R → RProg R (VbfRk R α) (Pkt R I α)) w) :=
  rounds_sound (fun r hr => by unfold vbfCodes; rw [if_neg hr]) (vbfRounds hc b ops s calls w hcalls ha hops h)

/-- **C85** The force on every node which the master holds when all ranks have returned is the penalty force of C18. -/
theorem vbf_force_async (b : Bool) (hc : CfgOk c) {N : ℕ} (X0 : LagField α) (h0 : AddrOk c N (c.addrOf X0)) (ops : List (VbfOp R α)) (X U : LagField α) (F : R → (ℕ → α) → ℕ → α)
    (hg : CountsReveal c N (c.addrOf X0) (ops ++ [.interact X U F])) {calls : R → List (VbfCall α)}
    (hcalls : ∀ r ∈ c.ranks, List.Forall₂ (Sees c.m r) (ops ++ [.interact X U F]) (calls r)) (hw : ∀ r ∈ c.ranks, (w r).v = locInit c X0 r) :
    Fine b (fun w' => ∀ k < c.d, ∀ i < N, (w' c.m).v.gforce k i = c.stiff * (ops.foldl (nodeApply c) (nodeInit 0)).P k i + c.damp * (flowAt c.addrOf X F k i - U k i))
      (DConf.start (vbfCodes c calls : R → RProg R (VbfRk R α) (Pkt R I α)) w) := by
  have h := vbfRun_async (I := I) (w := w) hc b hcalls (s := vbfInit c X0 0) h0.2 hg.ops ((locInit_holds c X0 0).congr hc.master hw)
  refine h.mono fun w' hw' => ?_
  intro k hk i hi
  rw [hw'.gforce]
  exact vbf_force_law c hc.ord X0 0 h0 ops X U F hg hk hi

/-! ## Why the flags are reduced -/

theorem AStep.books {S M : Type} {b : Bool} {C C' : AConf R S M} (h : AStep b C C') (s r : R) :
    nSends r (C.prog s) + (C.out s r).length + ((C'.inn s r).length + nRecvs s (C'.prog r)) = nSends r (C'.prog s) + (C'.out s r).length + ((C.inn s r).length + nRecvs s (C.prog r)) := by
  cases h with
  | loc a f rest hp =>
    dsimp only
    have h1 : nSends r (Function.update C.prog a rest s) = nSends r (C.prog s) := by
      by_cases e : s = a
      · subst e; rw [Function.update_self, hp]; rfl
      · rw [Function.update_of_ne e]
    have h2 : nRecvs s (Function.update C.prog a rest r) = nRecvs s (C.prog r) := by
      by_cases e : r = a
      · subst e; rw [Function.update_self, hp]; rfl
      · rw [Function.update_of_ne e]
    rw [h1, h2]
  | waitall a rest hp =>
    dsimp only
    have h1 : nSends r (Function.update C.prog a rest s) = nSends r (C.prog s) := by
      by_cases e : s = a
      · subst e; rw [Function.update_self, hp]; rfl
      · rw [Function.update_of_ne e]
    have h2 : nRecvs s (Function.update C.prog a rest r) = nRecvs s (C.prog r) := by
      by_cases e : r = a
      · subst e; rw [Function.update_self, hp]; rfl
      · rw [Function.update_of_ne e]
    rw [h1, h2]
  | isend a d rd rest hp =>
    dsimp only
    have h2 : nRecvs s (Function.update C.prog a rest r) = nRecvs s (C.prog r) := by
      by_cases e : r = a
      · subst e; rw [Function.update_self, hp]; rfl
      · rw [Function.update_of_ne e]
    have h1 : nSends r (C.prog s) + (C.out s r).length = nSends r (Function.update C.prog a rest s) + (upd2 C.out a d (C.out a d ++ [.unread rd]) s r).length := by
      by_cases e : s = a
      · subst e
        rw [Function.update_self, hp]
        by_cases e' : r = d
        · subst e'; rw [upd2_same]; simp [nSends]; omega
        · rw [upd2_ne _ _ (by rintro ⟨-, h⟩; exact e' h)]
          simp [nSends, Ne.symm e']
      · rw [Function.update_of_ne e, upd2_ne _ _ (by rintro ⟨h, -⟩; exact e h)]
    rw [h2]; omega
  | irecv a d wr rest hp =>
    dsimp only
    have h2 : nSends r (Function.update C.prog a rest s) = nSends r (C.prog s) := by
      by_cases e : s = a
      · subst e; rw [Function.update_self, hp]; rfl
      · rw [Function.update_of_ne e]
    have h1 : (C.inn s r).length + nRecvs s (C.prog r) = (upd2 C.inn d a (C.inn d a ++ [wr]) s r).length + nRecvs s (Function.update C.prog a rest r) := by
      by_cases e : r = a
      · subst e
        rw [Function.update_self, hp]
        by_cases e' : s = d
        · subst e'; rw [upd2_same]; simp [nRecvs]; omega
        · rw [upd2_ne _ _ (by rintro ⟨h, -⟩; exact e' h)]
          simp [nRecvs, Ne.symm e']
      · rw [Function.update_of_ne e, upd2_ne _ _ (by rintro ⟨-, h⟩; exact e h)]
    rw [h2]; omega
  | pick s' r' i rd h hb =>
    dsimp only
    have : (upd2 C.out s' r' ((C.out s' r').set i (.taken (rd (C.st s')))) s r).length = (C.out s r).length := by
      rw [upd2_apply]
      split
      · rename_i e; obtain ⟨rfl, rfl⟩ := e; simp
      · rfl
    rw [this]
  | land s' r' i v wr h h' =>
    dsimp only
    have h1 : i < (C.out s' r').length := (List.getElem?_eq_some_iff.1 h).1
    have h2 : i < (C.inn s' r').length := (List.getElem?_eq_some_iff.1 h').1
    rw [upd2_apply, upd2_apply]
    split
    · rename_i e
      obtain ⟨rfl, rfl⟩ := e
      rw [List.length_eraseIdx_of_lt h1, List.length_eraseIdx_of_lt h2]
      omega
    · rfl

/-- The program of a rank ends with `Waitall`, but for local computations; when that is passed no receive is open. -/
structure EndInv {S M : Type} (r : R) (D : AConf R S M) : Prop where
  ends : LocOnly (D.prog r) ∨ ∃ l t, D.prog r = l ++ .waitall :: t ∧ LocOnly t
  fin : LocOnly (D.prog r) → ∀ s, D.inn s r = []

theorem EndInv.step {S M : Type} {r : R} {b : Bool} {D D' : AConf R S M} (h : EndInv r D) (st : AStep b D D') : EndInv r D' := by
  obtain ⟨h1, h2⟩ := h
  have own : ∀ (x : AIns R S M) (rest : List (AIns R S M)), D.prog r = x :: rest → (LocOnly rest ∨ ∃ l t, rest = l ++ .waitall :: t ∧ LocOnly t) ∧
      (LocOnly rest → (LocOnly (D.prog r) ∨ x = .waitall)) := by
    intro x rest hp
    rcases h1 with h1 | ⟨l, t, h1, ht⟩
    · refine ⟨Or.inl ?_, fun _ => Or.inl h1⟩
      intro y hy
      exact h1 y (by rw [hp]; exact List.mem_cons_of_mem _ hy)
    · rw [hp] at h1
      cases l with
      | nil =>
        simp only [List.nil_append, List.cons.injEq] at h1
        obtain ⟨rfl, rfl⟩ := h1
        exact ⟨Or.inl ht, fun _ => Or.inr rfl⟩
      | cons y l =>
        simp only [List.cons_append, List.cons.injEq] at h1
        obtain ⟨rfl, rfl⟩ := h1
        refine ⟨Or.inr ⟨l, t, rfl, ht⟩, fun hl => ?_⟩
        obtain ⟨f, hf⟩ := hl .waitall (by simp)
        cases hf
  cases st with
  | loc a f rest hp =>
    by_cases e : r = a
    · subst e
      obtain ⟨o1, o2⟩ := own _ _ hp
      refine ⟨by simpa using o1, fun hl => ?_⟩
      rcases o2 (by simpa using hl) with h | h
      · exact h2 h
      · cases h
    · exact ⟨by simpa [Function.update_of_ne e] using h1, fun hl => h2 (by simpa [Function.update_of_ne e] using hl)⟩
  | isend a d rd rest hp =>
    by_cases e : r = a
    · subst e
      obtain ⟨o1, o2⟩ := own _ _ hp
      refine ⟨by simpa using o1, fun hl => ?_⟩
      rcases o2 (by simpa using hl) with h | h
      · exact h2 h
      · cases h
    · exact ⟨by simpa [Function.update_of_ne e] using h1, fun hl => h2 (by simpa [Function.update_of_ne e] using hl)⟩
  | irecv a d wr rest hp =>
    by_cases e : r = a
    · subst e
      obtain ⟨o1, o2⟩ := own _ _ hp
      refine ⟨by simpa using o1, fun hl => ?_⟩
      rcases o2 (by simpa using hl) with h | h
      · obtain ⟨f, hf⟩ := h _ (by rw [hp]; exact List.mem_cons_self)
        cases hf
      · cases h
    · refine ⟨by simpa [Function.update_of_ne e] using h1, fun hl s => ?_⟩
      have := h2 (by simpa [Function.update_of_ne e] using hl) s
      dsimp only
      rw [upd2_ne _ _ (by rintro ⟨-, h⟩; exact e h)]
      exact this
  | waitall a rest hp hs hr =>
    by_cases e : r = a
    · subst e
      obtain ⟨o1, o2⟩ := own _ _ hp
      exact ⟨by simpa using o1, fun _ s => hr s⟩
    · exact ⟨by simpa [Function.update_of_ne e] using h1, fun hl => h2 (by simpa [Function.update_of_ne e] using hl)⟩
  | pick => exact ⟨h1, h2⟩
  | land s' r' i v wr hi hi' =>
    refine ⟨h1, fun hl s => ?_⟩
    have := h2 hl s
    dsimp only
    rw [upd2_apply]
    split
    · rename_i e
      obtain ⟨rfl, rfl⟩ := e
      rw [this]; rfl
    · exact this

/-- A rank which awaits more messages than it is sent never returns. -/
theorem hang_of_counts {S M : Type} {b : Bool} {P : R → List (AIns R S M)} {s r : R} (h : nSends r (P s) < nRecvs s (P r))
    (he : LocOnly (P r) ∨ ∃ l t, P r = l ++ .waitall :: t ∧ LocOnly t) (w w' : R → S) : ¬ AExec b P w w' := by
  rintro ⟨n, C, hr, hd, -⟩
  have key : ∀ {n : ℕ} {C : AConf R S M}, ARun b n (AConf.start P w) C → EndInv r C ∧
      nSends r (P s) + ((C.inn s r).length + nRecvs s (C.prog r)) = nSends r (C.prog s) + (C.out s r).length + nRecvs s (P r) := by
    intro n C hr
    generalize hA : AConf.start P w = A at hr
    induction hr with
    | refl =>
      subst hA
      exact ⟨⟨he, fun _ _ => rfl⟩, by simp [AConf.start]⟩
    | tail _ st ih =>
      obtain ⟨i1, i2⟩ := ih hA
      refine ⟨i1.step st, ?_⟩
      have := st.books s r
      omega
  obtain ⟨k1, k2⟩ := key hr
  rw [hd r, hd s, k1.fin (by rw [hd r]; intro x hx; cases hx) s] at k2
  simp [nSends, nRecvs] at k2
  omega

/-- the instruction is a send to d -/
def isSendTo {S M : Type} (d : R) : Ins R S M → Bool
  | .send d' _ => decide (d' = d)
  | _ => false

/-- the instruction is a receive from d -/
def isRecvFrom {S M : Type} (d : R) : Ins R S M → Bool
  | .recv d' _ => decide (d' = d)
  | _ => false

theorem nSends_asyncProg {S M : Type} (d : R) (l : List (Ins R S M)) : nSends d (asyncProg l) = (l.filter (isSendTo d)).length := by
  unfold asyncProg
  induction l with
  | nil => rfl
  | cons x l ih =>
    rw [List.flatMap_cons, nSends_append, ih, List.filter_cons]
    cases x with
    | send d' val => by_cases e : d' = d <;> simp [Ins.async, isSendTo, nSends, e]; omega
    | loc => simp [Ins.async, isSendTo, nSends]
    | recv => simp [Ins.async, isSendTo, nSends]
    | coll => simp [Ins.async, isSendTo, nSends]

theorem nRecvs_asyncProg {S M : Type} (d : R) (l : List (Ins R S M)) : nRecvs d (asyncProg l) = (l.filter (isRecvFrom d)).length := by
  unfold asyncProg
  induction l with
  | nil => rfl
  | cons x l ih =>
    rw [List.flatMap_cons, nRecvs_append, ih, List.filter_cons]
    cases x with
    | recv d' val => by_cases e : d' = d <;> simp [Ins.async, isRecvFrom, nRecvs, e]; omega
    | loc => simp [Ins.async, isRecvFrom, nRecvs]
    | send => simp [Ins.async, isRecvFrom, nRecvs]
    | coll => simp [Ins.async, isRecvFrom, nRecvs]

/-- **C85, negative part** The reduction of the flags is needed: if the master went by its own flag (its number of nodes has not changed) and another rank with nodes by its own
(its number has changed), no run of the rest of the call would ever end. -/
theorem own_flags_hang (hc : CfgOk c) (b : Bool) {addr : List R} {q : R} (hq : q ∈ c.ord addr) (X U : LagField α) (F : R → (ℕ → α) → ℕ → α) {flag : R → Bool}
    (hm : flag c.m = false) (hf : flag q = true) (w w' : R → VbfRk R α) :
    ¬ AExec b (fun r => (stage2Prog c addr (flag r) X U (F r) r : List (AIns R (VbfRk R α) (Pkt R I α)))) w w' := by
  have hqm : q ≠ c.m := fun e => (hc.ord addr).not_mem (e ▸ hq)
  have hcnt : ∀ (f : R → VbfLoc R α → List α), (((c.ord addr).map fun q' => (Ins.send q' (f q') : Ins R (VbfLoc R α) (List α))).filter (isSendTo q)).length = 1 := by
    intro f
    have hn := (hc.ord addr).1
    generalize c.ord addr = l at hq hn
    induction l with
    | nil => simp at hq
    | cons x l ih =>
      have hn' := List.nodup_cons.1 hn
      rw [List.map_cons, List.filter_cons]
      by_cases e : x = q
      · subst e
        have : (l.map fun q' => (Ins.send q' (f q') : Ins R (VbfLoc R α) (List α))).filter (isSendTo x) = [] := by
          rw [List.filter_eq_nil_iff]
          intro y hy
          obtain ⟨z, hz, rfl⟩ := List.mem_map.1 hy
          simp only [isSendTo, decide_eq_true_eq]
          rintro rfl
          exact hn'.1 hz
        simp [this, isSendTo]
      · simp only [isSendTo, e, decide_false, Bool.false_eq_true, if_false]
        rcases List.mem_cons.1 hq with h | h
        · exact absurd h.symm e
        · exact ih h hn'.2
  refine hang_of_counts (s := c.m) (r := q) ?_ (Or.inr ?_) w w'
  · unfold stage2Prog
    rw [lift_nSends, lift_nRecvs, nSends_asyncProg, nRecvs_asyncProg, hm, hf]
    unfold updateProg2 interactProg2 scatterLagProg gatherLagProg
    have hmo : c.m ∉ c.ord addr := (hc.ord addr).not_mem
    have hnone : ∀ (f : R → List α → VbfLoc R α → VbfLoc R α), (((c.ord addr).map fun q' => (Ins.recv q' (f q') : Ins R (VbfLoc R α) (List α))).filter (isSendTo q)) = [] := by
      intro f
      rw [List.filter_eq_nil_iff]
      intro y hy
      obtain ⟨z, hz, rfl⟩ := List.mem_map.1 hy
      simp [isSendTo]
    simp only [if_true, if_neg hqm, if_neg hmo, if_pos hq, List.nil_append, List.append_nil, Bool.false_eq_true, if_false, List.filter_append, List.filter_cons, List.length_append, hcnt, hnone, isSendTo, isRecvFrom,
      List.length_cons, List.length_nil, List.filter_nil, decide_true]
    decide
  · unfold stage2Prog
    rw [hf]
    have hlast : ∃ l, updateProg2 c addr true q ++ interactProg2 c addr X U (fun _ => F q) q = l ++ [.send c.m fun s => ravelLag c.d (localCount addr q) (VbfLoc.force s)] := by
      unfold interactProg2
      refine ⟨updateProg2 c addr true q ++ (scatterLagProg c.d addr c.m (c.ord addr) (fun _ => X) (fun f s => { s with lpos := f s.lpos }) q ++
        scatterLagProg c.d addr c.m (c.ord addr) (fun _ => U) (fun f s => { s with lvel := f s.lvel }) q ++
        [.loc (fun s =>
          let velM : LagField α := fun k j => F q (fun k' => s.lpos k' j) k - s.lvel k j
          { s with velM := velM, force := fun k j => c.stiff * s.posM k j + c.damp * velM k j })]), ?_⟩
      unfold gatherLagProg
      rw [if_pos hq, if_neg hqm]
      simp only [List.append_nil, List.append_assoc, List.cons_append, List.nil_append]
    obtain ⟨l, hl⟩ := hlast
    rw [hl, asyncProg_append, liftProg_append]
    exact ⟨liftProg vbfPart Pkt.embVals (asyncProg l) ++ [.isend c.m _], [], by simp only [List.append_assoc, List.cons_append, List.nil_append]; rfl, by intro x hx; cases hx⟩

/-- non-vacuity: two ranks, node 0 moves to the rank of node 1, so the buffers are redistributed; rank 1 knows nothing of the body. Every run ends with the force which node 0
accumulated on the master. -/
example (b : Bool) : Fine b (fun w' => (w' 0).v.gforce 0 0 = 5)
    (DConf.start (vbfCodes swapCfg (fun r => [.interact (fun _ i => if r = 0 then i else 77) (fun _ _ => if r = 0 then 0 else 78) (fun x _ => if x 0 = 0 then 5 else 7), .step 1,
      .interact (fun _ _ => if r = 0 then 1 else 79) (fun _ _ => 0) (fun _ _ => 0)]) : ℕ → RProg ℕ (VbfRk ℕ ℤ) (Pkt ℕ Unit ℤ))
      fun r => ⟨locInit swapCfg (fun _ i => i) r, fun _ => [], fun _ => []⟩) := by
  have hc : CfgOk swapCfg := ⟨by decide, by decide, fun a => ⟨List.nodup_dedup _, by intro r; simp [swapCfg]⟩⟩
  have h := vbf_force_async (I := Unit) (N := 2) b hc (fun _ i => i) ⟨rfl, by decide⟩
    [.interact (fun _ i => i) (fun _ _ => 0) (fun _ x _ => if x 0 = 0 then 5 else 7), .step 1] (fun _ _ => 1) (fun _ _ => 0) (fun _ _ _ => 0)
    ⟨⟨rfl, by decide⟩, by intro r x y k h; simp only [h 0 (by decide)], Or.inl (by decide), ⟨rfl, by decide⟩, by intro r x y k h; rfl,
      Or.inr ⟨0, by decide, by decide⟩, trivial⟩
    (calls := fun r => [.interact (fun _ i => if r = 0 then i else 77) (fun _ _ => if r = 0 then 0 else 78) (fun x _ => if x 0 = 0 then 5 else 7), .step 1,
      .interact (fun _ _ => if r = 0 then 1 else 79) (fun _ _ => 0) (fun _ _ => 0)])
    (w := fun r => ⟨locInit swapCfg (fun _ i => i) r, fun _ => [], fun _ => []⟩) ?_ (fun _ _ => rfl)
  · exact h.mono fun w' hw' => (hw' 0 (by decide) 0 (by decide)).trans (by decide)
  · intro r _
    refine .cons ⟨rfl, ?_⟩ (.cons rfl (.cons ⟨rfl, ?_⟩ .nil))
    · intro e
      have e : r = 0 := e
      subst e
      exact ⟨rfl, rfl⟩
    · intro e
      have e : r = 0 := e
      subst e
      exact ⟨rfl, rfl⟩

end
end Sopht
