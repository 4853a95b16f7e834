import Verif.VbfProps
import Verif.IOLagProps

/-!
# Restarting the virtual boundary forcing from a checkpoint (C84)

The checkpoint of an interactor as `examples/3d_examples/FlowPastFreelyRotatingRodCase/flow_past_freely_rotating_rod_case.py` ("ROD.py") does it:
`forcing_grid.position_field`, `global_lag_grid_position_mismatch_field` and `global_lag_grid_velocity_mismatch_field` of the master are saved and loaded through an
`MPIIO` object; after loading, the nodes are mapped again and both mismatch fields are scattered (ROD.py:204-215, 222-252, 275-280).

The two global fields are gathered at the *beginning* of an interaction (VirtualBoundaryForcingMPI.py:238-248).  So a checkpoint holds the position mismatch as it was
when the last interaction began, and the velocity mismatch of the interaction *before* the last.
-/

namespace Sopht

/-! ## Model -/

section Model
variable {R I α τ : Type}

/-- The arrays registered with `forcing_grid_io` (ROD.py:204-215), on the master: reference 0 is `forcing_grid.position_field`, 1 and 2 are the global mismatch fields; all
have the shape `(grid_dim, N)`. -/
def forcingHeap [Zero α] (d N : ℕ) (X gP gV : LagField α) : Heap R I α where
  eul _ := ⟨[], fun _ _ _ => 0⟩
  lag r := ⟨[d, N], fun ix => (if r = 0 then X else if r = 1 then gP else gV) (ix.getD 0 0) (ix.getD 1 0)⟩

/-- `forcing_grid_io.add_as_lagrangian_fields_for_io(…)` (ROD.py:209-215). -/
def forcingRegs (master : ℤ) : List LagReg := [⟨master, 0, "mismatch_field", false, [("position_mismatch", 1), ("velocity_mismatch", 2)]⟩]

/-- `forcing_grid_io.save(…, time=flow_sim.time)` (ROD.py:275-280). -/
def saveForcing [DecidableEq I] [Zero α] (geo : IOGeo R I) (order : String → List R) (master : ℤ) (N : ℕ) (X : LagField α) (v : Vbf R α) (t : τ) :
    Except PyErr (H5 τ I α) :=
  match lagRegister geo.dim (forcingHeap (R := R) (I := I) geo.dim N X v.gposM v.gvelM) {} (forcingRegs master) with
  | (_, .error e) => .error e
  | (io, .ok ()) => save geo order (forcingHeap geo.dim N X v.gposM v.gvelM) io t

/-- `forcing_grid_io.load(…)` (ROD.py:222-224): writes into the position field of the forcing grid and the two global fields of the interactor. -/
def loadForcing [DecidableEq I] [Zero α] (geo : IOGeo R I) (master : ℤ) (N : ℕ) (file : H5 τ I α) (X : LagField α) (v : Vbf R α) :
    Except PyErr (LagField α × Vbf R α) :=
  match lagRegister geo.dim (forcingHeap (R := R) (I := I) geo.dim N X v.gposM v.gvelM) {} (forcingRegs master) with
  | (_, .error e) => .error e
  | (io, .ok ()) =>
    match load geo file io (forcingHeap geo.dim N X v.gposM v.gvelM) with
    | (_, .error e) => .error e
    | (h, .ok _) => .ok (fun k i => (h.lag 0).elt [k, i], { v with
        gposM := fun k i => (h.lag 1).elt [k, i]
        gvelM := fun k i => (h.lag 2).elt [k, i] })

variable [DecidableEq R] [Ring α]

/-- After loading (ROD.py:229-252): map the nodes to the loaded positions, `_init_local_buffers`, scatter the two mismatch fields. -/
def vbfRemap (c : VbfCfg R α) (X : LagField α) (v : Vbf R α) : Vbf R α :=
  { v with
    addr := c.addrOf X
    cnt := fun r => localCount (c.addrOf X) r
    posM := scatterLag c.d (c.addrOf X) c.m (c.ord (c.addrOf X)) v.gposM (fun _ _ _ => 0)
    velM := scatterLag c.d (c.addrOf X) c.m (c.ord (c.addrOf X)) v.gvelM (fun _ _ _ => 0)
    force := fun _ _ _ => 0
    lpos := fun _ _ _ => 0
    lvel := fun _ _ _ => 0 }

end Model

/-! ## The file -/

section File
variable {R R' I I' α τ : Type}

theorem forcingRegister_ok [Zero α] (d N : ℕ) (hN : N ≠ d) (m : ℤ) (X gP gV : LagField α) :
    lagRegister d (forcingHeap (R := R) (I := I) d N X gP gV) {} (forcingRegs m) =
      ({ lagFields := [("position_mismatch", 1), ("velocity_mismatch", 2)], lagTypes := [("position_mismatch", .vector), ("velocity_mismatch", .vector)]
         lagGrids := [("mismatch_field", 0)], lagOn := [("mismatch_field", ["position_mismatch", "velocity_mismatch"])]
         lagMaster := [("mismatch_field", m)], lagNum := [("mismatch_field", N)] }, .ok ()) := by
  have hN' : ¬ (d = N) := fun h => hN h.symm
  simp [lagRegister, forcingRegs, addLagrangian, forcingHeap, addLagFields, dput, dget, hN']

/-- C84: what one decomposition saves is what another loads: positions and both mismatch fields. The number of nodes must differ from the dimension. -/
theorem forcing_roundtrip [DecidableEq I] [DecidableEq I'] [Zero α] (geo : IOGeo R I) (geo' : IOGeo R' I) (hdim : geo'.dim = geo.dim) (order : String → List R)
    (m m' : ℤ) {N : ℕ} (hN : N ≠ geo.dim) (X X' : LagField α) (v : Vbf R α) (v' : Vbf R' α) (t : τ) :
    ∃ file, saveForcing geo order m N X v t = .ok file ∧
      loadForcing geo' m' N file X' v' = .ok (X, { v' with gposM := v.gposM, gvelM := v.gvelM }) := by
  refine ⟨⟨t, none, [("mismatch_field", ⟨⟨[N, geo.dim], fun ix => X (ix.reverse.getD 0 0) (ix.reverse.getD 1 0)⟩, none, [],
    [("position_mismatch", ⟨[N, geo.dim], fun ix => v.gposM (ix.reverse.getD 0 0) (ix.reverse.getD 1 0)⟩),
     ("velocity_mismatch", ⟨[N, geo.dim], fun ix => v.gvelM (ix.reverse.getD 0 0) (ix.reverse.getD 1 0)⟩)]⟩)]⟩, ?_, ?_⟩
  · unfold saveForcing
    rw [forcingRegister_ok _ _ hN]
    simp [save, saveLagGrids, writeConn, saveLagFields, dget, writeAll, LArr.transpose, forcingHeap, createDataset, bind, Except.bind, pure, Except.pure]
  · unfold loadForcing
    rw [forcingRegister_ok _ _ (by rw [hdim]; exact hN)]
    simp [load, loadLagGrids, loadLagFields, dget, assignAll, LArr.transpose, forcingHeap, hdim, Function.update]

/-- C84: with as many nodes as dimensions the checkpoint cannot be written. -/
theorem forcing_save_refused [DecidableEq I] [Zero α] (geo : IOGeo R I) (order : String → List R) (m : ℤ) (X : LagField α) (v : Vbf R α) (t : τ) :
    saveForcing geo order m geo.dim X v t = .error .typeError := by
  unfold saveForcing
  simp [lagRegister, forcingRegs, addLagrangian, forcingHeap, addLagFields, dput, dget, save, saveLagGrids, writeConn, saveLagFields, writeAll, LArr.transpose, createDataset,
    bind, Except.bind, pure, Except.pure]

end File

/-! ## What the global fields hold -/

section Vbf
variable {R R' α : Type} [DecidableEq R] [DecidableEq R'] [Ring α]

/-- The master holds `P` and `V` in its global mismatch fields. -/
def Global (d N : ℕ) (v : Vbf R α) (P V : LagField α) : Prop := ∀ k < d, ∀ i < N, v.gposM k i = P k i ∧ v.gvelM k i = V k i

/-- C84: after an interaction the global fields hold both mismatches as they were before it. -/
theorem interact_global (c : VbfCfg R α) (hord : ∀ a, SlaveSet a c.m (c.ord a)) {N : ℕ} {s : Vbf R α} {h : NodeHist α} (hs : Stores c N s h)
    (X U : LagField α) (J : R → (ℕ → α) → ℕ → α) : Global c.d N (vbfInteract c X U J s) h.P h.V := by
  have key : ∀ s' : Vbf R α, s' = vbfUpdateBuffers c X s → s'.gposM = gatherLag c.d s.addr c.m (c.ord s.addr) s.posM c.junk s.gposM ∧
      s'.gvelM = gatherLag c.d s.addr c.m (c.ord s.addr) s.velM c.junk s.gvelM := by
    rintro s' rfl
    unfold vbfUpdateBuffers
    dsimp only
    split <;> exact ⟨rfl, rfl⟩
  intro k hk i hi
  obtain ⟨r, j, h1, h2, h3⟩ := node_slot s.addr (i := i) (by rw [hs.addr.1]; exact hi)
  obtain ⟨e1, e2⟩ := key _ rfl
  refine ⟨?_, ?_⟩
  · change (vbfUpdateBuffers c X s).gposM k i = _
    rw [e1, gatherLag_correct c.d s.addr (hord _) s.posM _ _ hk h2, hs.pos k hk r j i h2]
  · change (vbfUpdateBuffers c X s).gvelM k i = _
    rw [e2, gatherLag_correct c.d s.addr (hord _) s.velM _ _ hk h2, hs.vel k hk r j i h2]

/-- the interactor after the remapping: node records from the global fields -/
theorem remap_stores (c : VbfCfg R α) (hord : ∀ a, SlaveSet a c.m (c.ord a)) {N : ℕ} {v : Vbf R α} {P V F : LagField α} (hg : Global c.d N v P V)
    (hF : ∀ k < c.d, ∀ i < N, v.gforce k i = F k i) (X : LagField α) (hX : AddrOk c N (c.addrOf X)) : Stores c N (vbfRemap c X v) ⟨P, V, F, v.time⟩ := by
  refine ⟨hX, fun _ _ => rfl, ?_, ?_, hF, rfl⟩
  · intro k hk r j i hij
    change (whereEq (c.addrOf X) r)[j]? = some i at hij
    change scatterLag c.d (c.addrOf X) c.m (c.ord (c.addrOf X)) v.gposM (fun _ _ _ => 0) r k j = P k i
    rw [scatterLag_slot c.d _ (hord _) _ _ hk hij]
    exact (hg k hk i (by rw [← hX.1]; exact (slot_lt hij).2.2)).1
  · intro k hk r j i hij
    change (whereEq (c.addrOf X) r)[j]? = some i at hij
    change scatterLag c.d (c.addrOf X) c.m (c.ord (c.addrOf X)) v.gvelM (fun _ _ _ => 0) r k j = V k i
    rw [scatterLag_slot c.d _ (hord _) _ _ hk hij]
    exact (hg k hk i (by rw [← hX.1]; exact (slot_lt hij).2.2)).2

/-! ## Histories of calls -/

/-- Is the call an interaction? -/
def VbfOp.isInteract : VbfOp R α → Bool
  | .interact _ _ _ => true
  | .step _ => false

/-- Every time step is followed by an interaction, sooner or later. -/
def Settles (ops : List (VbfOp R α)) : Prop := ∀ pre dt post, ops = pre ++ .step dt :: post → ∃ o ∈ post, o.isInteract = true

/-- Every time step is preceded by an interaction. -/
def Ready (ops : List (VbfOp R α)) : Prop := ∀ pre dt post, ops = pre ++ .step dt :: post → ∃ o ∈ pre, o.isInteract = true

/-- Two calls on two decompositions mean the same: same positions, velocities and time step, same flow velocity at the nodes. -/
inductive SameOp (c : VbfCfg R α) (c' : VbfCfg R' α) (N : ℕ) : VbfOp R α → VbfOp R' α → Prop
  | interact (X U : LagField α) (J : R → (ℕ → α) → ℕ → α) (J' : R' → (ℕ → α) → ℕ → α)
      (h : ∀ k < c.d, ∀ i < N, flowAt c.addrOf X J k i = flowAt c'.addrOf X J' k i) : SameOp c c' N (.interact X U J) (.interact X U J')
  | step (dt : α) : SameOp c c' N (.step dt) (.step dt)

/-- the position mismatch in the global field is the current one, if no time step came after the last interaction -/
theorem settled_global (c : VbfCfg R α) (hord : ∀ a, SlaveSet a c.m (c.ord a)) {N : ℕ} (ops : List (VbfOp R α)) :
    ∀ {s : Vbf R α} {h : NodeHist α}, Stores c N s h → CountsReveal c N s.addr ops →
      ((∀ k < c.d, ∀ i < N, s.gposM k i = h.P k i) ∨ ∃ o ∈ ops, o.isInteract = true) → Settles ops →
      ∀ k < c.d, ∀ i < N, (vbfRun c s ops).gposM k i = (ops.foldl (nodeApply c) h).P k i := by
  induction ops with
  | nil =>
    intro s h _ _ hP _
    rcases hP with hP | ⟨o, ho, -⟩
    · exact hP
    · cases ho
  | cons op ops ih =>
    intro s h hs hc hP hset
    have hset' : Settles ops := fun pre dt post e => hset (op :: pre) dt post (by rw [e]; rfl)
    cases op with
    | step dt =>
      refine ih (step_stores c hs dt) hc (Or.inr ?_) hset'
      exact hset [] dt ops rfl
    | interact X U J =>
      obtain ⟨h1, h2, h3, h4⟩ := hc
      obtain ⟨a1, a2⟩ := interact_stores c hord hs X U J h1 h2 h3
      refine ih a1 (by change CountsReveal c N (vbfInteract c X U J s).addr ops; rw [a2]; exact h4) (Or.inl ?_) hset'
      intro k hk i hi
      exact (interact_global c hord hs X U J k hk i hi).1

/-- What two node records share: the position mismatches; if an interaction has taken place, also velocity mismatches and forces. -/
structure SameRecs (d N : ℕ) (seen : Prop) (h h' : NodeHist α) : Prop where
  P : ∀ k < d, ∀ i < N, h'.P k i = h.P k i
  V : seen → ∀ k < d, ∀ i < N, h'.V k i = h.V k i
  F : seen → ∀ k < d, ∀ i < N, h'.F k i = h.F k i

theorem ready_same (c : VbfCfg R α) (c' : VbfCfg R' α) (hs : c'.stiff = c.stiff) (hd : c'.damp = c.damp) {N : ℕ} (ops : List (VbfOp R α)) :
    ∀ (ops' : List (VbfOp R' α)) (seen : Prop) (h h' : NodeHist α), List.Forall₂ (SameOp c c' N) ops ops' →
      (∀ pre dt post, ops = pre ++ .step dt :: post → seen ∨ ∃ o ∈ pre, o.isInteract = true) → SameRecs c.d N seen h h' →
      SameRecs c.d N (seen ∨ ∃ o ∈ ops, o.isInteract = true) (ops.foldl (nodeApply c) h) (ops'.foldl (nodeApply c') h') := by
  induction ops with
  | nil =>
    intro ops' seen h h' hf hr hn
    cases hf
    exact ⟨hn.P, fun hc => hn.V (hc.resolve_right (by simp)), fun hc => hn.F (hc.resolve_right (by simp))⟩
  | cons op ops ih =>
    intro ops' seen h h' hf hr hn
    obtain ⟨op', ops'', hop, hf', rfl⟩ := List.forall₂_cons_left_iff.1 hf
    cases hop with
    | interact X U J J' hfl =>
      have hV : ∀ k < c.d, ∀ i < N, (nodeApply c' h' (.interact X U J')).V k i = (nodeApply c h (.interact X U J)).V k i := by
        intro k hk i hi
        simp only [nodeApply]
        rw [hfl k hk i hi]
      have hF : ∀ k < c.d, ∀ i < N, (nodeApply c' h' (.interact X U J')).F k i = (nodeApply c h (.interact X U J)).F k i := by
        intro k hk i hi
        simp only [nodeApply]
        rw [hfl k hk i hi, hs, hd, hn.P k hk i hi]
      have := ih ops'' True (nodeApply c h (.interact X U J)) (nodeApply c' h' (.interact X U J')) hf' (fun _ _ _ _ => Or.inl trivial) ⟨hn.P, fun _ => hV, fun _ => hF⟩
      exact ⟨this.P, fun _ => this.V (Or.inl trivial), fun _ => this.F (Or.inl trivial)⟩
    | step dt =>
      have hseen : seen := (hr [] dt ops rfl).resolve_right (by simp)
      have := ih ops'' seen (nodeApply c h (.step dt)) (nodeApply c' h' (.step dt)) hf' (fun _ _ _ _ => Or.inl hseen)
        ⟨fun k hk i hi => by simp only [nodeApply]; rw [hn.P k hk i hi, hn.V hseen k hk i hi], fun s => hn.V s, fun s => hn.F s⟩
      exact ⟨this.P, fun _ => this.V (Or.inl hseen), fun _ => this.F (Or.inl hseen)⟩

/-! ## C84 for the forcing alone -/

/-- C84: a history `ops₁` whose time steps are all followed by an interaction is checkpointed; a new forcing object, on any decomposition and with any master rank, built
for any positions, loads the file and maps its nodes again. Then `ops₂`, whose time steps are all preceded by an interaction, gives the same position mismatch of every
node, wherever it is stored, and, if there was an interaction, the same forces on the master as `ops₁` and `ops₂` without interruption. -/
theorem vbf_restart {I τ : Type} [DecidableEq I] (geo : IOGeo R I) (geo' : IOGeo R' I) (c : VbfCfg R α) (c' : VbfCfg R' α) (hd : c'.d = c.d) (hst : c'.stiff = c.stiff)
    (hda : c'.damp = c.damp) (hgd : geo.dim = c.d) (hgd' : geo'.dim = c.d) (hord : ∀ a, SlaveSet a c.m (c.ord a)) (hord' : ∀ a, SlaveSet a c'.m (c'.ord a))
    (order : String → List R) (m m' : ℤ) {N : ℕ} (hN : N ≠ c.d) (X0 : LagField α) (t0 : α) (h0 : AddrOk c N (c.addrOf X0)) (ops₁ ops₂ : List (VbfOp R α))
    (hc : CountsReveal c N (c.addrOf X0) (ops₁ ++ ops₂)) (hset : Settles ops₁) (hready : Ready ops₂)
    (X0' : LagField α) (t0' : α) (X : LagField α) (hX : AddrOk c' N (c'.addrOf X)) (ops₂' : List (VbfOp R' α)) (hsame : List.Forall₂ (SameOp c c' N) ops₂ ops₂')
    (hc' : CountsReveal c' N (c'.addrOf X) ops₂') (t : τ) :
    let s₁ := vbfRun c (vbfInit c X0 t0) ops₁
    let s := vbfRun c (vbfInit c X0 t0) (ops₁ ++ ops₂)
    ∃ file v', saveForcing geo order m N X s₁ t = .ok file ∧ loadForcing geo' m' N file X0' (vbfInit c' X0' t0') = .ok (X, v') ∧
      let s' := vbfRun c' (vbfRemap c' X v') ops₂'
      (∀ k < c.d, ∀ r j r' j' i, (whereEq s.addr r)[j]? = some i → (whereEq s'.addr r')[j']? = some i → s'.posM r' k j' = s.posM r k j) ∧
      ((∃ o ∈ ops₂, o.isInteract = true) → ∀ k < c.d, ∀ i < N, s'.gforce k i = s.gforce k i) := by
  intro s₁ s
  have hc1 : ∀ (a : List R) (l₁ l₂ : List (VbfOp R α)), CountsReveal c N a (l₁ ++ l₂) → CountsReveal c N a l₁ := by
    intro a l₁
    induction l₁ generalizing a with
    | nil => intro _ _; trivial
    | cons o l₁ ih =>
      intro l₂ h
      cases o with
      | step dt => exact ih _ _ h
      | interact X U J => exact ⟨h.1, h.2.1, h.2.2.1, ih _ _ h.2.2.2⟩
  have hi0 := init_stores c X0 t0 h0
  have hst1 : Stores c N s₁ (ops₁.foldl (nodeApply c) (nodeInit t0)) := run_stores c hord ops₁ hi0 (hc1 _ _ _ hc)
  have hsto : Stores c N s ((ops₁ ++ ops₂).foldl (nodeApply c) (nodeInit t0)) := run_stores c hord _ hi0 hc
  have hP : ∀ k < c.d, ∀ i < N, s₁.gposM k i = (ops₁.foldl (nodeApply c) (nodeInit t0)).P k i :=
    settled_global c hord ops₁ hi0 (hc1 _ _ _ hc) (Or.inl fun _ _ _ _ => rfl) hset
  obtain ⟨file, f1, f2⟩ := forcing_roundtrip (I' := I) geo geo' (hgd'.trans hgd.symm) order m m' (N := N) (by rw [hgd]; exact hN) X X0' s₁ (vbfInit c' X0' t0') t
  refine ⟨file, _, f1, f2, ?_⟩
  intro s'
  have hrem := remap_stores c' hord' (N := N) (v := { vbfInit c' X0' t0' with gposM := s₁.gposM, gvelM := s₁.gvelM }) (P := s₁.gposM) (V := s₁.gvelM) (F := fun _ _ => 0)
    (fun _ _ _ _ => ⟨rfl, rfl⟩) (fun _ _ _ _ => rfl) X hX
  have hs' := run_stores c' hord' ops₂' hrem hc'
  have hn := ready_same c c' hst hda ops₂ ops₂' False (ops₁.foldl (nodeApply c) (nodeInit t0)) ⟨s₁.gposM, s₁.gvelM, fun _ _ => 0, t0'⟩ hsame
    (fun pre dt post e => Or.inr (hready pre dt post e)) ⟨hP, fun h => h.elim, fun h => h.elim⟩
  rw [List.foldl_append] at hsto
  refine ⟨?_, ?_⟩
  · intro k hk r j r' j' i h1 h2
    have hi : i < N := by rw [← hsto.addr.1]; exact (slot_lt h1).2.2
    rw [hsto.pos k hk r j i h1]
    exact (hs'.pos k (by rw [hd]; exact hk) r' j' i h2).trans (hn.P k hk i hi)
  · intro hex k hk i hi
    rw [hsto.force k hk i hi]
    exact (hs'.force k (by rw [hd]; exact hk) i hi).trans (hn.F (Or.inr hex) k hk i hi)

/-- C84, the condition on `ops₂` is needed: the checkpoint holds the velocity mismatch of the interaction before the last. A time step directly after the restart moves every
node by that one, not by the current one. -/
theorem vbf_restart_stale {I τ : Type} [DecidableEq I] (geo : IOGeo R I) (c : VbfCfg R α) (hgd : geo.dim = c.d) (hord : ∀ a, SlaveSet a c.m (c.ord a))
    (order : String → List R) (m : ℤ) {N : ℕ} (hN : N ≠ c.d) (X0 : LagField α) (t0 : α) (h0 : AddrOk c N (c.addrOf X0)) (ops : List (VbfOp R α)) (X U : LagField α)
    (J : R → (ℕ → α) → ℕ → α) (hc : CountsReveal c N (c.addrOf X0) (ops ++ [.interact X U J])) (t0' : α) (dt : α) (t : τ) :
    let h := ops.foldl (nodeApply c) (nodeInit t0)
    let s₁ := vbfRun c (vbfInit c X0 t0) (ops ++ [.interact X U J])
    ∃ file v', saveForcing geo order m N X s₁ t = .ok file ∧ loadForcing geo m N file X0 (vbfInit c X0 t0') = .ok (X, v') ∧
      let s := vbfStep dt s₁
      let s' := vbfStep dt (vbfRemap c X v')
      ∀ k < c.d, ∀ r j i, (whereEq s.addr r)[j]? = some i → (whereEq s'.addr r)[j]? = some i ∧
        s.posM r k j = h.P k i + dt * (flowAt c.addrOf X J k i - U k i) ∧ s'.posM r k j = h.P k i + dt * h.V k i := by
  intro h s₁
  have hi0 := init_stores c X0 t0 h0
  have hrun : s₁ = vbfInteract c X U J (vbfRun c (vbfInit c X0 t0) ops) := by
    change vbfRun c (vbfInit c X0 t0) (ops ++ [.interact X U J]) = _
    unfold vbfRun
    rw [List.foldl_append]
    rfl
  have hc1 : ∀ (a : List R) (s : Vbf R α) (h : NodeHist α) (l : List (VbfOp R α)), s.addr = a → Stores c N s h → CountsReveal c N a (l ++ [.interact X U J]) →
      Stores c N (vbfRun c s l) (l.foldl (nodeApply c) h) ∧ CountsReveal c N (vbfRun c s l).addr [.interact X U J] := by
    intro a s h l
    induction l generalizing a s h with
    | nil => rintro rfl hs hc; exact ⟨hs, hc⟩
    | cons o l ih =>
      rintro rfl hs hc
      cases o with
      | step dt => exact ih _ _ _ rfl (step_stores c hs dt) hc
      | interact X' U' J' =>
        obtain ⟨c1, c2, c3, c4⟩ := hc
        obtain ⟨a1, a2⟩ := interact_stores c hord hs X' U' J' c1 c2 c3
        exact ih _ _ _ a2 a1 c4
  obtain ⟨hs, c1, c2, c3, -⟩ := hc1 _ _ _ ops rfl hi0 hc
  obtain ⟨a1, a2⟩ := interact_stores c hord hs X U J c1 c2 c3
  rw [← hrun] at a1 a2
  have hg := interact_global c hord hs X U J
  rw [← hrun] at hg
  obtain ⟨file, f1, f2⟩ := forcing_roundtrip (I' := I) geo geo rfl order m m (N := N) (by rw [hgd]; exact hN) X X0 s₁ (vbfInit c X0 t0') t
  refine ⟨file, _, f1, f2, ?_⟩
  intro s s' k hk r j i hij
  have had : s.addr = c.addrOf X := a2
  have hrem := remap_stores c hord (N := N) (v := { vbfInit c X0 t0' with gposM := s₁.gposM, gvelM := s₁.gvelM }) (F := fun _ _ => 0) hg (fun _ _ _ _ => rfl) X c1
  have e1 := (step_stores c a1 dt).pos k hk r j i hij
  have hij' : (whereEq s'.addr r)[j]? = some i := by change (whereEq (c.addrOf X) r)[j]? = some i; rw [← had]; exact hij
  exact ⟨hij', e1, (step_stores c hrem dt).pos k hk r j i hij'⟩

end Vbf

/-! ## The hypotheses can be met -/

/-- Three nodes on two ranks; the first coordinate of a node is its rank. -/
def exCfgA : VbfCfg ℕ ℤ :=
  { d := 2, m := 0, ranks := [0, 1], ord := fun a => (a.filter (· ≠ 0)).dedup, junk := fun _ _ => 7
    stiff := 1, damp := 3, addrOf := fun X => [(X 0 0).toNat, (X 0 1).toNat, (X 0 2).toNat] }

/-- The same on one rank. -/
def exCfgB : VbfCfg ℕ ℤ :=
  { d := 2, m := 0, ranks := [0], ord := fun a => (a.filter (· ≠ 0)).dedup, junk := fun _ _ => 9
    stiff := 1, damp := 3, addrOf := fun _ => [0, 0, 0] }

/-- positions: nodes 0 and 1 on rank 0, node 2 on rank 1 -/
def exX : LagField ℤ := fun k i => if k = 0 then (if i = 2 then 1 else 0) else 5 * i

/-- later: all nodes on rank 1 -/
def exY : LagField ℤ := fun k i => if k = 0 then 1 else 5 * i

/-- interaction in a flow of speed `a` times the second coordinate -/
def exInt (X : LagField ℤ) (a : ℤ) : VbfOp ℕ ℤ := .interact X (fun _ _ => 1) (fun _ x _ => a * x 1)

def exOps1 : List (VbfOp ℕ ℤ) := [exInt exX 1, .step 1, exInt exX 2]
def exOps2 : List (VbfOp ℕ ℤ) := [exInt exY 3, .step 2, exInt exY 4]

/-- the hypotheses of `vbf_restart`, with a node that changes its rank -/
example : AddrOk exCfgA 3 (exCfgA.addrOf exX) ∧ CountsReveal exCfgA 3 (exCfgA.addrOf exX) (exOps1 ++ exOps2) ∧ Settles exOps1 ∧ Ready exOps2 ∧
    AddrOk exCfgB 3 (exCfgB.addrOf exX) ∧ List.Forall₂ (SameOp exCfgA exCfgB 3) exOps2 exOps2 ∧ CountsReveal exCfgB 3 (exCfgB.addrOf exX) exOps2 ∧ 3 ≠ exCfgA.d ∧
    (∀ a, SlaveSet a exCfgA.m (exCfgA.ord a)) ∧ ∀ a, SlaveSet a exCfgB.m (exCfgB.ord a) := by
  have hI : ∀ a : ℤ, InterpOk 2 (fun (_ : ℕ) (x : ℕ → ℤ) (_ : ℕ) => a * x 1) := by
    intro a r x y k h
    simp only [h 1 (by decide)]
  have hs : ∀ X a, SameOp exCfgA exCfgB 3 (exInt X a) (exInt X a) := by
    intro X a
    refine .interact _ _ _ _ ?_
    intro k _ i hi
    rcases (by omega : i = 0 ∨ i = 1 ∨ i = 2) with rfl | rfl | rfl <;> rfl
  refine ⟨⟨rfl, by decide⟩, ?_, ?_, ?_, ⟨rfl, by decide⟩, ?_, ?_, by decide, ?_, ?_⟩
  · exact ⟨⟨rfl, by decide⟩, hI 1, Or.inl rfl, ⟨rfl, by decide⟩, hI 2, Or.inl rfl, ⟨rfl, by decide⟩, hI 3, Or.inr ⟨0, by decide, by decide⟩, ⟨rfl, by decide⟩, hI 4, Or.inl rfl,
      trivial⟩
  · intro pre dt post h
    rcases pre with _ | ⟨a, _ | ⟨b, _ | ⟨c, pre⟩⟩⟩
    · simp [exOps1, exInt] at h
    · simp [exOps1, exInt] at h
      rw [← h.2.2]; exact ⟨_, List.mem_singleton.2 rfl, rfl⟩
    all_goals simp [exOps1, exInt] at h
  · intro pre dt post h
    rcases pre with _ | ⟨a, _ | ⟨b, _ | ⟨c, pre⟩⟩⟩
    · simp [exOps2, exInt] at h
    · simp [exOps2, exInt] at h
      rw [← h.1]; exact ⟨_, List.mem_singleton.2 rfl, rfl⟩
    all_goals simp [exOps2, exInt] at h
  · exact .cons (hs _ _) (.cons (.step _) (.cons (hs _ _) .nil))
  · exact ⟨⟨rfl, by decide⟩, hI 3, Or.inl rfl, ⟨rfl, by decide⟩, hI 4, Or.inl rfl, trivial⟩
  · exact fun a => ⟨List.nodup_dedup _, by intro r; simp [exCfgA]⟩
  · exact fun a => ⟨List.nodup_dedup _, by intro r; simp [exCfgB]⟩

/-- C84, negative part, a concrete run: interaction, time step, interaction, checkpoint. Restarted with a time step first, the force on node 2 is wrong. -/
theorem vbf_restart_stale_example :
    let s₁ := vbfRun exCfgA (vbfInit exCfgA exX 0) exOps1
    (vbfRun exCfgA s₁ [.step 2, exInt exX 0]).gforce 1 2 = 44 ∧
    (vbfRun exCfgA (vbfRemap exCfgA exX { vbfInit exCfgA exX 0 with gposM := s₁.gposM, gvelM := s₁.gvelM }) [.step 2, exInt exX 0]).gforce 1 2 = 24 := by
  refine ⟨by decide, by decide⟩

end Sopht
