import Verif.Vbf
import Verif.LagrangianProps
import Mathlib.Algebra.BigOperators.Group.List.Basic
import Mathlib.Tactic.Linarith
import Mathlib.Tactic.Ring
import Mathlib.Tactic.FinCases

/-!
# Virtual boundary forcing: C18, C19, C20, C56
-/

namespace Sopht

set_option linter.unusedSectionVars false

section Spec
variable {R α : Type} [DecidableEq R] [Ring α]

/-! ## Specification: one record per node, no ranks -/

/-- What the user thinks of: for component `k` and node `i` the position mismatch, velocity mismatch and force. -/
structure NodeHist (α : Type) where
  P : ℕ → ℕ → α
  V : ℕ → ℕ → α
  F : ℕ → ℕ → α
  t : α

/-- Flow velocity at node `i`, as interpolated by the rank the mapping assigns the node to. -/
def flowAt (addrOf : LagField α → List R) (X : LagField α) (I : R → (ℕ → α) → ℕ → α) (k i : ℕ) : α :=
  match (addrOf X)[i]? with
  | some r => I r (fun k' => X k' i) k
  | none => 0

/-- The forcing law for every node by itself. -/
def nodeApply (c : VbfCfg R α) (h : NodeHist α) : VbfOp R α → NodeHist α
  | .interact X U I =>
    { P := h.P
      V := fun k i => flowAt c.addrOf X I k i - U k i
      F := fun k i => c.stiff * h.P k i + c.damp * (flowAt c.addrOf X I k i - U k i)
      t := h.t }
  | .step dt =>
    { P := fun k i => h.P k i + dt * h.V k i
      V := h.V, F := h.F, t := h.t + dt }

/-- Nothing accumulated at the start. -/
def nodeInit (t0 : α) : NodeHist α := ⟨fun _ _ => 0, fun _ _ => 0, fun _ _ => 0, t0⟩

/-- A mapping of `N` nodes to existing ranks. -/
def AddrOk (c : VbfCfg R α) (N : ℕ) (a : List R) : Prop := a.length = N ∧ ∀ r ∈ a, r ∈ c.ranks

/-- The interpolation only looks at the `d` coordinates of the node. -/
def InterpOk (d : ℕ) (I : R → (ℕ → α) → ℕ → α) : Prop :=
  ∀ r x y k, (∀ k' < d, x k' = y k') → I r x k = I r y k

/-- Histories in which every remapping either moves no node or changes the number of nodes of some rank. -/
def CountsReveal (c : VbfCfg R α) (N : ℕ) : List R → List (VbfOp R α) → Prop
  | _, [] => True
  | a, .step _ :: ops => CountsReveal c N a ops
  | a, .interact X _ I :: ops =>
    AddrOk c N (c.addrOf X) ∧ InterpOk c.d I ∧
      (c.addrOf X = a ∨ ∃ r ∈ c.ranks, localCount (c.addrOf X) r ≠ localCount a r) ∧
      CountsReveal c N (c.addrOf X) ops

/-- The distributed state stores exactly the node records: the `j`-th local entry of rank `r` belongs to the `j`-th node (in
increasing order) mapped to `r`. -/
structure Stores (c : VbfCfg R α) (N : ℕ) (s : Vbf R α) (h : NodeHist α) : Prop where
  addr : AddrOk c N s.addr
  cnt : ∀ r ∈ c.ranks, s.cnt r = localCount s.addr r
  pos : ∀ k < c.d, ∀ (r : R) (j i : ℕ), (whereEq s.addr r)[j]? = some i → s.posM r k j = h.P k i
  vel : ∀ k < c.d, ∀ (r : R) (j i : ℕ), (whereEq s.addr r)[j]? = some i → s.velM r k j = h.V k i
  force : ∀ k < c.d, ∀ i < N, s.gforce k i = h.F k i
  time : s.time = h.t

end Spec

section Proofs
variable {R α : Type} [DecidableEq R] [Ring α]

theorem node_slot (addr : List R) {i : ℕ} (hi : i < addr.length) :
    ∃ (r : R) (j : ℕ), addr[i]? = some r ∧ (whereEq addr r)[j]? = some i ∧ j < localCount addr r := by
  have hmem : i ∈ whereEq addr addr[i] := mem_whereEq.2 (List.getElem?_eq_getElem hi)
  obtain ⟨j, hj, he⟩ := List.getElem_of_mem hmem
  exact ⟨addr[i], j, List.getElem?_eq_getElem hi, by rw [List.getElem?_eq_getElem hj, he], by
    rw [← whereEq_length]; exact hj⟩

theorem slot_lt {addr : List R} {r : R} {j i : ℕ} (h : (whereEq addr r)[j]? = some i) :
    j < localCount addr r ∧ addr[i]? = some r ∧ i < addr.length := by
  have hj : j < (whereEq addr r).length := (List.getElem?_eq_some_iff.1 h).1
  have hm := mem_whereEq.1 (List.mem_of_getElem? h)
  exact ⟨by rw [← whereEq_length]; exact hj, hm, (List.getElem?_eq_some_iff.1 hm).1⟩

theorem scatterLag_slot (d : ℕ) (addr : List R) {m : R} {order : List R} (ho : SlaveSet addr m order)
    (G : LagField α) (loc : R → LagField α) {r : R} {k j i : ℕ} (hk : k < d) (h : (whereEq addr r)[j]? = some i) :
    scatterLag d addr m order G loc r k j = G k i := by
  obtain ⟨i', h1, -, h2⟩ := scatterLag_correct d addr ho G loc r hk (slot_lt h).1
  rw [h] at h1
  rw [h2, Option.some.inj h1]

theorem updateBuffers_stores (c : VbfCfg R α) (hord : ∀ a, SlaveSet a c.m (c.ord a)) {N : ℕ} {s : Vbf R α} {h : NodeHist α}
    (hs : Stores c N s h) (X : LagField α) (hX : AddrOk c N (c.addrOf X))
    (hc : c.addrOf X = s.addr ∨ ∃ r ∈ c.ranks, localCount (c.addrOf X) r ≠ localCount s.addr r) :
    Stores c N (vbfUpdateBuffers c X s) h ∧ (vbfUpdateBuffers c X s).addr = c.addrOf X := by
  have hgP : ∀ k < c.d, ∀ i < N,
      gatherLag c.d s.addr c.m (c.ord s.addr) s.posM c.junk s.gposM k i = h.P k i := by
    intro k hk i hi
    obtain ⟨r, j, h1, h2, h3⟩ := node_slot s.addr (i := i) (by rw [hs.addr.1]; exact hi)
    rw [gatherLag_correct c.d s.addr (hord _) s.posM _ _ hk h2, hs.pos k hk r j i h2]
  have hgV : ∀ k < c.d, ∀ i < N,
      gatherLag c.d s.addr c.m (c.ord s.addr) s.velM c.junk s.gvelM k i = h.V k i := by
    intro k hk i hi
    obtain ⟨r, j, h1, h2, h3⟩ := node_slot s.addr (i := i) (by rw [hs.addr.1]; exact hi)
    rw [gatherLag_correct c.d s.addr (hord _) s.velM _ _ hk h2, hs.vel k hk r j i h2]
  unfold vbfUpdateBuffers
  dsimp only
  split
  · rename_i hflag
    refine ⟨⟨hX, fun r _ => rfl, ?_, ?_, hs.force, hs.time⟩, rfl⟩
    · intro k hk r j i hij
      simp only at hij ⊢
      rw [scatterLag_slot c.d _ (hord _) _ _ hk hij]
      exact hgP k hk i (by rw [← hX.1]; exact (slot_lt hij).2.2)
    · intro k hk r j i hij
      simp only at hij ⊢
      rw [scatterLag_slot c.d _ (hord _) _ _ hk hij]
      exact hgV k hk i (by rw [← hX.1]; exact (slot_lt hij).2.2)
  · rename_i hflag
    have heq : c.addrOf X = s.addr := by
      rcases hc with hc | ⟨r, hr, hne⟩
      · exact hc
      · exfalso
        apply hflag
        rw [List.any_eq_true]
        exact ⟨r, hr, by rw [hs.cnt r hr]; exact decide_eq_true (Ne.symm hne)⟩
    refine ⟨⟨hX, ?_, ?_, ?_, hs.force, hs.time⟩, rfl⟩
    · intro r hr; simp only [heq]; exact hs.cnt r hr
    · intro k hk r j i hij; simp only [heq] at hij; exact hs.pos k hk r j i hij
    · intro k hk r j i hij; simp only [heq] at hij; exact hs.vel k hk r j i hij

theorem interact_stores (c : VbfCfg R α) (hord : ∀ a, SlaveSet a c.m (c.ord a)) {N : ℕ} {s : Vbf R α} {h : NodeHist α}
    (hs : Stores c N s h) (X U : LagField α) (I : R → (ℕ → α) → ℕ → α) (hX : AddrOk c N (c.addrOf X)) (hI : InterpOk c.d I)
    (hc : c.addrOf X = s.addr ∨ ∃ r ∈ c.ranks, localCount (c.addrOf X) r ≠ localCount s.addr r) :
    Stores c N (vbfInteract c X U I s) (nodeApply c h (.interact X U I)) ∧
      (vbfInteract c X U I s).addr = c.addrOf X := by
  obtain ⟨h1, ha⟩ := updateBuffers_stores c hord hs X hX hc
  have hvel : ∀ k < c.d, ∀ (r : R) (j i : ℕ), (whereEq (vbfUpdateBuffers c X s).addr r)[j]? = some i →
      I r (fun k' => scatterLag c.d (vbfUpdateBuffers c X s).addr c.m (c.ord (vbfUpdateBuffers c X s).addr) X
          (vbfUpdateBuffers c X s).lpos r k' j) k -
        scatterLag c.d (vbfUpdateBuffers c X s).addr c.m (c.ord (vbfUpdateBuffers c X s).addr) U
          (vbfUpdateBuffers c X s).lvel r k j = flowAt c.addrOf X I k i - U k i := by
    intro k hk r j i hij
    rw [scatterLag_slot c.d _ (hord _) U _ hk hij]
    have : (c.addrOf X)[i]? = some r := by rw [← ha]; exact (slot_lt hij).2.1
    unfold flowAt
    rw [this]
    congr 1
    apply hI
    intro k' hk'
    exact scatterLag_slot c.d _ (hord _) X _ hk' hij
  refine ⟨⟨by rw [show (vbfInteract c X U I s).addr = _ from rfl]; exact h1.addr, h1.cnt, h1.pos, hvel, ?_, h1.time⟩, ha⟩
  intro k hk i hi
  obtain ⟨r, j, e1, e2, e3⟩ := node_slot (vbfUpdateBuffers c X s).addr (i := i) (by rw [h1.addr.1]; exact hi)
  have := gatherLag_correct c.d (vbfUpdateBuffers c X s).addr (hord _) (vbfInteract c X U I s).force c.junk
    (vbfUpdateBuffers c X s).gforce hk e2
  change gatherLag c.d (vbfUpdateBuffers c X s).addr c.m (c.ord (vbfUpdateBuffers c X s).addr)
    (vbfInteract c X U I s).force c.junk (vbfUpdateBuffers c X s).gforce k i = _
  rw [this]
  unfold vbfInteract nodeApply
  simp only
  rw [h1.pos k hk r j i e2, hvel k hk r j i e2]

theorem step_stores (c : VbfCfg R α) {N : ℕ} {s : Vbf R α} {h : NodeHist α} (hs : Stores c N s h) (dt : α) :
    Stores c N (vbfStep dt s) (nodeApply c h (.step dt)) := by
  refine ⟨hs.addr, hs.cnt, ?_, hs.vel, hs.force, ?_⟩
  · intro k hk r j i hij
    unfold vbfStep nodeApply
    simp only
    rw [hs.pos k hk r j i hij, hs.vel k hk r j i hij]
  · unfold vbfStep nodeApply; simp only; rw [hs.time]

theorem run_stores (c : VbfCfg R α) (hord : ∀ a, SlaveSet a c.m (c.ord a)) {N : ℕ} (ops : List (VbfOp R α)) :
    ∀ {s : Vbf R α} {h : NodeHist α}, Stores c N s h → CountsReveal c N s.addr ops →
      Stores c N (vbfRun c s ops) (ops.foldl (nodeApply c) h) := by
  induction ops with
  | nil => intro s h hs _; exact hs
  | cons op ops ih =>
    intro s h hs hg
    cases op with
    | step dt => exact ih (step_stores c hs dt) hg
    | interact X U I =>
      obtain ⟨h1, h2, h3, h4⟩ := hg
      obtain ⟨a, b⟩ := interact_stores c hord hs X U I h1 h2 h3
      exact ih a (by rw [show vbfApply c s (.interact X U I) = vbfInteract c X U I s from rfl, b]; exact h4)

theorem init_stores (c : VbfCfg R α) {N : ℕ} (X0 : LagField α) (t0 : α) (h0 : AddrOk c N (c.addrOf X0)) :
    Stores c N (vbfInit c X0 t0) (nodeInit t0) :=
  ⟨h0, fun _ _ => rfl, fun _ _ _ _ _ _ => rfl, fun _ _ _ _ _ _ => rfl, fun _ _ _ _ => rfl, rfl⟩

/-- **C19, C20** For every history of interactions and time steps in which each remapping leaves all nodes on their ranks or
changes some rank's node count, the distributed state stores exactly what each node accumulated by itself. -/
theorem vbf_history (c : VbfCfg R α) (hord : ∀ a, SlaveSet a c.m (c.ord a)) {N : ℕ} (X0 : LagField α) (t0 : α)
    (h0 : AddrOk c N (c.addrOf X0)) (ops : List (VbfOp R α)) (hg : CountsReveal c N (c.addrOf X0) ops) :
    Stores c N (vbfRun c (vbfInit c X0 t0) ops) (ops.foldl (nodeApply c) (nodeInit t0)) :=
  run_stores c hord ops (init_stores c X0 t0 h0) hg

/-- **C18** After an interaction at the end of any such history, the force on every node is stiffness times the node's
accumulated position mismatch plus damping times (interpolated flow velocity minus body velocity). -/
theorem vbf_force_law (c : VbfCfg R α) (hord : ∀ a, SlaveSet a c.m (c.ord a)) {N : ℕ} (X0 : LagField α) (t0 : α)
    (h0 : AddrOk c N (c.addrOf X0)) (ops : List (VbfOp R α)) (X U : LagField α) (I : R → (ℕ → α) → ℕ → α)
    (hg : CountsReveal c N (c.addrOf X0) (ops ++ [.interact X U I])) {k i : ℕ} (hk : k < c.d) (hi : i < N) :
    (vbfRun c (vbfInit c X0 t0) (ops ++ [.interact X U I])).gforce k i =
      c.stiff * (ops.foldl (nodeApply c) (nodeInit t0)).P k i + c.damp * (flowAt c.addrOf X I k i - U k i) := by
  rw [(vbf_history c hord X0 t0 h0 _ hg).force k hk i hi, List.foldl_append]
  rfl

/-- The usual loop: in every round an interaction, then a time step. -/
def rounds (l : List ((LagField α × LagField α × (R → (ℕ → α) → ℕ → α)) × α)) : List (VbfOp R α) :=
  l.flatMap fun q => [.interact q.1.1 q.1.2.1 q.1.2.2, .step q.2]

theorem rounds_fold (c : VbfCfg R α) (l : List ((LagField α × LagField α × (R → (ℕ → α) → ℕ → α)) × α)) :
    ∀ (h : NodeHist α) (k i : ℕ),
      ((rounds l).foldl (nodeApply c) h).P k i =
        h.P k i + (l.map fun q => q.2 * (flowAt c.addrOf q.1.1 q.1.2.2 k i - q.1.2.1 k i)).sum ∧
      ((rounds l).foldl (nodeApply c) h).t = h.t + (l.map fun q => q.2).sum := by
  induction l with
  | nil => intro h k i; simp [rounds]
  | cons q l ih =>
    intro h k i
    have : rounds (q :: l) = .interact q.1.1 q.1.2.1 q.1.2.2 :: .step q.2 :: rounds l := by simp [rounds]
    rw [this, List.foldl_cons, List.foldl_cons]
    obtain ⟨a, b⟩ := ih (nodeApply c (nodeApply c h (.interact q.1.1 q.1.2.1 q.1.2.2)) (.step q.2)) k i
    rw [a, b]
    simp only [nodeApply, List.map_cons, List.sum_cons]
    constructor <;> simp only [add_assoc]

/-- **C19** In the usual loop the position mismatch stored for node `i` (at whatever slot of whatever rank the current mapping
puts it) is the sum over the rounds of `dt` times that round's velocity mismatch, and the time is the start time plus the sum
of the `dt`. -/
theorem vbf_position_mismatch (c : VbfCfg R α) (hord : ∀ a, SlaveSet a c.m (c.ord a)) {N : ℕ} (X0 : LagField α) (t0 : α)
    (h0 : AddrOk c N (c.addrOf X0)) (l : List ((LagField α × LagField α × (R → (ℕ → α) → ℕ → α)) × α))
    (hg : CountsReveal c N (c.addrOf X0) (rounds l)) {k j i : ℕ} {r : R} (hk : k < c.d)
    (hij : (whereEq (vbfRun c (vbfInit c X0 t0) (rounds l)).addr r)[j]? = some i) :
    (vbfRun c (vbfInit c X0 t0) (rounds l)).posM r k j =
        (l.map fun q => q.2 * (flowAt c.addrOf q.1.1 q.1.2.2 k i - q.1.2.1 k i)).sum ∧
      (vbfRun c (vbfInit c X0 t0) (rounds l)).time = t0 + (l.map fun q => q.2).sum := by
  have h := vbf_history c hord X0 t0 h0 _ hg
  obtain ⟨a, b⟩ := rounds_fold c l (nodeInit t0) k i
  rw [h.pos k hk r j i hij, h.time, a, b]
  simp [nodeInit]

/-- The time alone is the sum of the steps for every history, whatever the nodes do. -/
theorem vbf_time (c : VbfCfg R α) (ops : List (VbfOp R α)) (s : Vbf R α) :
    (vbfRun c s ops).time =
      s.time + (ops.map fun o => match o with | .step dt => dt | .interact _ _ _ => 0).sum := by
  induction ops generalizing s with
  | nil => simp [vbfRun]
  | cons o ops ih =>
    rw [show vbfRun c s (o :: ops) = vbfRun c (vbfApply c s o) ops from rfl, ih]
    cases o with
    | step dt => simp [vbfApply, vbfStep, add_assoc]
    | interact X U I =>
      have : (vbfApply c s (.interact X U I)).time = s.time := by
        unfold vbfApply vbfInteract vbfUpdateBuffers
        simp only
        split <;> rfl
      rw [this]; simp

/-! ## C20: what goes wrong -/

/-- **C20, negative part** If nodes move but every rank keeps its number of nodes, nothing is redistributed: the slot that now
belongs to node `i'` still holds the position mismatch accumulated by the node `i` which had that slot before. -/
theorem vbf_swap_misattributes (c : VbfCfg R α) {N : ℕ} {s : Vbf R α} {h : NodeHist α}
    (hs : Stores c N s h) (X U : LagField α) (I : R → (ℕ → α) → ℕ → α)
    (hcount : ∀ r ∈ c.ranks, localCount (c.addrOf X) r = localCount s.addr r)
    {r : R} {j i i' k : ℕ} (hk : k < c.d) (hold : (whereEq s.addr r)[j]? = some i)
    (_hnew : (whereEq (vbfInteract c X U I s).addr r)[j]? = some i') :
    (vbfInteract c X U I s).posM r k j = h.P k i := by
  have hflag : (c.ranks.any fun r => decide (s.cnt r ≠ localCount (c.addrOf X) r)) = false := by
    rw [List.any_eq_false]
    intro r hr
    simp [hs.cnt r hr, hcount r hr]
  rw [← hs.pos k hk r j i hold]
  unfold vbfInteract vbfUpdateBuffers
  simp only [hflag]
  rfl

/-- Two ranks, one node each; positions are block numbers. -/
def swapCfg : VbfCfg ℕ ℤ :=
  { d := 2, m := 0, ranks := [0, 1], ord := fun a => (a.filter (· ≠ 0)).dedup, junk := fun _ _ => 0
    stiff := 1, damp := 0, addrOf := fun X => [(X 0 0).toNat, (X 0 1).toNat] }

/-- Node 0 sees a velocity mismatch of 5, node 1 of 7, for one step; then the nodes exchange ranks. -/
def swapOps : List (VbfOp ℕ ℤ) :=
  [.interact (fun _ i => i) (fun _ _ => 0) (fun _ x _ => if x 0 = 0 then 5 else 7), .step 1,
   .interact (fun _ i => 1 - i) (fun _ _ => 0) (fun _ _ _ => 0)]

/-- **C20, negative part** A concrete run: after the swap the force on node 0 is the one node 1 should feel. -/
theorem vbf_swap_wrong :
    (∀ a, SlaveSet a swapCfg.m (swapCfg.ord a)) ∧
    (swapOps.foldl (nodeApply swapCfg) (nodeInit 0)).F 0 0 = 5 ∧
    (vbfRun swapCfg (vbfInit swapCfg (fun _ i => i) 0) swapOps).gforce 0 0 = 7 := by
  refine ⟨fun a => ⟨List.nodup_dedup _, by intro r; simp [swapCfg]⟩, by decide, by decide⟩

/-- non-vacuity: node 0 joins node 1 on rank 1 (counts change), after which node 1 keeps its own history -/
example : CountsReveal swapCfg 2 (swapCfg.addrOf (fun _ i => i))
    [.interact (fun _ i => i) (fun _ _ => 0) (fun _ x _ => if x 0 = 0 then 5 else 7), .step 1,
     .interact (fun _ _ => 1) (fun _ _ => 0) (fun _ _ _ => 0)] ∧
    (vbfRun swapCfg (vbfInit swapCfg (fun _ i => i) 0)
      [.interact (fun _ i => i) (fun _ _ => 0) (fun _ x _ => if x 0 = 0 then 5 else 7), .step 1,
       .interact (fun _ _ => 1) (fun _ _ => 0) (fun _ _ _ => 0)]).gforce 0 0 = 5 := by
  refine ⟨⟨⟨rfl, by decide⟩, ?_, Or.inl (by decide), ⟨rfl, by decide⟩, ?_, Or.inr ⟨0, by decide, by decide⟩, trivial⟩, by decide⟩
  · intro r x y k h
    simp only [h 0 (by decide)]
  · intro r x y k h; rfl

/-- construction refuses grids that are not 2D or 3D and interpolation windows wider than the ghost layer -/
theorem vbfCheck_ok_iff (gd w g : ℤ) : vbfCheck gd w g = .ok () ↔ (gd = 2 ∨ gd = 3) ∧ w ≤ g := by
  unfold vbfCheck
  split
  · constructor
    · intro h; cases h
    · intro h; omega
  · split
    · constructor
      · intro h; cases h
      · intro h; omega
    · constructor
      · intro _; omega
      · intro _; rfl

end Proofs

/-! ## C56 -/

section Dev
variable {R : Type} [DecidableEq R]

theorem sum_whereEq (addr : List R) (f : ℕ → ℝ) (r : R) (A : ℕ → ℝ)
    (h : ∀ (j i : ℕ), (whereEq addr r)[j]? = some i → A j = f i) :
    ((List.range (localCount addr r)).map A).sum = ((whereEq addr r).map f).sum := by
  congr 1
  apply List.ext_getElem
  · simp [whereEq_length]
  · intro n h1 h2
    simp only [List.getElem_map, List.getElem_range]
    apply h
    rw [List.getElem?_eq_getElem]

theorem sum_over_ranks (addr : List R) (f : ℕ → ℝ) (ranks : List R) (hn : ranks.Nodup) (h : ∀ r ∈ addr, r ∈ ranks) :
    (ranks.map fun r => ((whereEq addr r).map f).sum).sum = ((List.range addr.length).map f).sum := by
  have key : ∀ (l : List ℕ), (∀ i ∈ l, i < addr.length) →
      (ranks.map fun r => ((l.filter fun i => addr[i]? = some r).map f).sum).sum = (l.map f).sum := by
    intro l
    induction l with
    | nil => intro _; simp
    | cons i l ih =>
      intro hl
      have hi : i < addr.length := hl i (by simp)
      rw [List.map_cons, List.sum_cons, ← ih (fun x hx => hl x (by simp [hx]))]
      have e : ∀ r, (((i :: l).filter fun i => addr[i]? = some r).map f).sum =
          (if r = addr[i] then f i else 0) + ((l.filter fun i => addr[i]? = some r).map f).sum := by
        intro r
        rw [List.filter_cons]
        rw [List.getElem?_eq_getElem hi]
        by_cases hr : addr[i] = r
        · simp [hr]
        · have hr' : ¬ r = addr[i] := fun h => hr h.symm
          simp [hr, hr']
      simp only [e]
      rw [List.sum_map_add]
      congr 1
      have hm : addr[i] ∈ ranks := h _ (List.getElem_mem hi)
      generalize addr[i] = q at hm
      clear ih e h
      induction ranks with
      | nil => simp at hm
      | cons a t iht =>
        rw [List.nodup_cons] at hn
        rw [List.map_cons, List.sum_cons]
        by_cases ha : a = q
        · subst ha
          have : (t.map fun r => if r = a then f i else 0) = t.map fun _ => (0 : ℝ) := by
            apply List.map_congr_left
            intro r hr
            rw [if_neg]; rintro rfl; exact hn.1 hr
          rw [this]; simp
        · rw [if_neg ha, zero_add]
          apply iht hn.2
          rcases List.mem_cons.1 hm with h | h
          · exact absurd h.symm ha
          · exact h
  exact key _ (by intro i hi; exact List.mem_range.1 hi)

/-- **C56** On every rank the returned deviation error is the root mean square, over all nodes, of the position mismatch each
node has accumulated (any history as in C19/C20). -/
theorem gridDeviation_rms (c : VbfCfg R ℝ) (hn : c.ranks.Nodup) {N : ℕ}
    {s : Vbf R ℝ} {h : NodeHist ℝ} (hs : Stores c N s h) (r : R) :
    gridDeviation c.d c.ranks N s r =
      Real.sqrt (((List.range N).map fun i => ((List.range c.d).map fun k => h.P k i ^ 2).sum).sum / N) := by
  have hsw : ∀ (l1 l2 : List ℕ) (f : ℕ → ℕ → ℝ),
      (l1.map fun k => (l2.map fun j => f k j).sum).sum = (l2.map fun j => (l1.map fun k => f k j).sum).sum := by
    intro l1 l2 f
    induction l1 with
    | nil => simp
    | cons a t ih => simp only [List.map_cons, List.sum_cons, ih]; rw [← List.sum_map_add]
  unfold gridDeviation
  simp only
  have e : (c.ranks.map fun r => frobNorm c.d (s.cnt r) (s.posM r) ^ 2) =
      c.ranks.map fun r => ((whereEq s.addr r).map fun i => ((List.range c.d).map fun k => h.P k i ^ 2).sum).sum := by
    apply List.map_congr_left
    intro q hq
    unfold frobNorm
    rw [Real.sq_sqrt]
    · rw [hsw, hs.cnt q hq]
      apply sum_whereEq
      intro j i hij
      congr 1
      apply List.map_congr_left
      intro k hk
      rw [hs.pos k (List.mem_range.1 hk) q j i hij]
    · apply List.sum_nonneg
      intro x hx
      obtain ⟨k, -, rfl⟩ := List.mem_map.1 hx
      apply List.sum_nonneg
      intro x hx
      obtain ⟨j, -, rfl⟩ := List.mem_map.1 hx
      positivity
  rw [e, sum_over_ranks s.addr _ c.ranks hn hs.addr.2, hs.addr.1, Real.sqrt_div']
  positivity

/-- non-vacuity: `Stores` holds right after construction -/
example : ∃ (c : VbfCfg ℕ ℝ) (s : Vbf ℕ ℝ) (h : NodeHist ℝ), c.ranks.Nodup ∧ Stores c 2 s h :=
  ⟨{ d := 2, m := 0, ranks := [0, 1], ord := fun a => (a.filter (· ≠ 0)).dedup, junk := fun _ _ => 0
     stiff := 1, damp := 0, addrOf := fun _ => [0, 1] }, _, _, by decide,
   init_stores _ (fun _ _ => 0) 0 ⟨rfl, by decide⟩⟩

end Dev
end Sopht
