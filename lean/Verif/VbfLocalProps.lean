import Verif.VbfLocal
import Verif.VbfProps
import Verif.Interactor2DProps
import Verif.Interactor3DProps

/-!
# C78: forcing with `assume_data_locality = True`
-/

namespace Sopht

set_option linter.unusedSectionVars false

section Spec
variable {R α : Type} [DecidableEq R] [Ring α]

/-! ## Specification -/

/-- A numbering of the nodes of all ranks: `glob[i] = (r, j)` says that node `i` of the whole body is node `j` of rank `r`. Each rank's nodes appear once each
and in the rank's order; ranks may be interleaved in any way. -/
structure Numbering (ranks : List R) (N : R → ℕ) (glob : List (R × ℕ)) : Prop where
  ranks : ∀ p ∈ glob, p.1 ∈ ranks
  nodes : ∀ r, (glob.filter fun p => p.1 = r).map (·.2) = List.range (N r)

/-- The field of the whole body. -/
def joinNodes (glob : List (R × ℕ)) (X : R → LagField α) : LagField α := fun k i =>
  match glob[i]? with
  | some p => X p.1 k p.2
  | none => 0

/-- The same call in the default mode, with the node fields of the whole body on the master. -/
def inDefaultMode (glob : List (R × ℕ)) : LocOp R α → VbfOp R α
  | .interact X U I => .interact (joinNodes glob X) (joinNodes glob U) I
  | .step dt => .step dt

/-- In every interaction the nodes of a rank are nodes which the default mode maps to that rank. -/
def NodesAtHome (c : VbfCfg R α) (glob : List (R × ℕ)) : List (LocOp R α) → Prop
  | [] => True
  | .step _ :: ops => NodesAtHome c glob ops
  | .interact X _ I :: ops => c.addrOf (joinNodes glob X) = glob.map (·.1) ∧ InterpOk c.d I ∧ NodesAtHome c glob ops

/-- Both modes hold the same data for every node. -/
structure SameNodes (c : VbfCfg R α) (N : R → ℕ) (glob : List (R × ℕ)) (s : VbfNodes R α) (v : Vbf R α) : Prop where
  addr : v.addr = glob.map (·.1)
  cnt : ∀ r, s.cnt r = N r ∧ v.cnt r = N r
  pos : ∀ k < c.d, ∀ r, ∀ j < N r, v.posM r k j = s.posM r k j
  vel : ∀ k < c.d, ∀ r, ∀ j < N r, v.velM r k j = s.velM r k j
  lpos : ∀ k < c.d, ∀ r, ∀ j < N r, v.lpos r k j = s.lpos r k j
  lvel : ∀ k < c.d, ∀ r, ∀ j < N r, v.lvel r k j = s.lvel r k j
  force : ∀ k < c.d, ∀ r, ∀ j < N r, v.force r k j = s.force r k j
  /-- the force field a body is given: on rank `r` of its own nodes, in the default mode of all nodes on the master -/
  gforce : ∀ k < c.d, ∀ (i : ℕ) p, glob[i]? = some p → v.gforce k i = s.gforce p.1 k p.2
  time : v.time = s.time

end Spec

section Proofs
variable {R α : Type} [DecidableEq R] [Ring α]

theorem whereEq_glob (glob : List (R × ℕ)) (r : R) :
    (whereEq (glob.map (·.1)) r).map (fun i => glob[i]?) = (glob.filter fun p => p.1 = r).map some := by
  have h : glob.map some = (List.range glob.length).map fun i => glob[i]? := by
    apply List.ext_getElem?
    intro i
    by_cases hi : i < glob.length
    · simp [hi]
    · simp [List.getElem?_eq_none (not_lt.1 hi), List.getElem?_eq_none, not_lt.1 hi]
  have h2 := congrArg (List.filter fun o : Option (R × ℕ) => decide (o.map (·.1) = some r)) h
  rw [List.filter_map, List.filter_map] at h2
  unfold whereEq
  rw [List.length_map]
  have e1 : (fun i => decide ((glob.map (·.1))[i]? = some r)) = (fun o : Option (R × ℕ) => decide (o.map (·.1) = some r)) ∘ fun (i : ℕ) => glob[i]? := by
    funext i; simp
  have e2 : ((fun o : Option (R × ℕ) => decide (o.map (·.1) = some r)) ∘ some) = fun p => decide (p.1 = r) := by
    funext p; simp
  rw [e1, ← h2, e2]

theorem Numbering.slot {ranks : List R} {N : R → ℕ} {glob : List (R × ℕ)} (hn : Numbering ranks N glob) {r : R} {j i : ℕ}
    (h : (whereEq (glob.map (·.1)) r)[j]? = some i) : glob[i]? = some (r, j) ∧ j < N r := by
  have h1 := whereEq_glob glob r
  have h2 : ((whereEq (glob.map (·.1)) r).map fun i => glob[i]?)[j]? = some (glob[i]?) := by rw [List.getElem?_map, h]; rfl
  rw [h1, List.getElem?_map] at h2
  rcases hq : (glob.filter fun p => p.1 = r)[j]? with _ | p
  · rw [hq] at h2; cases h2
  · rw [hq] at h2
    have h3 : some p = glob[i]? := Option.some.inj h2
    have hm := List.mem_of_getElem? hq
    have hr : p.1 = r := by simpa using (List.mem_filter.1 hm).2
    have h4 : ((glob.filter fun p => p.1 = r).map (·.2))[j]? = some p.2 := by rw [List.getElem?_map, hq]; rfl
    rw [hn.nodes r] at h4
    have h5 := List.getElem?_eq_some_iff.1 h4
    obtain ⟨hlt, he⟩ := h5
    rw [List.getElem_range] at he
    rw [List.length_range] at hlt
    exact ⟨by rw [← h3, he, ← hr], hlt⟩

theorem Numbering.count {ranks : List R} {N : R → ℕ} {glob : List (R × ℕ)} (hn : Numbering ranks N glob) (r : R) : localCount (glob.map (·.1)) r = N r := by
  rw [← whereEq_length]
  have := congrArg List.length (whereEq_glob glob r)
  rw [List.length_map, List.length_map] at this
  rw [this]
  have h := congrArg List.length (hn.nodes r)
  rwa [List.length_map, List.length_range] at h

theorem Numbering.slot_of {ranks : List R} {N : R → ℕ} {glob : List (R × ℕ)} (hn : Numbering ranks N glob) {r : R} {j : ℕ} (hj : j < N r) :
    ∃ i, (whereEq (glob.map (·.1)) r)[j]? = some i ∧ glob[i]? = some (r, j) := by
  have hl : j < (whereEq (glob.map (·.1)) r).length := by rw [whereEq_length, hn.count]; exact hj
  exact ⟨_, List.getElem?_eq_getElem hl, (hn.slot (List.getElem?_eq_getElem hl)).1⟩

theorem Numbering.slot_at {ranks : List R} {N : R → ℕ} {glob : List (R × ℕ)} (hn : Numbering ranks N glob) {i : ℕ} {p : R × ℕ} (h : glob[i]? = some p) :
    (whereEq (glob.map (·.1)) p.1)[p.2]? = some i ∧ p.2 < N p.1 := by
  have hi : i < glob.length := (List.getElem?_eq_some_iff.1 h).1
  obtain ⟨r, j, h1, h2, -⟩ := node_slot (glob.map (·.1)) (i := i) (by rw [List.length_map]; exact hi)
  have h3 := hn.slot h2
  rw [h] at h3
  have : p = (r, j) := Option.some.inj h3.1
  subst this
  exact ⟨h2, h3.2⟩

theorem joinNodes_at (glob : List (R × ℕ)) (X : R → LagField α) {k i : ℕ} {p : R × ℕ} (h : glob[i]? = some p) : joinNodes glob X k i = X p.1 k p.2 := by
  unfold joinNodes; rw [h]

theorem sameNodes_init (c : VbfCfg R α) {N : R → ℕ} {glob : List (R × ℕ)} (hn : Numbering c.ranks N glob) (X0 : R → LagField α) (t0 : α)
    (h0 : c.addrOf (joinNodes glob X0) = glob.map (·.1)) : SameNodes c N glob (nodesInit N t0) (vbfInit c (joinNodes glob X0) t0) :=
  ⟨h0, fun r => ⟨rfl, by change localCount (c.addrOf _) r = _; rw [h0, hn.count]⟩, fun _ _ _ _ _ => rfl, fun _ _ _ _ _ => rfl, fun _ _ _ _ _ => rfl,
    fun _ _ _ _ _ => rfl, fun _ _ _ _ _ => rfl, fun _ _ _ _ _ => rfl, rfl⟩

theorem sameNodes_step (c : VbfCfg R α) {N : R → ℕ} {glob : List (R × ℕ)} {s : VbfNodes R α} {v : Vbf R α} (h : SameNodes c N glob s v) (dt : α) :
    SameNodes c N glob (locStep dt s) (vbfStep dt v) := by
  refine ⟨h.addr, h.cnt, ?_, h.vel, h.lpos, h.lvel, h.force, h.gforce, ?_⟩
  · intro k hk r j hj
    change v.posM r k j + dt * v.velM r k j = s.posM r k j + dt * s.velM r k j
    rw [h.pos k hk r j hj, h.vel k hk r j hj]
  · change v.time + dt = s.time + dt
    rw [h.time]

/-- One interaction: if the default mode maps every node to the rank which has it, both modes compute the same. -/
theorem sameNodes_interact (c : VbfCfg R α) (hord : ∀ a, SlaveSet a c.m (c.ord a)) {N : R → ℕ} {glob : List (R × ℕ)} (hn : Numbering c.ranks N glob)
    {s : VbfNodes R α} {v : Vbf R α} (h : SameNodes c N glob s v) (X U : R → LagField α) {I : R → (ℕ → α) → ℕ → α} (hI : InterpOk c.d I)
    (hX : c.addrOf (joinNodes glob X) = glob.map (·.1)) :
    SameNodes c N glob (locInteract c.stiff c.damp X U I s) (vbfInteract c (joinNodes glob X) (joinNodes glob U) I v) := by
  have hflag : (c.ranks.any fun r => decide (v.cnt r ≠ localCount (c.addrOf (joinNodes glob X)) r)) = false := by
    rw [List.any_eq_false]
    intro r _
    rw [hX, hn.count, (h.cnt r).2]
    simp
  have hu : ∃ gP gV, vbfUpdateBuffers c (joinNodes glob X) v = { v with gposM := gP, gvelM := gV, addr := glob.map (·.1) } := by
    refine ⟨gatherLag c.d v.addr c.m (c.ord v.addr) v.posM c.junk v.gposM, gatherLag c.d v.addr c.m (c.ord v.addr) v.velM c.junk v.gvelM, ?_⟩
    unfold vbfUpdateBuffers
    simp only [hflag]
    rw [← hX]
    rfl
  obtain ⟨gP, gV, hu⟩ := hu
  have hsc : ∀ (Y : R → LagField α) (loc : R → LagField α), ∀ k < c.d, ∀ r, ∀ j < N r,
      scatterLag c.d (glob.map (·.1)) c.m (c.ord (glob.map (·.1))) (joinNodes glob Y) loc r k j = Y r k j := by
    intro Y loc k hk r j hj
    obtain ⟨i, h1, h2⟩ := hn.slot_of hj
    rw [scatterLag_slot c.d _ (hord _) _ _ hk h1, joinNodes_at glob Y h2]
  have hvel : ∀ k < c.d, ∀ r, ∀ j < N r, (vbfInteract c (joinNodes glob X) (joinNodes glob U) I v).velM r k j = (locInteract c.stiff c.damp X U I s).velM r k j := by
    intro k hk r j hj
    unfold vbfInteract
    rw [hu]
    change I r (fun k' => scatterLag c.d (glob.map (·.1)) c.m (c.ord (glob.map (·.1))) (joinNodes glob X) v.lpos r k' j) k -
      scatterLag c.d (glob.map (·.1)) c.m (c.ord (glob.map (·.1))) (joinNodes glob U) v.lvel r k j = I r (fun k' => X r k' j) k - U r k j
    rw [hsc U _ k hk r j hj]
    congr 1
    exact hI _ _ _ _ fun k' hk' => hsc X _ k' hk' r j hj
  have hforce : ∀ k < c.d, ∀ r, ∀ j < N r, (vbfInteract c (joinNodes glob X) (joinNodes glob U) I v).force r k j = (locInteract c.stiff c.damp X U I s).force r k j := by
    intro k hk r j hj
    have e : (vbfInteract c (joinNodes glob X) (joinNodes glob U) I v).force r k j =
        c.stiff * (vbfUpdateBuffers c (joinNodes glob X) v).posM r k j + c.damp * (vbfInteract c (joinNodes glob X) (joinNodes glob U) I v).velM r k j := rfl
    rw [e, hvel k hk r j hj, hu]
    change c.stiff * v.posM r k j + _ = c.stiff * s.posM r k j + _
    rw [h.pos k hk r j hj]
    rfl
  refine ⟨?_, ?_, ?_, hvel, ?_, ?_, hforce, ?_, ?_⟩
  · change (vbfUpdateBuffers c (joinNodes glob X) v).addr = _
    rw [hu]
  · intro r
    refine ⟨(h.cnt r).1, ?_⟩
    change (vbfUpdateBuffers c (joinNodes glob X) v).cnt r = _
    rw [hu]; exact (h.cnt r).2
  · intro k hk r j hj
    change (vbfUpdateBuffers c (joinNodes glob X) v).posM r k j = _
    rw [hu]; exact h.pos k hk r j hj
  · intro k hk r j hj
    unfold vbfInteract
    rw [hu]
    exact hsc X _ k hk r j hj
  · intro k hk r j hj
    unfold vbfInteract
    rw [hu]
    exact hsc U _ k hk r j hj
  · intro k hk i p hp
    obtain ⟨h1, h2⟩ := hn.slot_at hp
    have e : (vbfInteract c (joinNodes glob X) (joinNodes glob U) I v).gforce = gatherLag c.d (glob.map (·.1)) c.m (c.ord (glob.map (·.1)))
        (vbfInteract c (joinNodes glob X) (joinNodes glob U) I v).force c.junk v.gforce := by
      conv_lhs => unfold vbfInteract
      rw [hu]
      unfold vbfInteract
      rw [hu]
    rw [e, gatherLag_correct c.d _ (hord _) _ _ _ hk h1]
    exact hforce k hk p.1 p.2 h2
  · change (vbfUpdateBuffers c (joinNodes glob X) v).time = _
    rw [hu]; exact h.time

theorem sameNodes_run (c : VbfCfg R α) (hord : ∀ a, SlaveSet a c.m (c.ord a)) {N : R → ℕ} {glob : List (R × ℕ)} (hn : Numbering c.ranks N glob)
    (ops : List (LocOp R α)) : ∀ {s : VbfNodes R α} {v : Vbf R α}, SameNodes c N glob s v → NodesAtHome c glob ops →
    SameNodes c N glob (locRun c.stiff c.damp s ops) (vbfRun c v (ops.map (inDefaultMode glob))) := by
  induction ops with
  | nil => intro s v h _; exact h
  | cons op ops ih =>
    intro s v h hh
    cases op with
    | step dt => exact ih (sameNodes_step c h dt) hh
    | interact X U I =>
      obtain ⟨h1, h2, h3⟩ := hh
      exact ih (sameNodes_interact c hord hn h X U h2 h1) h3

/-- **C78** Nodes kept on the ranks that own them: any history of interactions and time steps with `assume_data_locality = True` gives every node the position
mismatch, velocity mismatch and force it would get in the default mode, in which all nodes are held by the master. -/
theorem vbf_locality (c : VbfCfg R α) (hord : ∀ a, SlaveSet a c.m (c.ord a)) {N : R → ℕ} {glob : List (R × ℕ)} (hn : Numbering c.ranks N glob)
    (X0 : R → LagField α) (t0 : α) (h0 : c.addrOf (joinNodes glob X0) = glob.map (·.1)) (ops : List (LocOp R α)) (hh : NodesAtHome c glob ops) :
    SameNodes c N glob (locRun c.stiff c.damp (nodesInit N t0) ops) (vbfRun c (vbfInit c (joinNodes glob X0) t0) (ops.map (inDefaultMode glob))) :=
  sameNodes_run c hord hn ops (sameNodes_init c hn X0 t0 h0) hh

/-- **C78** The force law in this mode needs no assumption about where the nodes are: in the usual loop the force on node `j` of rank `r` is stiffness times the sum of
`dt` times velocity mismatch over the rounds, plus damping times the current velocity mismatch. A node that leaves the rank's block keeps its history. -/
theorem vbf_locality_law (stiff damp : α) (N : R → ℕ) (t0 : α) (l : List (((R → LagField α) × (R → LagField α) × (R → (ℕ → α) → ℕ → α)) × α))
    (X U : R → LagField α) (I : R → (ℕ → α) → ℕ → α) (r : R) (k j : ℕ) :
    (locRun stiff damp (nodesInit N t0) (l.flatMap (fun q => [.interact q.1.1 q.1.2.1 q.1.2.2, .step q.2]) ++ [.interact X U I])).gforce r k j =
      stiff * (l.map fun q => q.2 * (q.1.2.2 r (fun k' => q.1.1 r k' j) k - q.1.2.1 r k j)).sum + damp * (I r (fun k' => X r k' j) k - U r k j) := by
  have key : ∀ (l : List (((R → LagField α) × (R → LagField α) × (R → (ℕ → α) → ℕ → α)) × α)) (s : VbfNodes R α),
      (locRun stiff damp s (l.flatMap fun q => [.interact q.1.1 q.1.2.1 q.1.2.2, .step q.2])).posM r k j =
        s.posM r k j + (l.map fun q => q.2 * (q.1.2.2 r (fun k' => q.1.1 r k' j) k - q.1.2.1 r k j)).sum := by
    intro l
    induction l with
    | nil => intro s; simp [locRun]
    | cons q l ih =>
      intro s
      have := ih (locStep q.2 (locInteract stiff damp q.1.1 q.1.2.1 q.1.2.2 s))
      rw [List.map_cons, List.sum_cons, ← add_assoc]
      exact this
  unfold locRun
  rw [List.foldl_append]
  change stiff * (locRun stiff damp (nodesInit N t0) (l.flatMap fun q => [.interact q.1.1 q.1.2.1 q.1.2.2, .step q.2])).posM r k j + _ = _
  rw [key]
  change stiff * (0 + _) + _ = _
  rw [zero_add]

end Proofs

/-! ## The deviation error in this mode -/

section
variable {R : Type} [DecidableEq R]

omit [DecidableEq R] in
/-- **C78** What the deviation error is in this mode: the root of the sum of the squared position mismatches of the nodes of all ranks over the number `n` of nodes of
the master alone; with `M` nodes on all ranks together it is the root mean square times `√(M/n)`. -/
theorem locality_deviation (d : ℕ) (ranks : List R) (n M : ℕ) (s : VbfNodes R ℝ) (r : R) (hM : M = (ranks.map s.cnt).sum) (hM0 : 0 < M) :
    locDeviation d ranks n s r =
      Real.sqrt ((ranks.map fun r => ((List.range (s.cnt r)).map fun j => ((List.range d).map fun k => s.posM r k j ^ 2).sum).sum).sum / M) *
        Real.sqrt ((M : ℝ) / n) := by
  have hsw : ∀ (l1 l2 : List ℕ) (f : ℕ → ℕ → ℝ),
      (l1.map fun k => (l2.map fun j => f k j).sum).sum = (l2.map fun j => (l1.map fun k => f k j).sum).sum := by
    intro l1 l2 f
    induction l1 with
    | nil => simp
    | cons a t ih => simp only [List.map_cons, List.sum_cons, ih]; rw [← List.sum_map_add]
  have hpos : ∀ (l1 l2 : List ℕ) (f : ℕ → ℕ → ℝ), 0 ≤ (l1.map fun k => (l2.map fun j => f k j ^ 2).sum).sum := by
    intro l1 l2 f
    apply List.sum_nonneg
    intro x hx
    obtain ⟨k, -, rfl⟩ := List.mem_map.1 hx
    apply List.sum_nonneg
    intro x hx
    obtain ⟨j, -, rfl⟩ := List.mem_map.1 hx
    positivity
  have e : (ranks.map fun r => frobNorm d (s.cnt r) (s.posM r) ^ 2) =
      ranks.map fun r => ((List.range (s.cnt r)).map fun j => ((List.range d).map fun k => s.posM r k j ^ 2).sum).sum := by
    apply List.map_congr_left
    intro q _
    unfold frobNorm
    rw [Real.sq_sqrt (hpos _ _ _), hsw]
  have hM' : (0 : ℝ) < M := by exact_mod_cast hM0
  have hS : 0 ≤ (ranks.map fun r => ((List.range (s.cnt r)).map fun j => ((List.range d).map fun k => s.posM r k j ^ 2).sum).sum).sum := by
    apply List.sum_nonneg
    intro x hx
    obtain ⟨q, -, rfl⟩ := List.mem_map.1 hx
    exact hpos _ _ _
  unfold locDeviation
  simp only
  rw [e, ← Real.sqrt_mul (div_nonneg hS hM'.le), ← Real.sqrt_div hS]
  congr 1
  field_simp

/-- **C78, negative part** Two ranks with one node each which has drifted by 1: the reported deviation error is `√2`, not the root mean square 1, because the sum over all
ranks is divided by the number of nodes of the master alone. -/
theorem locality_deviation_wrong :
    ∃ s : VbfNodes ℕ ℝ, s = locRun 1 0 (nodesInit (fun _ => 1) 0) [.interact (fun _ _ _ => 0) (fun _ _ _ => 0) (fun _ _ k => if k = 0 then 1 else 0), .step 1] ∧
      (∀ r, s.posM r 0 0 = 1 ∧ s.posM r 1 0 = 0) ∧ ∀ r, locDeviation 2 [0, 1] 1 s r = Real.sqrt 2 := by
  refine ⟨_, rfl, ?_, ?_⟩
  · intro r
    constructor <;> norm_num [locRun, locApply, locInteract, locStep, nodesInit]
  · intro r
    unfold locDeviation frobNorm
    norm_num [locRun, locApply, locInteract, locStep, nodesInit, List.range_succ]

end

/-- Three nodes: nodes 0 and 2 of the body are on rank 0, node 1 is on rank 1. -/
def exGlob : List (ℕ × ℕ) := [(0, 0), (1, 0), (0, 1)]

/-- Positions are block numbers. -/
def exLocCfg : VbfCfg ℕ ℤ :=
  { d := 2, m := 1, ranks := [0, 1], ord := fun a => (a.filter (· ≠ 1)).dedup, junk := fun _ _ => 0
    stiff := 3, damp := 2, addrOf := fun X => [(X 0 0).toNat, (X 0 1).toNat, (X 0 2).toNat] }

/-- non-vacuity: a numbering which interleaves ranks, and a history with non-zero forces -/
example : Numbering exLocCfg.ranks (fun r => if r = 0 then 2 else if r = 1 then 1 else 0) exGlob ∧ (∀ a, SlaveSet a exLocCfg.m (exLocCfg.ord a)) ∧
    NodesAtHome exLocCfg exGlob [.interact (fun r k _ => if k = 0 then r else 0) (fun _ _ j => j) (fun r x _ => 5 + r + x 0), .step 2,
      .interact (fun r k _ => if k = 0 then r else 0) (fun _ _ j => j) (fun r x _ => 5 + r + x 0)] ∧
    (locRun exLocCfg.stiff exLocCfg.damp (nodesInit (fun r : ℕ => if r = 0 then 2 else if r = 1 then 1 else 0) 0)
      [.interact (fun r k _ => if k = 0 then r else 0) (fun _ _ j => j) (fun r x _ => 5 + r + x 0), .step 2,
      .interact (fun r k _ => if k = 0 then r else 0) (fun _ _ j => j) (fun r x _ => 5 + r + x 0)]).gforce 0 1 1 = 32 := by
  refine ⟨⟨by decide, ?_⟩, fun a => ⟨List.nodup_dedup _, by intro r; simp [exLocCfg]⟩, ⟨by decide, ?_, by decide, ?_, trivial⟩, by decide⟩
  · intro r
    unfold exGlob
    by_cases h0 : r = 0
    · subst h0; decide
    · by_cases h1 : r = 1
      · subst h1; decide
      · simp [h0, h1, Ne.symm h0, Ne.symm h1]
  · intro r x y k h; simp only [h 0 (by decide)]
  · intro r x y k h; simp only [h 0 (by decide)]

/-! ## The interactors -/

section
variable {T : Cart2}

/-- Every node lies in the block of the rank that has it. -/
def AtHome2 (T : Cart2) (dx shift : ℝ) (N : C2 → ℕ) (X : C2 → LagField ℝ) : Prop := ∀ r, ∀ j < N r, InPhysBlock2 T dx shift r (X r 0 j, X r 1 j)

theorem inPhys_domain {dx shift : ℝ} (hdx : 0 < dx) {P n : ℕ} {c : ℤ} (h0 : 0 ≤ c) (h1 : c < P) {x : ℝ} (h : InPhys dx shift n c x) : InPhysDomain dx shift P n x := by
  have hn : (0 : ℝ) ≤ dx * n := mul_nonneg hdx.le (Nat.cast_nonneg n)
  have hc : (0 : ℝ) ≤ c := by exact_mod_cast h0
  have hc1 : (c : ℝ) + 1 ≤ P := by exact_mod_cast h1
  refine ⟨?_, ?_⟩
  · have := mul_nonneg hc hn; linarith [h.1]
  · have := mul_le_mul_of_nonneg_right hc1 hn; linarith [h.2]

theorem home_mapping2 {dx : ℝ} (hdx : 0 < dx) (hny : 0 < T.ny) (hnx : 0 < T.nx) {a : Ib2} {N : C2 → ℕ} {glob : List (C2 × ℕ)} (hn : Numbering (ranks2 T) N glob)
    (haN : a.N = glob.length) {X : C2 → LagField ℝ} (hX : AtHome2 T dx (a.sh dx) N X) : a.mapping T dx (joinNodes glob X) = .ok (glob.map (·.1)) := by
  have hp : ∀ (i : ℕ) p, glob[i]? = some p → InPhysBlock2 T dx (a.sh dx) p.1 (joinNodes glob X 0 i, joinNodes glob X 1 i) := by
    intro i p hi
    rw [joinNodes_at glob X hi, joinNodes_at glob X hi]
    exact hX _ _ (hn.slot_at hi).2
  have hpt : ∀ (i : ℕ), i < glob.length → (points2 a.N (joinNodes glob X))[i]? = some (joinNodes glob X 0 i, joinNodes glob X 1 i) := by
    intro i hi
    unfold points2
    rw [List.getElem?_map, List.getElem?_range (by rw [haN]; exact hi)]
    rfl
  have hlen : (points2 a.N (joinNodes glob X)).length = glob.length := by unfold points2; rw [List.length_map, List.length_range, haN]
  obtain ⟨addr, h1, h2, h3⟩ := mapping2_owner T hdx hny hnx (points2 a.N (joinNodes glob X)) (by
    intro x hx
    obtain ⟨i, hi, rfl⟩ := List.mem_iff_getElem.1 hx
    have hi' : i < glob.length := hlen ▸ hi
    have e := hpt i hi'
    rw [List.getElem?_eq_getElem hi] at e
    rw [Option.some.inj e]
    have hv := mem_ranks2.1 (hn.ranks _ (List.getElem_mem hi'))
    have hb := hp i _ (List.getElem?_eq_getElem hi')
    exact ⟨inPhys_domain hdx hv.1 hv.2.1 hb.1, inPhys_domain hdx hv.2.2.1 hv.2.2.2 hb.2⟩)
  unfold Ib2.mapping
  rw [h1]
  congr 1
  apply List.ext_getElem
  · rw [h2, hlen, List.length_map]
  · intro i hi hi'
    have hi2 : i < glob.length := by rwa [List.length_map] at hi'
    have := (h3 i _ _ (hpt i hi2) (List.getElem?_eq_getElem hi)).2.2 _ (hp i _ (List.getElem?_eq_getElem hi2))
    rw [List.getElem_map, this]

theorem flowVel2_interpOk (T : Cart2) (g : ℕ) (dx : ℝ) (a : Ib2) (vel : Fin 2 → World C2 C2 ℝ) : InterpOk 2 (flowVel2 T g dx a vel) := by
  intro r x y k h
  unfold flowVel2
  rw [h 0 (by decide), h 1 (by decide)]

/-- non-vacuity: one node on each of two ranks, in the rank's block -/
example : AtHome2 ⟨16, 8, 1, 2, 16, 4, false⟩ 1 0 (fun r => if r = (0, 0) ∨ r = (0, 1) then 1 else 0)
    (fun r k _ => if k = 0 then (if r = (0, 0) then 3.7 else 4.2) else 5.5) := by
  intro r j hj
  by_cases h0 : r = (0, 0)
  · subst h0
    unfold InPhysBlock2 InPhys; norm_num
  · by_cases h1 : r = (0, 1)
    · subst h1
      unfold InPhysBlock2 InPhys; norm_num
    · simp [h0, h1] at hj

/-- Both modes hold the same: node data and receive buffers. -/
structure SameIb2 (T : Cart2) (dx : ℝ) (a : Ib2) (N : C2 → ℕ) (glob : List (C2 × ℕ)) (b : LocSt2) (b' : IbSt2) : Prop where
  v : SameNodes (a.vbf T dx) N glob b.v b'.v
  row : b'.row = b.row
  col : b'.col = b.col

/-- **C78** (2D) Construction: with the nodes at home both modes can be constructed or neither can, and they hold the same. -/
theorem ibInit2_locality {dx : ℝ} (hdx : 0 < dx) (hny : 0 < T.ny) (hnx : 0 < T.nx) (g : ℕ) {a : Ib2} {N : C2 → ℕ} {glob : List (C2 × ℕ)}
    (hn : Numbering (ranks2 T) N glob) (haN : a.N = glob.length) {X0 : C2 → LagField ℝ} (hX : AtHome2 T dx (a.sh dx) N X0) (t0 : ℝ) :
    (∀ e, locIbInit2 g a N t0 = .error e ↔ ibInit2 T g dx a (joinNodes glob X0) t0 = .error e) ∧
    ∀ b, locIbInit2 g a N t0 = .ok b → ∃ b', ibInit2 T g dx a (joinNodes glob X0) t0 = .ok b' ∧ SameIb2 T dx a N glob b b' := by
  have hm := home_mapping2 hdx hny hnx hn haN hX
  unfold locIbInit2 ibInit2
  rw [hm]
  cases vbfCheck 2 (a.w : ℤ) g <;> cases elCheck 2 g a.w 2 "cosine" <;> simp only [bind, Except.bind, reduceCtorEq, iff_self, implies_true, true_and, false_implies]
  · exact ⟨fun _ => by simp only [Except.error.injEq], trivial⟩
  · exact ⟨fun _ => by simp only [Except.error.injEq], trivial⟩
  · exact ⟨fun _ => by simp only [Except.error.injEq], trivial⟩
  · intro b hb
    cases hb
    refine ⟨_, rfl, sameNodes_init (a.vbf T dx) hn X0 t0 ?_, rfl, rfl⟩
    change okOr [] (a.mapping T dx _) = _
    rw [hm]; rfl

theorem spread2_locality {dx : ℝ} {a : Ib2} {N : C2 → ℕ} {glob : List (C2 × ℕ)} {b : LocSt2} {b' : IbSt2} (h : SameIb2 T dx a N glob b b') (g : ℕ)
    (f : Fin 2 → World C2 C2 ℝ) : (spreadForces2 T g dx a b' f).2 = (locSpread2 T g dx a b f).2 ∧ SameIb2 T dx a N glob (locSpread2 T g dx a b f).1 (spreadForces2 T g dx a b' f).1 := by
  have hnodes : ∀ (r : C2) (k : Fin 2), rankNodes2 b'.v r k.1 = locNodes2 b.v r k.1 := by
    intro r k
    unfold rankNodes2 locNodes2
    rw [(h.v.cnt r).1, (h.v.cnt r).2]
    apply List.map_congr_left
    intro j hj
    have hj' := List.mem_range.1 hj
    rw [h.v.lpos 0 (by decide : 0 < 2) r j hj', h.v.lpos 1 (by decide : 1 < 2) r j hj', h.v.force k.1 k.2 r j hj']
  unfold spreadForces2 locSpread2
  simp only [hnodes, h.row, h.col]
  exact ⟨trivial, h.v, rfl, rfl⟩

/-- **C78** (2D) The force computation alone (`compute_interaction_on_lag_grid`, from which the body gets its forces). -/
theorem lagInteract2_locality {C : Cfg2} (hdx : 0 < simDx2 T C.xr) (hny : 0 < T.ny) (hnx : 0 < T.nx) {a : Ib2} (hord : ∀ l, SlaveSet l a.m (a.ord l)) {N : C2 → ℕ}
    {glob : List (C2 × ℕ)} (hn : Numbering (ranks2 T) N glob) (haN : a.N = glob.length) (s : List Ev) {X : C2 → LagField ℝ} (U : C2 → LagField ℝ)
    (hX : AtHome2 T (simDx2 T C.xr) (a.sh (simDx2 T C.xr)) N X) (S : Sim2 T) {b : LocSt2} {b' : IbSt2} (h : SameIb2 T (simDx2 T C.xr) a N glob b b') :
    ∃ b1, lagInteract2 C a s (joinNodes glob X) (joinNodes glob U) S b' = .ok ((locLagInteract2 C a s X U S b).1, b1) ∧
      SameIb2 T (simDx2 T C.xr) a N glob (locLagInteract2 C a s X U S b).2 b1 := by
  have hm := home_mapping2 hdx hny hnx hn haN hX
  have ha : (a.vbf T (simDx2 T C.xr)).addrOf (joinNodes glob X) = glob.map (·.1) := by
    change okOr [] (a.mapping T _ _) = _
    rw [hm]; rfl
  unfold lagInteract2 locLagInteract2
  simp only [hm]
  exact ⟨_, rfl, sameNodes_interact (a.vbf T (simDx2 T C.xr)) hord hn h.v X U (flowVel2_interpOk T C.g (simDx2 T C.xr) a _) ha, h.row, h.col⟩

/-- **C78** (2D) One call of the interactor: with every node in the block of the rank that has it, data-local mode gives the same flow (forcing field included) and the same
node data as the default mode, in which nothing aborts. -/
theorem fullInteract2_locality {C : Cfg2} (hdx : 0 < simDx2 T C.xr) (hny : 0 < T.ny) (hnx : 0 < T.nx) {a : Ib2} (hord : ∀ l, SlaveSet l a.m (a.ord l)) {N : C2 → ℕ}
    {glob : List (C2 × ℕ)} (hn : Numbering (ranks2 T) N glob) (haN : a.N = glob.length) (s : List Ev) {X : C2 → LagField ℝ} (U : C2 → LagField ℝ)
    (hX : AtHome2 T (simDx2 T C.xr) (a.sh (simDx2 T C.xr)) N X) (S : Sim2 T) {b : LocSt2} {b' : IbSt2} (h : SameIb2 T (simDx2 T C.xr) a N glob b b') :
    ∃ b1, fullInteract2 C a s (joinNodes glob X) (joinNodes glob U) S b' = .ok ((locFullInteract2 C a s X U S b).1, b1) ∧
      SameIb2 T (simDx2 T C.xr) a N glob (locFullInteract2 C a s X U S b).2 b1 := by
  obtain ⟨b1, h1, h2⟩ := lagInteract2_locality hdx hny hnx hord hn haN s U hX (if a.reset then { S with forcing := fun _ _ _ => 0 } else S) h
  obtain ⟨h3, h4⟩ := spread2_locality h2 C.g (locLagInteract2 C a s X U (if a.reset then { S with forcing := fun _ _ _ => 0 } else S) b).1.forcing
  unfold fullInteract2 locFullInteract2
  simp only [h1]
  rw [h3]
  exact ⟨_, rfl, h4⟩

end

section
variable {T : Cart3}

/-- Every node lies in the block of the rank that has it. -/
def AtHome3 (T : Cart3) (dx shift : ℝ) (N : C3 → ℕ) (X : C3 → LagField ℝ) : Prop := ∀ r, ∀ j < N r, InPhysBlock3 T dx shift r (X r 0 j, X r 1 j, X r 2 j)

theorem home_mapping3 {dx : ℝ} (hdx : 0 < dx) (hnz : 0 < T.nz) (hny : 0 < T.ny) (hnx : 0 < T.nx) {a : Ib3} {N : C3 → ℕ} {glob : List (C3 × ℕ)} (hn : Numbering (ranks3 T) N glob)
    (haN : a.N = glob.length) {X : C3 → LagField ℝ} (hX : AtHome3 T dx (a.sh dx) N X) : a.mapping T dx (joinNodes glob X) = .ok (glob.map (·.1)) := by
  have hp : ∀ (i : ℕ) p, glob[i]? = some p → InPhysBlock3 T dx (a.sh dx) p.1 (joinNodes glob X 0 i, joinNodes glob X 1 i, joinNodes glob X 2 i) := by
    intro i p hi
    rw [joinNodes_at glob X hi, joinNodes_at glob X hi, joinNodes_at glob X hi]
    exact hX _ _ (hn.slot_at hi).2
  have hpt : ∀ (i : ℕ), i < glob.length → (points3 a.N (joinNodes glob X))[i]? = some (joinNodes glob X 0 i, joinNodes glob X 1 i, joinNodes glob X 2 i) := by
    intro i hi
    unfold points3
    rw [List.getElem?_map, List.getElem?_range (by rw [haN]; exact hi)]
    rfl
  have hlen : (points3 a.N (joinNodes glob X)).length = glob.length := by unfold points3; rw [List.length_map, List.length_range, haN]
  obtain ⟨addr, h1, h2, h3⟩ := mapping3_owner T hdx hnz hny hnx (points3 a.N (joinNodes glob X)) (by
    intro x hx
    obtain ⟨i, hi, rfl⟩ := List.mem_iff_getElem.1 hx
    have hi' : i < glob.length := hlen ▸ hi
    have e := hpt i hi'
    rw [List.getElem?_eq_getElem hi] at e
    rw [Option.some.inj e]
    have hv := mem_ranks3.1 (hn.ranks _ (List.getElem_mem hi'))
    have hb := hp i _ (List.getElem?_eq_getElem hi')
    exact ⟨inPhys_domain hdx hv.1 hv.2.1 hb.1, inPhys_domain hdx hv.2.2.1 hv.2.2.2.1 hb.2.1, inPhys_domain hdx hv.2.2.2.2.1 hv.2.2.2.2.2 hb.2.2⟩)
  unfold Ib3.mapping
  rw [h1]
  congr 1
  apply List.ext_getElem
  · rw [h2, hlen, List.length_map]
  · intro i hi hi'
    have hi2 : i < glob.length := by rwa [List.length_map] at hi'
    have := (h3 i _ _ (hpt i hi2) (List.getElem?_eq_getElem hi)).2.2 _ (hp i _ (List.getElem?_eq_getElem hi2))
    rw [List.getElem_map, this]

theorem flowVel3_interpOk (T : Cart3) (g : ℕ) (dx : ℝ) (a : Ib3) (vel : Fin 3 → World C3 C3 ℝ) : InterpOk 3 (flowVel3 T g dx a vel) := by
  intro r x y k h
  unfold flowVel3
  rw [h 0 (by decide), h 1 (by decide), h 2 (by decide)]

/-- Both modes hold the same: node data and receive buffers. -/
structure SameIb3 (T : Cart3) (dx : ℝ) (a : Ib3) (N : C3 → ℕ) (glob : List (C3 × ℕ)) (b : LocSt3) (b' : IbSt3) : Prop where
  v : SameNodes (a.vbf T dx) N glob b.v b'.v
  bz : b'.bz = b.bz
  by' : b'.by' = b.by'
  bx : b'.bx = b.bx

/-- **C78** (3D) Construction: with the nodes at home both modes can be constructed or neither can, and they hold the same. -/
theorem ibInit3_locality {dx : ℝ} (hdx : 0 < dx) (hnz : 0 < T.nz) (hny : 0 < T.ny) (hnx : 0 < T.nx) (g : ℕ) {a : Ib3} {N : C3 → ℕ} {glob : List (C3 × ℕ)}
    (hn : Numbering (ranks3 T) N glob) (haN : a.N = glob.length) {X0 : C3 → LagField ℝ} (hX : AtHome3 T dx (a.sh dx) N X0) (t0 : ℝ) :
    (∀ e, locIbInit3 g a N t0 = .error e ↔ ibInit3 T g dx a (joinNodes glob X0) t0 = .error e) ∧
    ∀ b, locIbInit3 g a N t0 = .ok b → ∃ b', ibInit3 T g dx a (joinNodes glob X0) t0 = .ok b' ∧ SameIb3 T dx a N glob b b' := by
  have hm := home_mapping3 hdx hnz hny hnx hn haN hX
  unfold locIbInit3 ibInit3
  rw [hm]
  cases vbfCheck 3 (a.w : ℤ) g <;> cases elCheck 3 g a.w 3 "cosine" <;> simp only [bind, Except.bind, reduceCtorEq, iff_self, implies_true, true_and, false_implies]
  · exact ⟨fun _ => by simp only [Except.error.injEq], trivial⟩
  · exact ⟨fun _ => by simp only [Except.error.injEq], trivial⟩
  · exact ⟨fun _ => by simp only [Except.error.injEq], trivial⟩
  · intro b hb
    cases hb
    refine ⟨_, rfl, sameNodes_init (a.vbf T dx) hn X0 t0 ?_, rfl, rfl, rfl⟩
    change okOr [] (a.mapping T dx _) = _
    rw [hm]; rfl

theorem spread3_locality {dx : ℝ} {a : Ib3} {N : C3 → ℕ} {glob : List (C3 × ℕ)} {b : LocSt3} {b' : IbSt3} (h : SameIb3 T dx a N glob b b') (g : ℕ)
    (f : Fin 3 → World C3 C3 ℝ) : (spreadForces3 T g dx a b' f).2 = (locSpread3 T g dx a b f).2 ∧ SameIb3 T dx a N glob (locSpread3 T g dx a b f).1 (spreadForces3 T g dx a b' f).1 := by
  have hnodes : ∀ (r : C3) (k : Fin 3), rankNodes3 b'.v r k.1 = locNodes3 b.v r k.1 := by
    intro r k
    unfold rankNodes3 locNodes3
    rw [(h.v.cnt r).1, (h.v.cnt r).2]
    apply List.map_congr_left
    intro j hj
    have hj' := List.mem_range.1 hj
    rw [h.v.lpos 0 (by decide : 0 < 3) r j hj', h.v.lpos 1 (by decide : 1 < 3) r j hj', h.v.lpos 2 (by decide : 2 < 3) r j hj', h.v.force k.1 k.2 r j hj']
  unfold spreadForces3 locSpread3
  simp only [hnodes, h.bz, h.by', h.bx]
  exact ⟨trivial, h.v, rfl, rfl, rfl⟩

/-- **C78** (3D) The force computation alone (`compute_interaction_on_lag_grid`, from which the body gets its forces). -/
theorem lagInteract3_locality {C : Cfg3} (hdx : 0 < simDx3 T C.xr) (hnz : 0 < T.nz) (hny : 0 < T.ny) (hnx : 0 < T.nx) {a : Ib3} (hord : ∀ l, SlaveSet l a.m (a.ord l)) {N : C3 → ℕ}
    {glob : List (C3 × ℕ)} (hn : Numbering (ranks3 T) N glob) (haN : a.N = glob.length) (s : List Ev) {X : C3 → LagField ℝ} (U : C3 → LagField ℝ)
    (hX : AtHome3 T (simDx3 T C.xr) (a.sh (simDx3 T C.xr)) N X) (S : Sim3 T) {b : LocSt3} {b' : IbSt3} (h : SameIb3 T (simDx3 T C.xr) a N glob b b') :
    ∃ b1, lagInteract3 C a s (joinNodes glob X) (joinNodes glob U) S b' = .ok ((locLagInteract3 C a s X U S b).1, b1) ∧
      SameIb3 T (simDx3 T C.xr) a N glob (locLagInteract3 C a s X U S b).2 b1 := by
  have hm := home_mapping3 hdx hnz hny hnx hn haN hX
  have ha : (a.vbf T (simDx3 T C.xr)).addrOf (joinNodes glob X) = glob.map (·.1) := by
    change okOr [] (a.mapping T _ _) = _
    rw [hm]; rfl
  unfold lagInteract3 locLagInteract3
  simp only [hm]
  exact ⟨_, rfl, sameNodes_interact (a.vbf T (simDx3 T C.xr)) hord hn h.v X U (flowVel3_interpOk T C.g (simDx3 T C.xr) a _) ha, h.bz, h.by', h.bx⟩

/-- **C78** (3D) One call of the interactor: with every node in the block of the rank that has it, data-local mode gives the same flow (forcing field included) and the same
node data as the default mode, in which nothing aborts. -/
theorem fullInteract3_locality {C : Cfg3} (hdx : 0 < simDx3 T C.xr) (hnz : 0 < T.nz) (hny : 0 < T.ny) (hnx : 0 < T.nx) {a : Ib3} (hord : ∀ l, SlaveSet l a.m (a.ord l)) {N : C3 → ℕ}
    {glob : List (C3 × ℕ)} (hn : Numbering (ranks3 T) N glob) (haN : a.N = glob.length) (s : List Ev) {X : C3 → LagField ℝ} (U : C3 → LagField ℝ)
    (hX : AtHome3 T (simDx3 T C.xr) (a.sh (simDx3 T C.xr)) N X) (S : Sim3 T) {b : LocSt3} {b' : IbSt3} (h : SameIb3 T (simDx3 T C.xr) a N glob b b') :
    ∃ b1, fullInteract3 C a s (joinNodes glob X) (joinNodes glob U) S b' = .ok ((locFullInteract3 C a s X U S b).1, b1) ∧
      SameIb3 T (simDx3 T C.xr) a N glob (locFullInteract3 C a s X U S b).2 b1 := by
  obtain ⟨b1, h1, h2⟩ := lagInteract3_locality hdx hnz hny hnx hord hn haN s U hX (if a.reset then { S with forcing := fun _ _ _ => 0 } else S) h
  obtain ⟨h3, h4⟩ := spread3_locality h2 C.g (locLagInteract3 C a s X U (if a.reset then { S with forcing := fun _ _ _ => 0 } else S) b).1.forcing
  unfold fullInteract3 locFullInteract3
  simp only [h1]
  rw [h3]
  exact ⟨_, rfl, h4⟩

end

end Sopht
