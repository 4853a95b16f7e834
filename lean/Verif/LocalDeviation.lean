import Verif.VbfProps

/-!
# The deviation error of one rank (C88)

`get_grid_deviation_error_l2_norm(compute_global=False)` (`sopht_mpi/simulator/immersed_body/immersed_body_flow_interaction_mpi.py:177-186`).
-/

namespace Sopht

/-- A number as NumPy returns it. -/
inductive NpNum where
  | fin (x : ℝ)
  | inf
  | negInf
  | nan

/-- `a / b` of NumPy numbers, `b` not a negative zero: no exception, but infinity or not-a-number if `b` is zero. -/
noncomputable def npDiv (a b : ℝ) : NpNum := if b = 0 then if a = 0 then .nan else if 0 < a then .inf else .negInf else .fin (a / b)

section
variable {R : Type} [DecidableEq R]

/-- `forcing_grid.num_lag_nodes` of rank `r`: the body is known to the master only, the others have an `EmptyForcingGrid` (immersed_body_forcing_grid.py:11-12,
rigid_body_flow_interaction_mpi.py:38-46, cosserat_rod_flow_interaction_mpi.py:42-50). -/
def numNodesOf (m : R) (N : ℕ) (r : R) : ℕ := if r = m then N else 0

/-- `get_grid_deviation_error_l2_norm(compute_global=False)` on rank `r` (immersed_body_flow_interaction_mpi.py:182-186). -/
noncomputable def localDeviation (d : ℕ) (m : R) (N : ℕ) (s : Vbf R ℝ) (r : R) : NpNum := npDiv (frobNorm d (s.cnt r) (s.posM r)) (Real.sqrt (numNodesOf m N r))

/-! ## Specification: the nodes of a rank -/

/-- The sum of the squares of the position mismatches of the nodes on rank `r`. -/
noncomputable def rankSquares (d N : ℕ) (addr : List R) (h : NodeHist ℝ) (r : R) : ℝ :=
  ∑ i ∈ (Finset.range N).filter (fun i => addr[i]? = some r), ∑ k ∈ Finset.range d, h.P k i ^ 2

theorem frobNorm_rank {c : VbfCfg R ℝ} {N : ℕ} {s : Vbf R ℝ} {h : NodeHist ℝ} (hs : Stores c N s h) {r : R} (hr : r ∈ c.ranks) :
    frobNorm c.d (s.cnt r) (s.posM r) = Real.sqrt (rankSquares c.d N s.addr h r) := by
  have hsw : ∀ (l1 l2 : List ℕ) (f : ℕ → ℕ → ℝ),
      (l1.map fun k => (l2.map fun j => f k j).sum).sum = (l2.map fun j => (l1.map fun k => f k j).sum).sum := by
    intro l1 l2 f
    induction l1 with
    | nil => simp
    | cons a t ih => simp only [List.map_cons, List.sum_cons, ih]; rw [← List.sum_map_add]
  unfold frobNorm rankSquares
  congr 1
  rw [hsw, hs.cnt r hr]
  have e : ((List.range (localCount s.addr r)).map fun j => ((List.range c.d).map fun k => s.posM r k j ^ 2).sum).sum =
      ((whereEq s.addr r).map fun i => ((List.range c.d).map fun k => h.P k i ^ 2).sum).sum := by
    apply sum_whereEq
    intro j i hij
    congr 1
    apply List.map_congr_left
    intro k hk
    rw [hs.pos k (List.mem_range.1 hk) r j i hij]
  rw [e]
  have hf : (Finset.range N).filter (fun i => s.addr[i]? = some r) = (whereEq s.addr r).toFinset := by
    ext i
    simp only [Finset.mem_filter, Finset.mem_range, List.mem_toFinset, mem_whereEq]
    constructor
    · exact fun h => h.2
    · intro h
      refine ⟨?_, h⟩
      rw [← hs.addr.1]
      exact (List.getElem?_eq_some_iff.1 h).1
  have hn : (whereEq s.addr r).Nodup := by
    unfold whereEq
    exact List.Nodup.filter _ List.nodup_range
  rw [hf, List.sum_toFinset _ hn]
  congr 1

/-- **C88** On the master the rank-local deviation error is the square root of the sum of the squared mismatches of its own nodes over the number of all nodes. -/
theorem localDeviation_master {c : VbfCfg R ℝ} {N : ℕ} (hN : 0 < N) {s : Vbf R ℝ} {h : NodeHist ℝ} (hs : Stores c N s h) (hm : c.m ∈ c.ranks) :
    localDeviation c.d c.m N s c.m = .fin (Real.sqrt (rankSquares c.d N s.addr h c.m / N)) := by
  have hN' : (0 : ℝ) < N := by exact_mod_cast hN
  have h0 : Real.sqrt (N : ℝ) ≠ 0 := (Real.sqrt_pos.2 hN').ne'
  unfold localDeviation npDiv numNodesOf
  rw [if_pos rfl, if_neg h0, frobNorm_rank hs hm, Real.sqrt_div' _ hN'.le]

theorem rankSquares_nonneg (d N : ℕ) (addr : List R) (h : NodeHist ℝ) (r : R) : 0 ≤ rankSquares d N addr h r :=
  Finset.sum_nonneg fun _ _ => Finset.sum_nonneg fun _ _ => sq_nonneg _

theorem rankSquares_zero {d N : ℕ} {addr : List R} {h : NodeHist ℝ} {r : R} :
    rankSquares d N addr h r = 0 ↔ ∀ i < N, addr[i]? = some r → ∀ k < d, h.P k i = 0 := by
  unfold rankSquares
  rw [Finset.sum_eq_zero_iff_of_nonneg fun _ _ => Finset.sum_nonneg fun _ _ => sq_nonneg _]
  constructor
  · intro H i hi ha k hk
    have := H i (Finset.mem_filter.2 ⟨Finset.mem_range.2 hi, ha⟩)
    rw [Finset.sum_eq_zero_iff_of_nonneg fun _ _ => sq_nonneg _] at this
    exact pow_eq_zero_iff (two_ne_zero) |>.1 (this k (Finset.mem_range.2 hk))
  · intro H i hi
    obtain ⟨h1, h2⟩ := Finset.mem_filter.1 hi
    refine Finset.sum_eq_zero fun k hk => ?_
    rw [H i (Finset.mem_range.1 h1) h2 k (Finset.mem_range.1 hk)]
    norm_num

/-- **C88, negative part** On every other rank no number is returned: infinity if one of its nodes has deviated, not-a-number if none has or the rank has no nodes. -/
theorem localDeviation_others {c : VbfCfg R ℝ} {N : ℕ} {s : Vbf R ℝ} {h : NodeHist ℝ} (hs : Stores c N s h) {r : R} (hr : r ∈ c.ranks) (hrm : r ≠ c.m) :
    ((∀ i < N, s.addr[i]? = some r → ∀ k < c.d, h.P k i = 0) → localDeviation c.d c.m N s r = .nan) ∧
    ((∃ i < N, s.addr[i]? = some r ∧ ∃ k < c.d, h.P k i ≠ 0) → localDeviation c.d c.m N s r = .inf) := by
  have e : localDeviation c.d c.m N s r = if Real.sqrt (rankSquares c.d N s.addr h r) = 0 then .nan else
      if 0 < Real.sqrt (rankSquares c.d N s.addr h r) then .inf else .negInf := by
    unfold localDeviation npDiv numNodesOf
    rw [if_neg hrm, frobNorm_rank hs hr, if_pos (by simp)]
  constructor
  · intro H
    rw [e, if_pos]
    rw [rankSquares_zero.2 H, Real.sqrt_zero]
  · rintro ⟨i, hi, ha, k, hk, hne⟩
    have hpos : 0 < Real.sqrt (rankSquares c.d N s.addr h r) := by
      refine Real.sqrt_pos.2 (lt_of_le_of_ne (rankSquares_nonneg _ _ _ _ _) fun h0 => ?_)
      exact hne (rankSquares_zero.1 h0.symm i hi ha k hk)
    rw [e, if_neg hpos.ne', if_pos hpos]

/-- If all nodes are on the master it is the global deviation error (C56). -/
theorem localDeviation_alone {c : VbfCfg R ℝ} (hn : c.ranks.Nodup) {N : ℕ} (hN : 0 < N) {s : Vbf R ℝ} {h : NodeHist ℝ} (hs : Stores c N s h) (hm : c.m ∈ c.ranks)
    (ha : ∀ i < N, s.addr[i]? = some c.m) (r : R) : localDeviation c.d c.m N s c.m = .fin (gridDeviation c.d c.ranks N s r) := by
  rw [localDeviation_master hN hs hm, gridDeviation_rms c hn hs r]
  congr 3
  unfold rankSquares
  rw [Finset.filter_true_of_mem fun i hi => ha i (Finset.mem_range.1 hi), ← List.sum_toFinset _ List.nodup_range]
  rw [List.toFinset_range]
  refine Finset.sum_congr rfl fun i _ => ?_
  rw [← List.sum_toFinset _ List.nodup_range, List.toFinset_range]

/-- Two ranks with one node each; rank 0 is the master. -/
def exDevCfg : VbfCfg ℕ ℝ :=
  { d := 2, m := 0, ranks := [0, 1], ord := fun a => (a.filter (· ≠ 0)).dedup, junk := fun _ _ => 0, stiff := 1, damp := 0, addrOf := fun _ => [0, 1] }

/-- The flow runs in the first direction, the body does not move. -/
def exDevOps : List (VbfOp ℕ ℝ) := [.interact (fun _ _ => 0) (fun _ _ => 0) (fun _ _ k => if k = 0 then 1 else 0), .step 1]

theorem exDev_stores : Stores exDevCfg 2 (vbfRun exDevCfg (vbfInit exDevCfg (fun _ _ => 0) 0) exDevOps) (exDevOps.foldl (nodeApply exDevCfg) (nodeInit 0)) := by
  refine vbf_history exDevCfg (fun a => ⟨List.nodup_dedup _, by intro r; simp [exDevCfg]⟩) _ 0 ⟨rfl, by decide⟩ _ ⟨⟨rfl, by decide⟩, fun _ _ _ _ _ => rfl, Or.inl rfl, trivial⟩

theorem exDev_P (k i : ℕ) (hi : i < 2) : (exDevOps.foldl (nodeApply exDevCfg) (nodeInit 0)).P k i = if k = 0 then 1 else 0 := by
  have : i = 0 ∨ i = 1 := by omega
  rcases this with rfl | rfl <;> simp [exDevOps, nodeApply, nodeInit, flowAt, exDevCfg]

/-- Both nodes drift by 1: after one interaction and one time step the master reports `√(1/2)`, the other rank infinity; before, the other rank reports not-a-number. -/
example : localDeviation 2 0 2 (vbfRun exDevCfg (vbfInit exDevCfg (fun _ _ => 0) 0) exDevOps) 0 = .fin (Real.sqrt (1 / 2)) ∧
    localDeviation 2 0 2 (vbfRun exDevCfg (vbfInit exDevCfg (fun _ _ => 0) 0) exDevOps) 1 = .inf ∧
    localDeviation 2 0 2 (vbfInit exDevCfg (fun _ _ => 0) 0) 1 = .nan := by
  have ha : (vbfRun exDevCfg (vbfInit exDevCfg (fun _ _ => 0) 0) exDevOps).addr = [0, 1] := rfl
  refine ⟨?_, ?_, ?_⟩
  · refine (localDeviation_master (c := exDevCfg) (by norm_num) exDev_stores (by decide)).trans ?_
    have : rankSquares exDevCfg.d 2 (vbfRun exDevCfg (vbfInit exDevCfg (fun _ _ => 0) 0) exDevOps).addr (exDevOps.foldl (nodeApply exDevCfg) (nodeInit 0)) exDevCfg.m = 1 := by
      unfold rankSquares
      rw [ha, show (Finset.range 2).filter (fun i => ([0, 1] : List ℕ)[i]? = some exDevCfg.m) = {0} by decide, Finset.sum_singleton]
      change ∑ k ∈ Finset.range 2, _ = _
      simp only [exDev_P _ 0 (by norm_num), Finset.sum_range_succ, Finset.sum_range_zero]
      norm_num
    rw [this]
    norm_num
  · refine (localDeviation_others (c := exDevCfg) exDev_stores (r := 1) (by decide) (by decide)).2 ⟨1, by norm_num, by rw [ha]; rfl, 0, by decide, ?_⟩
    rw [exDev_P 0 1 (by norm_num)]
    norm_num
  · exact (localDeviation_others (c := exDevCfg) (init_stores exDevCfg (fun _ _ => 0) 0 (N := 2) ⟨rfl, by decide⟩) (r := 1) (by decide) (by decide)).1 fun _ _ _ _ _ => rfl

end

end Sopht
