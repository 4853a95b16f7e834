import Verif.Interactor3D
import Verif.InteractorLemmas
import Verif.Sim3DRun
import Verif.Interactor2DProps

/-! # Flow with immersed bodies does not depend on the decomposition, 3D (C70) -/

namespace Sopht

set_option linter.unusedSimpArgs false

/-! ## Specification: one grid, one record per node -/

/-- Flow fields, forcing, time, node records and last mapped positions of the bodies, what was printed, and whether the ghost cells of the velocity have been
exchanged since it changed last. -/
structure RefC3 (B : Type) where
  F : Fields3
  Φ : Fin 3 → C3 → ℝ
  time : ℝ
  hist : B → NodeHist ℝ
  lastX : B → LagField ℝ
  log : List ℝ
  fresh : Bool

/-- Flow velocity at a node, minus the velocity of the node. -/
noncomputable def mismatch3 (dx : ℝ) (a : Ib3) (u : Fin 3 → C3 → ℝ) (X U : LagField ℝ) (k i : ℕ) : ℝ :=
  interp3 dx (a.sh dx) 2 (cosW3 dx) (u (axis3 k)) (X 0 i, X 1 i, X 2 i) - U k i

/-- The record of every node after the forces were computed: stiffness times accumulated displacement plus damping times velocity mismatch, both coefficients
times the square of the spacing of the nodes. -/
noncomputable def refLag3 (dx : ℝ) (a : Ib3) (u : Fin 3 → C3 → ℝ) (X U : LagField ℝ) (h : NodeHist ℝ) : NodeHist ℝ :=
  { P := h.P, V := mismatch3 dx a u X U, t := h.t,
    F := fun k i => a.stiff * a.lagDx ^ 2 * h.P k i + a.damp * a.lagDx ^ 2 * mismatch3 dx a u X U k i }

/-- The forcing after the forces of the nodes were spread. -/
noncomputable def refSpread3 (dx : ℝ) (a : Ib3) (X : LagField ℝ) (f : LagField ℝ) (Φ : Fin 3 → C3 → ℝ) : Fin 3 → C3 → ℝ := fun j G =>
  (if a.reset then 0 else Φ j G) + ((List.range a.N).map fun i => share3n dx (a.sh dx) 2 (cosW3 dx) G ((X 0 i, X 1 i, X 2 i), f j.1 i)).sum

variable {B : Type} [DecidableEq B]

/-- `compute_flow_forces_and_torques` -/
noncomputable def refForces3 (dx : ℝ) (a : Ib3) (b : B) (X U : LagField ℝ) (r : RefC3 B) : RefC3 B :=
  { r with hist := Function.update r.hist b (refLag3 dx a r.F.u X U (r.hist b)), lastX := Function.update r.lastX b X, fresh := a.auto || r.fresh }

/-- the full interaction -/
noncomputable def refFull3 (dx : ℝ) (a : Ib3) (b : B) (X U : LagField ℝ) (r : RefC3 B) : RefC3 B :=
  { refForces3 dx a b X U r with Φ := refSpread3 dx a X (refLag3 dx a r.F.u X U (r.hist b)).F r.Φ }

/-- Forces on the nodes of a body. -/
def refForceField3 (N : ℕ) (h : NodeHist ℝ) : LagField ℝ := fun k i => if k < 3 ∧ i < N then h.F k i else 0

/-- L2 norm of the divergence of the vorticity. -/
noncomputable def refDiv3 (P : Params3) (K : Kern3) (om : Fin 3 → C3 → ℝ) : ℝ :=
  Real.sqrt (∑ G ∈ cells3 P.gz P.gy P.gx, serialZero3 P.gz P.gy P.gx false 0 (K.div (1 / P.dx)) om G ^ 2) * P.dx ^ (1.5 : ℝ)

/-- The driver on the global grid. -/
noncomputable def cRef3 (P : Params3) (K : Kern3) (cfl tol : ℝ) (A : B → Ib3) : Prog3 B → RefC3 B → RefC3 B
  | .stop, r => r
  | .interact b X U k, r => cRef3 P K cfl tol A k (refFull3 P.dx (A b) b X U r)
  | .forces b X U k, r => cRef3 P K cfl tol A (k (refForceField3 (A b).N (refLag3 P.dx (A b) r.F.u X U (r.hist b)))) (refForces3 P.dx (A b) b X U r)
  | .advance b dt k, r => cRef3 P K cfl tol A k
      { r with hist := Function.update r.hist b { r.hist b with P := fun k i => (r.hist b).P k i + dt * (r.hist b).V k i, t := (r.hist b).t + dt } }
  | .flow dt fs k, r => cRef3 P K cfl tol A k
      { r with F := refForcing3 P K dt fs r.Φ r.F, Φ := fun _ _ => 0, time := r.time + dt, fresh := false }
  | .stableDt pre k, r => cRef3 P K cfl tol A (k (refDt3 P cfl tol r.F (.stable pre))) r
  | .deviation b k, r => cRef3 P K cfl tol A (k (refDeviation 3 (A b).N (r.hist b))) r
  | .maxVort k, r => cRef3 P K cfl tol A (k (sSup {x | ∃ j G, Dom3 P.gz P.gy P.gx G ∧ x = r.F.om j G})) r
  | .divNorm k, r => cRef3 P K cfl tol A (k (refDiv3 P K r.F.om)) r
  | .ghost k, r => cRef3 P K cfl tol A k { r with fresh := true }
  | .out x k, r => cRef3 P K cfl tol A k { r with log := r.log ++ [x] }

/-- All cells around all nodes are at least `k` cells inside the domain. -/
def Inside3 (gz gy gx k : ℕ) (dx : ℝ) (a : Ib3) (X : LagField ℝ) : Prop :=
  ∀ i < a.N, ∀ G ∈ window3 dx (a.sh dx) 2 (X 0 i, X 1 i, X 2 i), Away3 gz gy gx k G

/-- Along the run: bodies stay inside the domain, off its outermost cells when they force the flow; an interactor without automatic ghost exchange is only
used while the ghost cells of the velocity are up to date. -/
def Proper3 (P : Params3) (K : Kern3) (cfl tol : ℝ) (A : B → Ib3) : Prog3 B → RefC3 B → Prop
  | .stop, _ => True
  | .interact b X U k, r => Inside3 P.gz P.gy P.gx 1 P.dx (A b) X ∧ ((A b).auto = true ∨ r.fresh = true) ∧
      Proper3 P K cfl tol A k (refFull3 P.dx (A b) b X U r)
  | .forces b X U k, r => Inside3 P.gz P.gy P.gx 0 P.dx (A b) X ∧ ((A b).auto = true ∨ r.fresh = true) ∧
      Proper3 P K cfl tol A (k (refForceField3 (A b).N (refLag3 P.dx (A b) r.F.u X U (r.hist b)))) (refForces3 P.dx (A b) b X U r)
  | .advance b dt k, r => Proper3 P K cfl tol A k
      { r with hist := Function.update r.hist b { r.hist b with P := fun k i => (r.hist b).P k i + dt * (r.hist b).V k i, t := (r.hist b).t + dt } }
  | .flow dt fs k, r => Proper3 P K cfl tol A k
      { r with F := refForcing3 P K dt fs r.Φ r.F, Φ := fun _ _ => 0, time := r.time + dt, fresh := false }
  | .stableDt pre k, r => Proper3 P K cfl tol A (k (refDt3 P cfl tol r.F (.stable pre))) r
  | .deviation b k, r => Proper3 P K cfl tol A (k (refDeviation 3 (A b).N (r.hist b))) r
  | .maxVort k, r => Proper3 P K cfl tol A (k (sSup {x | ∃ j G, Dom3 P.gz P.gy P.gx G ∧ x = r.F.om j G})) r
  | .divNorm k, r => Proper3 P K cfl tol A (k (refDiv3 P K r.F.om)) r
  | .ghost k, r => Proper3 P K cfl tol A k { r with fresh := true }
  | .out x k, r => Proper3 P K cfl tol A k { r with log := r.log ++ [x] }

/-- A remapping from `X` to `Y` on decomposition `T` is noticed: no node changes its rank, or some rank gets another number of nodes (see C19). -/
def Noticed3 (T : Cart3) (dx : ℝ) (a : Ib3) (X Y : LagField ℝ) : Prop :=
  ∀ l l', a.mapping T dx X = .ok l → a.mapping T dx Y = .ok l' → l' = l ∨ ∃ c, Valid3 T c ∧ localCount l' c ≠ localCount l c

/-- Along the run, every remapping on decomposition `T` is noticed. -/
def Tracked3 (T : Cart3) (P : Params3) (K : Kern3) (cfl tol : ℝ) (A : B → Ib3) : Prog3 B → RefC3 B → Prop
  | .stop, _ => True
  | .interact b X U k, r => Noticed3 T P.dx (A b) (r.lastX b) X ∧ Tracked3 T P K cfl tol A k (refFull3 P.dx (A b) b X U r)
  | .forces b X U k, r => Noticed3 T P.dx (A b) (r.lastX b) X ∧
      Tracked3 T P K cfl tol A (k (refForceField3 (A b).N (refLag3 P.dx (A b) r.F.u X U (r.hist b)))) (refForces3 P.dx (A b) b X U r)
  | .advance b dt k, r => Tracked3 T P K cfl tol A k
      { r with hist := Function.update r.hist b { r.hist b with P := fun k i => (r.hist b).P k i + dt * (r.hist b).V k i, t := (r.hist b).t + dt } }
  | .flow dt fs k, r => Tracked3 T P K cfl tol A k
      { r with F := refForcing3 P K dt fs r.Φ r.F, Φ := fun _ _ => 0, time := r.time + dt, fresh := false }
  | .stableDt pre k, r => Tracked3 T P K cfl tol A (k (refDt3 P cfl tol r.F (.stable pre))) r
  | .deviation b k, r => Tracked3 T P K cfl tol A (k (refDeviation 3 (A b).N (r.hist b))) r
  | .maxVort k, r => Tracked3 T P K cfl tol A (k (sSup {x | ∃ j G, Dom3 P.gz P.gy P.gx G ∧ x = r.F.om j G})) r
  | .divNorm k, r => Tracked3 T P K cfl tol A (k (refDiv3 P K r.F.om)) r
  | .ghost k, r => Tracked3 T P K cfl tol A k { r with fresh := true }
  | .out x k, r => Tracked3 T P K cfl tol A k { r with log := r.log ++ [x] }

/-! ## One interaction -/

variable {gz gy gx pz py px g : ℕ} {T : Cart3}

theorem axis3_coe (j : Fin 3) : axis3 j.1 = j := by
  match j with
  | 0 => rfl
  | 1 => rfl
  | 2 => rfl

/-- A body inside the domain: its nodes are mapped to the ranks whose blocks contain them. -/
theorem owned_of_inside3 (hT : mkCart3 gz gy gx pz py px false = .ok T) (hnz : 0 < T.nz) (hny : 0 < T.ny) (hnx : 0 < T.nx) {k : ℕ} {dx : ℝ} (hdx : 0 < dx)
    {a : Ib3} {X : LagField ℝ} (h : Inside3 gz gy gx k dx a X) :
    ∃ addr, a.mapping T dx X = .ok addr ∧ addr.length = a.N ∧ (∀ c ∈ addr, Valid3 T c) ∧
      ∀ f : ℕ → ℝ, Owned3 T dx (a.sh dx) ((List.range a.N).map fun i => ((X 0 i, X 1 i, X 2 i), f i)) addr := by
  obtain ⟨e0, e1, e2, -, -, -, -, hZ, hY, hX⟩ := construct3_ok hT
  have hphys : ∀ i < a.N, InPhysDomain dx (a.sh dx) T.pz T.nz (X 2 i) ∧ InPhysDomain dx (a.sh dx) T.py T.ny (X 1 i) ∧
      InPhysDomain dx (a.sh dx) T.px T.nx (X 0 i) := by
    intro i hi
    have := h i hi (cellOf dx (a.sh dx) (X 2 i), cellOf dx (a.sh dx) (X 1 i), cellOf dx (a.sh dx) (X 0 i)) (by
      unfold window3 winCells
      simp only [Finset.mem_product, Finset.mem_Ioc]
      omega)
    obtain ⟨⟨a1, a2⟩, ⟨a3, a4⟩, a5, a6⟩ := this
    simp only at a1 a2 a3 a4 a5 a6
    exact ⟨inPhysDomain_of_cell hdx (by omega) (by rw [hZ, e0]; omega), inPhysDomain_of_cell hdx (by omega) (by rw [hY, e1]; omega),
      inPhysDomain_of_cell hdx (by omega) (by rw [hX, e2]; omega)⟩
  have hm : ∃ addr, a.mapping T dx X = .ok addr := by
    obtain ⟨addr, ha, -⟩ := mapping3_owner T hdx hnz hny hnx (points3 a.N X) (by
      intro x hx
      unfold points3 at hx
      obtain ⟨i, hi, rfl⟩ := List.mem_map.1 hx
      exact hphys i (List.mem_range.1 hi))
    exact ⟨addr, ha⟩
  obtain ⟨addr, ha⟩ := hm
  have hown : ∀ f : ℕ → ℝ, Owned3 T dx (a.sh dx) ((List.range a.N).map fun i => ((X 0 i, X 1 i, X 2 i), f i)) addr := by
    intro f
    refine ⟨?_, ?_⟩
    · rw [List.map_map]; exact ha
    · intro nd hnd
      obtain ⟨i, hi, rfl⟩ := List.mem_map.1 hnd
      exact hphys i (List.mem_range.1 hi)
  obtain ⟨l1, l2, -⟩ := (hown fun _ => 0).len hdx hnz hny hnx
  exact ⟨addr, ha, by simpa using l1, l2, hown⟩

/-- The velocity of all ranks is `u` in all cells of the domain. -/
def FreshVel3 (T : Cart3) (g : ℕ) (u : Fin 3 → C3 → ℝ) (vel : Fin 3 → World C3 C3 ℝ) : Prop :=
  ∀ j c p, Valid3 T c → InArr3 T (g : ℤ) p → InDomain3 T (globalIx3 T (g : ℤ) c p) → vel j c p = u j (globalIx3 T (g : ℤ) c p)

theorem ghostVel3_holds (hT : mkCart3 gz gy gx pz py px false = .ok T) (hz : g ≤ T.nz) (hy : g ≤ T.ny) (hx : g ≤ T.nx) {s : List Ev}
    (hs : Complete (multiMsgs3 T g true ([0, 1, 2] : List (Fin 3))) s) {u : Fin 3 → C3 → ℝ} {vel : Fin 3 → World C3 C3 ℝ} (hu : ∀ j, HoldsX3 T g (u j) (vel j)) :
    (∀ j, HoldsX3 T g (u j) (ghostVel3 T g true s vel j)) ∧ FreshVel3 T g u (ghostVel3 T g true s vel) := by
  refine ⟨fun j => multi3_holdsX hT hz hy hx true mem_fin3 (asFam vel) hs j (hu j), ?_⟩
  intro j c p hc hp hD
  obtain ⟨s', hs'⟩ := complete_schedule_exists (ghostMsgs3 T g true)
  change multiExchange3 T g true [0, 1, 2] (asFam vel) s c (j, p) = _
  rw [multiExchange3_eq hz hy hx true mem_fin3 (asFam vel) hs hs' j]
  exact exchange3_global_window hT hz hy hx true (u j) _ (fun c p hc hp => hu j c p hc (inArr_of_inner3 hp) (Or.inl hp)) hs' hc hp hD (Or.inl rfl)

/-- what the owner of a node interpolates is the interpolation on the global grid -/
theorem flowVel3_holds (hnz : 0 < T.nz) (hny : 0 < T.ny) (hnx : 0 < T.nx) (hgz : T.gz = gz) (hgy : T.gy = gy) (hgx : T.gx = gx) (h2 : 2 ≤ g) {dx : ℝ}
    (hdx : 0 < dx) {a : Ib3} (hw : a.w = 2)
    {u : Fin 3 → C3 → ℝ} {vel : Fin 3 → World C3 C3 ℝ} (hf : FreshVel3 T g u vel) {X : LagField ℝ} {k0 : ℕ} (hin : Inside3 gz gy gx k0 dx a X) {addr : List C3}
    (ho : Owned3 T dx (a.sh dx) ((List.range a.N).map fun i => ((X 0 i, X 1 i, X 2 i), (0 : ℝ))) addr) {i : ℕ} (hi : i < a.N) {c : C3} (hc : addr[i]? = some c) (k : ℕ) :
    flowVel3 T g dx a vel c (fun k' => X k' i) k = interp3 dx (a.sh dx) 2 (cosW3 dx) (u (axis3 k)) (X 0 i, X 1 i, X 2 i) := by
  obtain ⟨hval, hb⟩ := (ho.len hdx hnz hny hnx).2.2 i ((X 0 i, X 1 i, X 2 i), 0) c (by simp [hi]) hc
  unfold flowVel3
  rw [hw, eulToLag3_eq]
  unfold interp3
  apply Finset.sum_congr rfl
  intro G hG
  have ha := window_inArr3 (g := g) h2 hdx hb hG
  have haw := hin i hi G hG
  rw [hf (axis3 k) c _ hval ha (by
    rw [global_local3]
    obtain ⟨⟨a1, a2⟩, ⟨a3, a4⟩, a5, a6⟩ := haw
    unfold InDomain3
    omega), global_local3]

/-- State of one interactor. -/
structure IbHolds3 (T : Cart3) (dx : ℝ) (a : Ib3) (h : NodeHist ℝ) (X : LagField ℝ) (b : IbSt3) : Prop where
  stores : Stores (a.vbf T dx) a.N b.v h
  mapped : a.mapping T dx X = .ok b.v.addr
  clean : ∀ c, Valid3 T c → b.bz c = (fun _ => 0) ∧ b.by' c = (fun _ => 0) ∧ b.bx c = fun _ => 0

/-- Usable interactor arguments: kernel width 2 (the constructor refuses any other), iteration order of the sets of ranks. -/
structure Ib3.Ok (a : Ib3) : Prop where
  w : a.w = 2
  ord : ∀ l, SlaveSet l a.m (a.ord l)

/-- the forces on the nodes -/
theorem lagInteract3_holds (hT : mkCart3 gz gy gx pz py px false = .ok T) {C : Cfg3} (hg : C.g = g) (h2 : 2 ≤ g) (hfull : C.full = true)
    (hz : g ≤ T.nz) (hy : g ≤ T.ny) (hx : g ≤ T.nx)
    {dx : ℝ} (hdx : 0 < dx) (hdx' : simDx3 T C.xr = dx) {a : Ib3} (ha : a.Ok) {s : List Ev} (hs : Complete (multiMsgs3 T g true ([0, 1, 2] : List (Fin 3))) s)
    {u : Fin 3 → C3 → ℝ} {S : Sim3 T} (hu : ∀ j, HoldsX3 T g (u j) (S.vel j)) (hf : a.auto = true ∨ FreshVel3 T g u S.vel)
    {X U X0 : LagField ℝ} {k0 : ℕ} (hin : Inside3 gz gy gx k0 dx a X) (hn : Noticed3 T dx a X0 X) {h : NodeHist ℝ} {b : IbSt3} (hb : IbHolds3 T dx a h X0 b) :
    ∃ vel v, lagInteract3 C a s X U S b = .ok ({ S with vel := vel }, { b with v := v }) ∧ (∀ j, HoldsX3 T g (u j) (vel j)) ∧ FreshVel3 T g u vel ∧
      IbHolds3 T dx a (refLag3 dx a u X U h) X { b with v := v } ∧
      ∀ (k : Fin 3) c, Valid3 T c → rankNodes3 v c k.1 =
        nodesOf v.addr ((List.range a.N).map fun i => ((X 0 i, X 1 i, X 2 i), (refLag3 dx a u X U h).F k.1 i)) c := by
  obtain ⟨e0, e1, e2, -⟩ := construct3_ok hT
  obtain ⟨addr, hm, hlen, hval, hown⟩ := owned_of_inside3 hT (by omega) (by omega) (by omega) hdx hin
  set vel := if a.auto then ghostVel3 T C.g C.full s S.vel else S.vel with hvel
  have hgv : (∀ j, HoldsX3 T g (u j) (vel j)) ∧ FreshVel3 T g u vel := by
    rw [hvel]
    split
    · rw [hg, hfull]; exact ghostVel3_holds hT hz hy hx hs hu
    · rename_i hna
      exact ⟨hu, hf.resolve_left hna⟩
  have haddr : (a.vbf T dx).addrOf X = addr := by
    change okOr [] (a.mapping T dx X) = addr
    rw [hm]; rfl
  have hok : AddrOk (a.vbf T dx) a.N ((a.vbf T dx).addrOf X) := by
    rw [haddr]; exact ⟨hlen, fun r hr => mem_ranks3.2 (hval r hr)⟩
  have hI : InterpOk (a.vbf T dx).d (flowVel3 T g dx a vel) := by
    intro r x y k hxy
    unfold flowVel3
    rw [hxy 0 (by change 0 < 3; omega), hxy 1 (by change 1 < 3; omega), hxy 2 (by change 2 < 3; omega)]
  have hcr : (a.vbf T dx).addrOf X = b.v.addr ∨ ∃ r ∈ (a.vbf T dx).ranks, localCount ((a.vbf T dx).addrOf X) r ≠ localCount b.v.addr r := by
    rw [haddr]
    rcases hn _ _ hb.mapped hm with h' | ⟨c, hc, h'⟩
    · exact Or.inl h'
    · exact Or.inr ⟨c, mem_ranks3.2 hc, h'⟩
  obtain ⟨hst, had⟩ := interact_stores (a.vbf T dx) ha.ord hb.stores X U (flowVel3 T g dx a vel) hok hI hcr
  have hflow : ∀ k < 3, ∀ i < a.N, flowAt (a.vbf T dx).addrOf X (flowVel3 T g dx a vel) k i =
      interp3 dx (a.sh dx) 2 (cosW3 dx) (u (axis3 k)) (X 0 i, X 1 i, X 2 i) := by
    intro k _ i hi
    unfold flowAt
    rw [haddr]
    have : addr[i]? = some addr[i] := List.getElem?_eq_getElem (by omega)
    rw [this]
    exact flowVel3_holds (by omega) (by omega) (by omega) e0 e1 e2 h2 hdx ha.w hgv.2 hin (hown fun _ => 0) hi this k
  have hcong : Stores (a.vbf T dx) a.N (vbfInteract (a.vbf T dx) X U (flowVel3 T g dx a vel) b.v) (refLag3 dx a u X U h) := by
    refine hst.congr (fun _ _ _ _ => rfl) ?_ ?_ rfl
    · intro k hk i hi
      change flowAt _ _ _ k i - U k i = mismatch3 dx a u X U k i
      rw [hflow k hk i hi]; rfl
    · intro k hk i hi
      change (a.stiff * a.lagDx ^ (3 - 1)) * h.P k i + (a.damp * a.lagDx ^ (3 - 1)) * (flowAt _ _ _ k i - U k i) = _
      rw [hflow k hk i hi]
      unfold refLag3 mismatch3
      norm_num
  refine ⟨vel, vbfInteract (a.vbf T dx) X U (flowVel3 T g dx a vel) b.v, ?_, hgv.1, hgv.2, ⟨hcong, ?_, hb.clean⟩, ?_⟩
  · unfold lagInteract3
    simp only [hdx', hm]
    rw [← hvel, hg]
  · change a.mapping T dx X = .ok _
    rw [had, haddr]; exact hm
  · intro k c hc
    change rankNodes3 (vbfInteract (a.vbf T dx) X U (flowVel3 T g dx a vel) b.v) c k.1 = nodesOf (vbfInteract (a.vbf T dx) X U (flowVel3 T g dx a vel) b.v).addr _ c
    rw [had, haddr, ← hlen, nodesOf_eq]
    unfold rankNodes3
    have hcnt : (vbfInteract (a.vbf T dx) X U (flowVel3 T g dx a vel) b.v).cnt c = (whereEq addr c).length := by
      rw [hst.cnt c (mem_ranks3.2 hc), had, haddr, whereEq_length]
    refine range_map_getElem (whereEq addr c) _ hcnt _ _ ?_
    intro j i hij
    have hij' : (whereEq ((a.vbf T dx).addrOf X) c)[j]? = some i := by rw [haddr]; exact hij
    obtain ⟨l0, -⟩ := interact_local (a.vbf T dx) ha.ord hb.stores X U (flowVel3 T g dx a vel) hok hI hcr (k := 0) (by change 0 < 3; omega) hij'
    obtain ⟨l1, -⟩ := interact_local (a.vbf T dx) ha.ord hb.stores X U (flowVel3 T g dx a vel) hok hI hcr (k := 1) (by change 1 < 3; omega) hij'
    obtain ⟨l2, -⟩ := interact_local (a.vbf T dx) ha.ord hb.stores X U (flowVel3 T g dx a vel) hok hI hcr (k := 2) (by change 2 < 3; omega) hij'
    obtain ⟨-, lf⟩ := interact_local (a.vbf T dx) ha.ord hb.stores X U (flowVel3 T g dx a vel) hok hI hcr (k := k.1) (by change k.1 < 3; omega) hij'
    have hi : i < a.N := by rw [← hlen]; exact (slot_lt hij).2.2
    rw [l0, l1, l2, lf]
    congr 1
    change (a.stiff * a.lagDx ^ (3 - 1)) * h.P k.1 i + (a.damp * a.lagDx ^ (3 - 1)) * (flowAt _ _ _ k.1 i - U k.1 i) = _
    rw [hflow k.1 k.2 i hi]
    unfold refLag3 mismatch3
    norm_num

/-- The ranks hold the forcing in inner cells; all ghost cells are zero. -/
def ForceClean3 (T : Cart3) (g : ℕ) (Φ : Fin 3 → C3 → ℝ) (f : Fin 3 → World C3 C3 ℝ) : Prop :=
  ∀ j c p, Valid3 T c → (Inner3 T (g : ℤ) p → f j c p = Φ j (globalIx3 T (g : ℤ) c p)) ∧ (¬ Inner3 T (g : ℤ) p → f j c p = 0)

theorem forceClean3_holds (hT : mkCart3 gz gy gx pz py px false = .ok T) {Φ : Fin 3 → C3 → ℝ} {f : Fin 3 → World C3 C3 ℝ} (h : ForceClean3 T g Φ f)
    (hc0 : Confined3 gz gy gx Φ) : HoldsForce3 T g Φ f := by
  obtain ⟨e0, e1, e2, -⟩ := construct3_ok hT
  intro j c p hc _ hp
  by_cases hin : Inner3 T (g : ℤ) p
  · exact (h j c p hc).1 hin
  · have hD := hp.resolve_left hin
    rw [(h j c p hc).2 hin, hc0]
    rintro ⟨⟨a1, a2⟩, ⟨a3, a4⟩, a5, a6⟩
    apply hD
    unfold InDomain3
    omega

theorem refSpread3_confined {dx : ℝ} {a : Ib3} {X : LagField ℝ} (hin : Inside3 gz gy gx 1 dx a X) (f : LagField ℝ) {Φ : Fin 3 → C3 → ℝ} (h : Confined3 gz gy gx Φ) :
    Confined3 gz gy gx (refSpread3 dx a X f Φ) := by
  intro j G hG
  unfold refSpread3
  have h1 : (if a.reset then 0 else Φ j G) = 0 := by split; rfl; exact h j G hG
  rw [h1, zero_add]
  apply List.sum_eq_zero
  intro x hx
  obtain ⟨i, hi, rfl⟩ := List.mem_map.1 hx
  unfold share3n
  rw [if_neg]
  intro hm
  exact hG (hin i (List.mem_range.1 hi) G hm)

/-- the full interaction -/
theorem fullInteract3_holds (hT : mkCart3 gz gy gx pz py px false = .ok T) {C : Cfg3} (hg : C.g = g) (h2 : 2 ≤ g) (hfull : C.full = true)
    (hz : g ≤ T.nz) (hy : g ≤ T.ny) (hx : g ≤ T.nx)
    {dx : ℝ} (hdx : 0 < dx) (hdx' : simDx3 T C.xr = dx) {a : Ib3} (ha : a.Ok) {s : List Ev} (hs : Complete (multiMsgs3 T g true ([0, 1, 2] : List (Fin 3))) s)
    {u : Fin 3 → C3 → ℝ} {S : Sim3 T} (hu : ∀ j, HoldsX3 T g (u j) (S.vel j)) (hf : a.auto = true ∨ FreshVel3 T g u S.vel)
    {X U X0 : LagField ℝ} {k0 : ℕ} (hin : Inside3 gz gy gx k0 dx a X) (hn : Noticed3 T dx a X0 X) {h : NodeHist ℝ} {b : IbSt3} (hb : IbHolds3 T dx a h X0 b)
    {Φ : Fin 3 → C3 → ℝ} (hΦ : ForceClean3 T g Φ S.forcing) :
    ∃ vel f b', fullInteract3 C a s X U S b = .ok ({ S with vel := vel, forcing := f }, b') ∧ (∀ j, HoldsX3 T g (u j) (vel j)) ∧ FreshVel3 T g u vel ∧
      IbHolds3 T dx a (refLag3 dx a u X U h) X b' ∧ ForceClean3 T g (refSpread3 dx a X (refLag3 dx a u X U h).F Φ) f := by
  obtain ⟨-, -, -, -, -, -, hper, -, -, -⟩ := construct3_ok hT
  set S1 : Sim3 T := if a.reset then { S with forcing := fun _ _ _ => 0 } else S with hS1
  have hv1 : S1.vel = S.vel := by rw [hS1]; split <;> rfl
  obtain ⟨vel, v, hrun, hu', hf', hb', hnodes⟩ := lagInteract3_holds hT hg h2 hfull hz hy hx hdx hdx' ha hs (S := S1) (u := u) (U := U) (by rw [hv1]; exact hu)
    (by rw [hv1]; exact hf) hin hn hb
  obtain ⟨addr, hm, hlen, hval, hown⟩ := owned_of_inside3 hT (by omega) (by omega) (by omega) hdx hin
  have hva : v.addr = addr := by
    have := hb'.mapped
    rw [hm] at this
    exact (Except.ok.inj this).symm
  have hΦ1 : ForceClean3 T g (fun j G => if a.reset then 0 else Φ j G) S1.forcing := by
    intro j c p hc
    rw [hS1]
    split
    · exact ⟨fun _ => rfl, fun _ => rfl⟩
    · exact hΦ j c p hc
  have key : ∀ (k : Fin 3) (bz by' bx : C3 → C3 → ℝ), (∀ c, Valid3 T c → bz c = (fun _ => 0) ∧ by' c = (fun _ => 0) ∧ bx c = fun _ => 0) →
      (∀ c p, Valid3 T c → Inner3 T (g : ℤ) p →
        (ghostSum3 T g (fun c => ⟨spread3 T g a.w dx (a.sh dx) (cosW3 dx) c (S1.forcing k c) (rankNodes3 v c k.1), bz c, by' c, bx c⟩) c).A p =
          refSpread3 dx a X (refLag3 dx a u X U h).F Φ k (globalIx3 T (g : ℤ) c p)) ∧
      (∀ c p, ¬ Inner3 T (g : ℤ) p →
        (ghostSum3 T g (fun c => ⟨spread3 T g a.w dx (a.sh dx) (cosW3 dx) c (S1.forcing k c) (rankNodes3 v c k.1), bz c, by' c, bx c⟩) c).A p = 0) ∧
      Clean3 T (ghostSum3 T g (fun c => ⟨spread3 T g a.w dx (a.sh dx) (cosW3 dx) c (S1.forcing k c) (rankNodes3 v c k.1), bz c, by' c, bx c⟩)) := by
    intro k bz by' bx hcl
    have hcl' : Clean3 T (fun c => (⟨spread3 T g a.w dx (a.sh dx) (cosW3 dx) c (S1.forcing k c) (rankNodes3 v c k.1), bz c, by' c, bx c⟩ : GS3 ℝ)) := hcl
    have hcl2 : Clean3 T (fun c => (⟨S1.forcing k c, bz c, by' c, bx c⟩ : GS3 ℝ)) := hcl
    obtain ⟨s1, s2, s3⟩ := spread3_decomposition_free hper (g := g) (w := 2) h2 hz hy hx (by omega) (by omega) (by omega) hdx (cosW3 dx)
      (hown ((refLag3 dx a u X U h).F k.1)) (fun c => ⟨S1.forcing k c, bz c, by' c, bx c⟩) hcl2 (fun c p hc hp => (hΦ1 k c p hc).2 hp)
    obtain ⟨-, g2, g3⟩ := ghostSum3_correct hz hy hx hcl'
    refine ⟨?_, g2, g3⟩
    intro c p hc hp
    have e := s1 c p hc hp
    unfold spreadSum3 at e
    rw [ghostSum3_global hper hz hy hx hcl' hc hp]
    rw [ghostSum3_global hper hz hy hx (w := fun c => { (⟨S1.forcing k c, bz c, by' c, bx c⟩ : GS3 ℝ) with A := spread3 T g 2 dx (a.sh dx) (cosW3 dx) c (S1.forcing k c) (nodesOf addr ((List.range a.N).map fun i => ((X 0 i, X 1 i, X 2 i), (refLag3 dx a u X U h).F k.1 i)) c) }) hcl2 hc hp] at e
    have hsum : (∑ b ∈ Finset.Ico (0 : ℤ) T.pz ×ˢ Finset.Ico (0 : ℤ) T.py ×ˢ Finset.Ico (0 : ℤ) T.px,
        if InArr3 T (g : ℤ) (localIx3 T (g : ℤ) b (globalIx3 T (g : ℤ) c p)) then
          spread3 T g a.w dx (a.sh dx) (cosW3 dx) b (S1.forcing k b) (rankNodes3 v b k.1) (localIx3 T (g : ℤ) b (globalIx3 T (g : ℤ) c p)) else 0) =
        ∑ b ∈ Finset.Ico (0 : ℤ) T.pz ×ˢ Finset.Ico (0 : ℤ) T.py ×ˢ Finset.Ico (0 : ℤ) T.px,
        if InArr3 T (g : ℤ) (localIx3 T (g : ℤ) b (globalIx3 T (g : ℤ) c p)) then
          spread3 T g 2 dx (a.sh dx) (cosW3 dx) b (S1.forcing k b) (nodesOf addr ((List.range a.N).map fun i => ((X 0 i, X 1 i, X 2 i), (refLag3 dx a u X U h).F k.1 i)) b) (localIx3 T (g : ℤ) b (globalIx3 T (g : ℤ) c p)) else 0 := by
      apply Finset.sum_congr rfl
      intro b hb2
      have hbv : Valid3 T b := by
        simp only [Finset.mem_product, Finset.mem_Ico] at hb2
        exact ⟨hb2.1.1, hb2.1.2, hb2.2.1.1, hb2.2.1.2, hb2.2.2.1, hb2.2.2.2⟩
      rw [hnodes k b hbv, hva, ha.w]
    refine hsum.trans (e.trans ?_)
    unfold refSpread3
    simp only
    rw [(hΦ1 k c p hc).1 hp, List.map_map]
    rfl
  obtain ⟨p1, p2, p3⟩ := key 0 b.bz b.by' b.bx hb.clean
  obtain ⟨q1, q2, q3⟩ := key 1 _ _ _ p3
  obtain ⟨r1, r2, r3⟩ := key 2 _ _ _ q3
  refine ⟨vel, (spreadForces3 T g dx a { b with v := v } S1.forcing).2, (spreadForces3 T g dx a { b with v := v } S1.forcing).1, ?_, hu', hf', ?_, ?_⟩
  rotate_left
  · exact ⟨hb'.stores, hb'.mapped, r3⟩
  · intro j c p hc
    match j with
    | 0 => exact ⟨p1 c p hc, p2 c p⟩
    | 1 => exact ⟨q1 c p hc, q2 c p⟩
    | 2 => exact ⟨r1 c p hc, r2 c p⟩
  · unfold fullInteract3
    simp only
    rw [← hS1, hrun]
    simp only [hg, hdx']
    have e1 : S1.sc = S.sc := by rw [hS1]; split <;> rfl
    have e2 : S1.om = S.om := by rw [hS1]; split <;> rfl
    have e3 : S1.buf = S.buf := by rw [hS1]; split <;> rfl
    have e4 : S1.bufV = S.bufV := by rw [hS1]; split <;> rfl
    have e5 : S1.stream = S.stream := by rw [hS1]; split <;> rfl
    have e6 : S1.time = S.time := by rw [hS1]; split <;> rfl
    have e7 : S1.solver = S.solver := by rw [hS1]; split <;> rfl
    rw [e1, e2, e3, e4, e5, e6, e7]

end Sopht
