import Verif.Interactor2D
import Verif.InteractorLemmas
import Verif.Sim2DRun

/-! # Flow with immersed bodies does not depend on the decomposition, 2D (C68, C69) -/

namespace Sopht

set_option linter.unusedSimpArgs false

/-! ## Specification: one grid, one record per node -/

/-- Flow fields, forcing, time, node records and last mapped positions of the bodies, what was printed, and whether the ghost cells of the velocity have been
exchanged since it changed last. -/
structure RefC2 (B : Type) where
  F : Fields2
  Φ : Fin 2 → C2 → ℝ
  time : ℝ
  hist : B → NodeHist ℝ
  lastX : B → LagField ℝ
  log : List ℝ
  fresh : Bool

/-- Flow velocity at a node, minus the velocity of the node. -/
noncomputable def mismatch2 (dx : ℝ) (a : Ib2) (u : Fin 2 → C2 → ℝ) (X U : LagField ℝ) (k i : ℕ) : ℝ :=
  interp2 dx (a.sh dx) 2 (cosW2 dx) (u (comp2 k)) (X 0 i, X 1 i) - U k i

/-- The record of every node after the forces were computed: stiffness times accumulated displacement plus damping times velocity mismatch, both coefficients
times the spacing of the nodes. -/
noncomputable def refLag2 (dx : ℝ) (a : Ib2) (u : Fin 2 → C2 → ℝ) (X U : LagField ℝ) (h : NodeHist ℝ) : NodeHist ℝ :=
  { P := h.P, V := mismatch2 dx a u X U, t := h.t,
    F := fun k i => a.stiff * a.lagDx * h.P k i + a.damp * a.lagDx * mismatch2 dx a u X U k i }

/-- The forcing after the forces of the nodes were spread. -/
noncomputable def refSpread2 (dx : ℝ) (a : Ib2) (X : LagField ℝ) (f : LagField ℝ) (Φ : Fin 2 → C2 → ℝ) : Fin 2 → C2 → ℝ := fun j G =>
  (if a.reset then 0 else Φ j G) + ((List.range a.N).map fun i => share2n dx (a.sh dx) 2 (cosW2 dx) G ((X 0 i, X 1 i), f j.1 i)).sum

variable {B : Type} [DecidableEq B]

/-- `compute_flow_forces_and_torques` -/
noncomputable def refForces2 (dx : ℝ) (a : Ib2) (b : B) (X U : LagField ℝ) (r : RefC2 B) : RefC2 B :=
  { r with hist := Function.update r.hist b (refLag2 dx a r.F.u X U (r.hist b)), lastX := Function.update r.lastX b X, fresh := a.auto || r.fresh }

/-- the full interaction -/
noncomputable def refFull2 (dx : ℝ) (a : Ib2) (b : B) (X U : LagField ℝ) (r : RefC2 B) : RefC2 B :=
  { refForces2 dx a b X U r with Φ := refSpread2 dx a X (refLag2 dx a r.F.u X U (r.hist b)).F r.Φ }

/-- Forces on the nodes of a body. -/
def refForceField (N : ℕ) (h : NodeHist ℝ) : LagField ℝ := fun k i => if k < 2 ∧ i < N then h.F k i else 0

/-- Root mean square of the displacements of the nodes of a body. -/
noncomputable def refDeviation (d N : ℕ) (h : NodeHist ℝ) : ℝ :=
  Real.sqrt (((List.range N).map fun i => ((List.range d).map fun k => h.P k i ^ 2).sum).sum / N)

/-- The driver on the global grid. -/
noncomputable def cRef2 (P : Params2) (K : Kern2) (cfl tol : ℝ) (A : B → Ib2) : Prog2 B → RefC2 B → RefC2 B
  | .stop, r => r
  | .interact b X U k, r => cRef2 P K cfl tol A k (refFull2 P.dx (A b) b X U r)
  | .forces b X U k, r => cRef2 P K cfl tol A (k (refForceField (A b).N (refLag2 P.dx (A b) r.F.u X U (r.hist b)))) (refForces2 P.dx (A b) b X U r)
  | .advance b dt k, r => cRef2 P K cfl tol A k
      { r with hist := Function.update r.hist b { r.hist b with P := fun k i => (r.hist b).P k i + dt * (r.hist b).V k i, t := (r.hist b).t + dt } }
  | .flow dt fs k, r => cRef2 P K cfl tol A k
      { r with F := refForcing2 P K dt fs r.Φ r.F, Φ := fun _ _ => 0, time := r.time + dt, fresh := false }
  | .stableDt pre k, r => cRef2 P K cfl tol A (k (refDt2 P cfl tol r.F (.stable pre))) r
  | .deviation b k, r => cRef2 P K cfl tol A (k (refDeviation 2 (A b).N (r.hist b))) r
  | .maxVort k, r => cRef2 P K cfl tol A (k (sSup {x | ∃ G, Dom2 P.gy P.gx G ∧ x = r.F.om G})) r
  | .ghost k, r => cRef2 P K cfl tol A k { r with fresh := true }
  | .out x k, r => cRef2 P K cfl tol A k { r with log := r.log ++ [x] }

/-- All cells around all nodes are at least `k` cells inside the domain. -/
def Inside2 (gy gx k : ℕ) (dx : ℝ) (a : Ib2) (X : LagField ℝ) : Prop :=
  ∀ i < a.N, ∀ G ∈ window2 dx (a.sh dx) 2 (X 0 i, X 1 i), Away2 gy gx k G

/-- Along the run: bodies stay inside the domain, off its outermost cells when they force the flow; an interactor without automatic ghost exchange is only
used while the ghost cells of the velocity are up to date. -/
def Proper2 (P : Params2) (K : Kern2) (cfl tol : ℝ) (A : B → Ib2) : Prog2 B → RefC2 B → Prop
  | .stop, _ => True
  | .interact b X U k, r => Inside2 P.gy P.gx 1 P.dx (A b) X ∧ ((A b).auto = true ∨ r.fresh = true) ∧
      Proper2 P K cfl tol A k (refFull2 P.dx (A b) b X U r)
  | .forces b X U k, r => Inside2 P.gy P.gx 0 P.dx (A b) X ∧ ((A b).auto = true ∨ r.fresh = true) ∧
      Proper2 P K cfl tol A (k (refForceField (A b).N (refLag2 P.dx (A b) r.F.u X U (r.hist b)))) (refForces2 P.dx (A b) b X U r)
  | .advance b dt k, r => Proper2 P K cfl tol A k
      { r with hist := Function.update r.hist b { r.hist b with P := fun k i => (r.hist b).P k i + dt * (r.hist b).V k i, t := (r.hist b).t + dt } }
  | .flow dt fs k, r => Proper2 P K cfl tol A k
      { r with F := refForcing2 P K dt fs r.Φ r.F, Φ := fun _ _ => 0, time := r.time + dt, fresh := false }
  | .stableDt pre k, r => Proper2 P K cfl tol A (k (refDt2 P cfl tol r.F (.stable pre))) r
  | .deviation b k, r => Proper2 P K cfl tol A (k (refDeviation 2 (A b).N (r.hist b))) r
  | .maxVort k, r => Proper2 P K cfl tol A (k (sSup {x | ∃ G, Dom2 P.gy P.gx G ∧ x = r.F.om G})) r
  | .ghost k, r => Proper2 P K cfl tol A k { r with fresh := true }
  | .out x k, r => Proper2 P K cfl tol A k { r with log := r.log ++ [x] }

/-- A remapping from `X` to `Y` on decomposition `T` is noticed: no node changes its rank, or some rank gets another number of nodes (see C19). -/
def Noticed2 (T : Cart2) (dx : ℝ) (a : Ib2) (X Y : LagField ℝ) : Prop :=
  ∀ l l', a.mapping T dx X = .ok l → a.mapping T dx Y = .ok l' → l' = l ∨ ∃ c, Valid2 T c ∧ localCount l' c ≠ localCount l c

/-- Along the run, every remapping on decomposition `T` is noticed. -/
def Tracked2 (T : Cart2) (P : Params2) (K : Kern2) (cfl tol : ℝ) (A : B → Ib2) : Prog2 B → RefC2 B → Prop
  | .stop, _ => True
  | .interact b X U k, r => Noticed2 T P.dx (A b) (r.lastX b) X ∧ Tracked2 T P K cfl tol A k (refFull2 P.dx (A b) b X U r)
  | .forces b X U k, r => Noticed2 T P.dx (A b) (r.lastX b) X ∧
      Tracked2 T P K cfl tol A (k (refForceField (A b).N (refLag2 P.dx (A b) r.F.u X U (r.hist b)))) (refForces2 P.dx (A b) b X U r)
  | .advance b dt k, r => Tracked2 T P K cfl tol A k
      { r with hist := Function.update r.hist b { r.hist b with P := fun k i => (r.hist b).P k i + dt * (r.hist b).V k i, t := (r.hist b).t + dt } }
  | .flow dt fs k, r => Tracked2 T P K cfl tol A k
      { r with F := refForcing2 P K dt fs r.Φ r.F, Φ := fun _ _ => 0, time := r.time + dt, fresh := false }
  | .stableDt pre k, r => Tracked2 T P K cfl tol A (k (refDt2 P cfl tol r.F (.stable pre))) r
  | .deviation b k, r => Tracked2 T P K cfl tol A (k (refDeviation 2 (A b).N (r.hist b))) r
  | .maxVort k, r => Tracked2 T P K cfl tol A (k (sSup {x | ∃ G, Dom2 P.gy P.gx G ∧ x = r.F.om G})) r
  | .ghost k, r => Tracked2 T P K cfl tol A k { r with fresh := true }
  | .out x k, r => Tracked2 T P K cfl tol A k { r with log := r.log ++ [x] }

/-! ## One interaction -/

variable {gy gx py px : ℕ} {T : Cart2}

theorem comp2_coe (j : Fin 2) : comp2 j.1 = j := by
  match j with
  | 0 => rfl
  | 1 => rfl

theorem inPhysDomain_of_cell {dx s x : ℝ} (hdx : 0 < dx) {P n : ℕ} (h0 : 0 ≤ cellOf dx s x) (h1 : cellOf dx s x < ((P * n : ℕ) : ℤ)) :
    InPhysDomain dx s P n x := by
  unfold cellOf at h0 h1
  have a := (div_bounds (h := dx) (s := s) (x := x) hdx 0).1
  have b := (div_bounds (h := dx) (s := s) (x := x) hdx ((P * n : ℕ) : ℝ)).2
  unfold InPhysDomain
  constructor
  · have : (0 : ℝ) ≤ (x - s) / dx := by
      have := Int.floor_nonneg.1 h0
      exact this
    have := a.1 this
    linarith
  · have : (x - s) / dx < (((P * n : ℕ) : ℤ) : ℝ) := Int.floor_lt.1 h1
    have := b.1 (by exact_mod_cast this)
    push_cast at this
    linarith

/-- A body inside the domain: its nodes are mapped to the ranks whose blocks contain them. -/
theorem owned_of_inside2 (hT : mkCart2 gy gx py px false = .ok T) (hny : 0 < T.ny) (hnx : 0 < T.nx) {k : ℕ} {dx : ℝ} (hdx : 0 < dx) {a : Ib2} {X : LagField ℝ} (h : Inside2 gy gx k dx a X) :
    ∃ addr, a.mapping T dx X = .ok addr ∧ addr.length = a.N ∧ (∀ c ∈ addr, Valid2 T c) ∧
      ∀ f : ℕ → ℝ, Owned2 T dx (a.sh dx) ((List.range a.N).map fun i => ((X 0 i, X 1 i), f i)) addr := by
  obtain ⟨e1, e2, -, -, -, hY, hX⟩ := construct2_ok hT
  have hphys : ∀ i < a.N, InPhysDomain dx (a.sh dx) T.py T.ny (X 1 i) ∧ InPhysDomain dx (a.sh dx) T.px T.nx (X 0 i) := by
    intro i hi
    have := h i hi (cellOf dx (a.sh dx) (X 1 i), cellOf dx (a.sh dx) (X 0 i)) (by
      unfold window2 winCells
      simp only [Finset.mem_product, Finset.mem_Ioc]
      omega)
    obtain ⟨a1, a2, a3, a4⟩ := this
    simp only at a1 a2 a3 a4
    exact ⟨inPhysDomain_of_cell hdx (by omega) (by rw [hY, e1]; omega), inPhysDomain_of_cell hdx (by omega) (by rw [hX, e2]; omega)⟩
  have hm : ∃ addr, a.mapping T dx X = .ok addr := by
    obtain ⟨addr, ha, -⟩ := mapping2_owner T hdx hny hnx (points2 a.N X) (by
      intro x hx
      unfold points2 at hx
      obtain ⟨i, hi, rfl⟩ := List.mem_map.1 hx
      exact hphys i (List.mem_range.1 hi))
    exact ⟨addr, ha⟩
  obtain ⟨addr, ha⟩ := hm
  have hown : ∀ f : ℕ → ℝ, Owned2 T dx (a.sh dx) ((List.range a.N).map fun i => ((X 0 i, X 1 i), f i)) addr := by
    intro f
    refine ⟨?_, ?_⟩
    · rw [List.map_map]; exact ha
    · intro nd hnd
      obtain ⟨i, hi, rfl⟩ := List.mem_map.1 hnd
      exact hphys i (List.mem_range.1 hi)
  obtain ⟨l1, l2, -⟩ := (hown fun _ => 0).len hdx hny hnx
  exact ⟨addr, ha, by simpa using l1, l2, hown⟩

/-- The velocity of all ranks is `u` in all cells of the domain. -/
def FreshVel2 (T : Cart2) (u : Fin 2 → C2 → ℝ) (vel : Fin 2 → World C2 C2 ℝ) : Prop :=
  ∀ j c p, Valid2 T c → InArr2 T ((2 : ℕ) : ℤ) p → InDomain2 T (globalIx2 T ((2 : ℕ) : ℤ) c p) → vel j c p = u j (globalIx2 T ((2 : ℕ) : ℤ) c p)

theorem slab_zone2 (hT : mkCart2 gy gx py px false = .ok T) (hslab : T.py = 1 ∨ T.px = 1) {c p : C2} (hc : Valid2 T c)
    (hD : InDomain2 T (globalIx2 T ((2 : ℕ) : ℤ) c p)) : zone ((2 : ℕ) : ℤ) T.ny p.1 = 0 ∨ zone ((2 : ℕ) : ℤ) T.nx p.2 = 0 := by
  obtain ⟨-, -, -, -, -, hY, hX⟩ := construct2_ok hT
  rw [zone_zero_iff, zone_zero_iff]
  obtain ⟨c1, c2, c3, c4⟩ := hc
  rcases hslab with h1 | h1
  · left
    have hc1 : c.1 = 0 := by omega
    have hgy : T.gy = T.ny := by rw [← hY, h1, one_mul]
    obtain ⟨d1, d2, -, -⟩ := hD
    unfold globalIx2 at d1 d2
    simp only [hc1, zero_mul] at d1 d2
    omega
  · right
    have hc1 : c.2 = 0 := by omega
    have hgx : T.gx = T.nx := by rw [← hX, h1, one_mul]
    obtain ⟨-, -, d1, d2⟩ := hD
    unfold globalIx2 at d1 d2
    simp only [hc1, zero_mul] at d1 d2
    omega

theorem ghostVel2_holds (hT : mkCart2 gy gx py px false = .ok T) (hy : 2 ≤ T.ny) (hx : 2 ≤ T.nx) (hslab : T.py = 1 ∨ T.px = 1) {s : List Ev}
    (hs : Complete (multiMsgs2 T 2 false ([0, 1] : List (Fin 2))) s) {u : Fin 2 → C2 → ℝ} {vel : Fin 2 → World C2 C2 ℝ} (hu : ∀ j, HoldsX2 T 2 (u j) (vel j)) :
    (∀ j, HoldsX2 T 2 (u j) (ghostVel2 T 2 s vel j)) ∧ FreshVel2 T u (ghostVel2 T 2 s vel) := by
  have hcs : ∀ i : Fin 2, i ∈ ([0, 1] : List (Fin 2)) := by intro i; match i with
    | 0 => simp
    | 1 => simp
  have hw : ∀ (i : Fin 2) c p, Valid2 T c → Inner2 T ((2 : ℕ) : ℤ) p → toFlat2 T 2 (vel i) c (flat2 T 2 p) = u i (globalIx2 T ((2 : ℕ) : ℤ) c p) := by
    intro i c p hc hp
    rw [toFlat2_flat (inArr_of_inner2 hp)]
    exact hu i c p hc (inArr_of_inner2 hp) (Or.inl hp)
  have hfresh : FreshVel2 T u (ghostVel2 T 2 s vel) := by
    intro j c p hc hp hD
    unfold ghostVel2 ofFlat2
    simp only
    rw [multi2_global (F := u) hT (by omega) (by omega) (by omega) false hcs hw hs hc hp (slab_zone2 hT hslab hc hD) j (Or.inr (Or.inl hD)), contIx2_false]
  refine ⟨?_, hfresh⟩
  intro j c p hc hp h
  by_cases hD : InDomain2 T (globalIx2 T ((2 : ℕ) : ℤ) c p)
  · exact hfresh j c p hc hp hD
  · unfold ghostVel2 ofFlat2
    simp only
    rw [multi2_outside hT (by omega) (by omega) (by omega) false hcs _ hs hc hp hD]
    simp only
    rw [toFlat2_flat hp]
    exact hu j c p hc hp h

/-- what the owner of a node interpolates is the interpolation on the global grid -/
theorem flowVel2_holds (hny : 0 < T.ny) (hnx : 0 < T.nx) (hgy : T.gy = gy) (hgx : T.gx = gx) {dx : ℝ} (hdx : 0 < dx) {a : Ib2} (hw : a.w = 2)
    {u : Fin 2 → C2 → ℝ} {vel : Fin 2 → World C2 C2 ℝ} (hf : FreshVel2 T u vel) {X : LagField ℝ} {k0 : ℕ} (hin : Inside2 gy gx k0 dx a X) {addr : List C2}
    (ho : Owned2 T dx (a.sh dx) ((List.range a.N).map fun i => ((X 0 i, X 1 i), (0 : ℝ))) addr) {i : ℕ} (hi : i < a.N) {c : C2} (hc : addr[i]? = some c) (k : ℕ) :
    flowVel2 T 2 dx a vel c (fun k' => X k' i) k = interp2 dx (a.sh dx) 2 (cosW2 dx) (u (comp2 k)) (X 0 i, X 1 i) := by
  obtain ⟨hval, hb⟩ := (ho.len hdx hny hnx).2.2 i ((X 0 i, X 1 i), 0) c (by simp [hi]) hc
  unfold flowVel2
  rw [hw, eulToLag2_eq]
  unfold interp2
  apply Finset.sum_congr rfl
  intro G hG
  have ha := window_inArr2 (g := 2) (le_refl 2) hdx hb hG
  have haw := hin i hi G hG
  rw [hf (comp2 k) c _ hval ha (by
    rw [global_local2]
    obtain ⟨a1, a2, a3, a4⟩ := haw
    unfold InDomain2
    omega), global_local2]

/-- State of one interactor. -/
structure IbHolds2 (T : Cart2) (dx : ℝ) (a : Ib2) (h : NodeHist ℝ) (X : LagField ℝ) (b : IbSt2) : Prop where
  stores : Stores (a.vbf T dx) a.N b.v h
  mapped : a.mapping T dx X = .ok b.v.addr
  clean : ∀ c, Valid2 T c → b.row c = (fun _ => 0) ∧ b.col c = fun _ => 0

/-- Usable interactor arguments: kernel width 2 (the constructor refuses any other), iteration order of the sets of ranks. -/
structure Ib2.Ok (a : Ib2) : Prop where
  w : a.w = 2
  ord : ∀ l, SlaveSet l a.m (a.ord l)

/-- the forces on the nodes -/
theorem lagInteract2_holds (hT : mkCart2 gy gx py px false = .ok T) {C : Cfg2} (hg : C.g = 2) (hy : 2 ≤ T.ny) (hx : 2 ≤ T.nx) (hslab : T.py = 1 ∨ T.px = 1)
    {dx : ℝ} (hdx : 0 < dx) (hdx' : simDx2 T C.xr = dx) {a : Ib2} (ha : a.Ok) {s : List Ev} (hs : Complete (multiMsgs2 T 2 false ([0, 1] : List (Fin 2))) s)
    {u : Fin 2 → C2 → ℝ} {S : Sim2 T} (hu : ∀ j, HoldsX2 T 2 (u j) (S.vel j)) (hf : a.auto = true ∨ FreshVel2 T u S.vel)
    {X U X0 : LagField ℝ} {k0 : ℕ} (hin : Inside2 gy gx k0 dx a X) (hn : Noticed2 T dx a X0 X) {h : NodeHist ℝ} {b : IbSt2} (hb : IbHolds2 T dx a h X0 b) :
    ∃ vel v, lagInteract2 C a s X U S b = .ok ({ S with vel := vel }, { b with v := v }) ∧ (∀ j, HoldsX2 T 2 (u j) (vel j)) ∧ FreshVel2 T u vel ∧
      IbHolds2 T dx a (refLag2 dx a u X U h) X { b with v := v } ∧
      ∀ (k : Fin 2) c, Valid2 T c → rankNodes2 v c k.1 =
        nodesOf v.addr ((List.range a.N).map fun i => ((X 0 i, X 1 i), (refLag2 dx a u X U h).F k.1 i)) c := by
  obtain ⟨e1, e2, -⟩ := construct2_ok hT
  obtain ⟨addr, hm, hlen, hval, hown⟩ := owned_of_inside2 hT (by omega) (by omega) hdx hin
  set vel := if a.auto then ghostVel2 T C.g s S.vel else S.vel with hvel
  have hgv : (∀ j, HoldsX2 T 2 (u j) (vel j)) ∧ FreshVel2 T u vel := by
    rw [hvel]
    split
    · rw [hg]; exact ghostVel2_holds hT hy hx hslab hs hu
    · rename_i hna
      exact ⟨hu, hf.resolve_left hna⟩
  have haddr : (a.vbf T dx).addrOf X = addr := by
    change okOr [] (a.mapping T dx X) = addr
    rw [hm]; rfl
  have hok : AddrOk (a.vbf T dx) a.N ((a.vbf T dx).addrOf X) := by
    rw [haddr]; exact ⟨hlen, fun r hr => mem_ranks2.2 (hval r hr)⟩
  have hI : InterpOk (a.vbf T dx).d (flowVel2 T 2 dx a vel) := by
    intro r x y k hxy
    unfold flowVel2
    rw [hxy 0 (by change 0 < 2; omega), hxy 1 (by change 1 < 2; omega)]
  have hcr : (a.vbf T dx).addrOf X = b.v.addr ∨ ∃ r ∈ (a.vbf T dx).ranks, localCount ((a.vbf T dx).addrOf X) r ≠ localCount b.v.addr r := by
    rw [haddr]
    rcases hn _ _ hb.mapped hm with h' | ⟨c, hc, h'⟩
    · exact Or.inl h'
    · exact Or.inr ⟨c, mem_ranks2.2 hc, h'⟩
  obtain ⟨hst, had⟩ := interact_stores (a.vbf T dx) ha.ord hb.stores X U (flowVel2 T 2 dx a vel) hok hI hcr
  have hflow : ∀ k < 2, ∀ i < a.N, flowAt (a.vbf T dx).addrOf X (flowVel2 T 2 dx a vel) k i = interp2 dx (a.sh dx) 2 (cosW2 dx) (u (comp2 k)) (X 0 i, X 1 i) := by
    intro k _ i hi
    unfold flowAt
    rw [haddr]
    have : addr[i]? = some addr[i] := List.getElem?_eq_getElem (by omega)
    rw [this]
    exact flowVel2_holds (by omega) (by omega) e1 e2 hdx ha.w hgv.2 hin (hown fun _ => 0) hi this k
  have hcong : Stores (a.vbf T dx) a.N (vbfInteract (a.vbf T dx) X U (flowVel2 T 2 dx a vel) b.v) (refLag2 dx a u X U h) := by
    refine hst.congr (fun _ _ _ _ => rfl) ?_ ?_ rfl
    · intro k hk i hi
      change flowAt _ _ _ k i - U k i = mismatch2 dx a u X U k i
      rw [hflow k hk i hi]; rfl
    · intro k hk i hi
      change (a.stiff * a.lagDx ^ (2 - 1)) * h.P k i + (a.damp * a.lagDx ^ (2 - 1)) * (flowAt _ _ _ k i - U k i) = _
      rw [hflow k hk i hi]
      unfold refLag2 mismatch2
      norm_num
  refine ⟨vel, vbfInteract (a.vbf T dx) X U (flowVel2 T 2 dx a vel) b.v, ?_, hgv.1, hgv.2, ⟨hcong, ?_, hb.clean⟩, ?_⟩
  · unfold lagInteract2
    simp only [hdx', hm]
    rw [← hvel, hg]
  · change a.mapping T dx X = .ok _
    rw [had, haddr]; exact hm
  · intro k c hc
    change rankNodes2 (vbfInteract (a.vbf T dx) X U (flowVel2 T 2 dx a vel) b.v) c k.1 = nodesOf (vbfInteract (a.vbf T dx) X U (flowVel2 T 2 dx a vel) b.v).addr _ c
    rw [had, haddr, ← hlen, nodesOf_eq]
    unfold rankNodes2
    have hcnt : (vbfInteract (a.vbf T dx) X U (flowVel2 T 2 dx a vel) b.v).cnt c = (whereEq addr c).length := by
      rw [hst.cnt c (mem_ranks2.2 hc), had, haddr, whereEq_length]
    refine range_map_getElem (whereEq addr c) _ hcnt _ _ ?_
    intro j i hij
    have hij' : (whereEq ((a.vbf T dx).addrOf X) c)[j]? = some i := by rw [haddr]; exact hij
    obtain ⟨l0, -⟩ := interact_local (a.vbf T dx) ha.ord hb.stores X U (flowVel2 T 2 dx a vel) hok hI hcr (k := 0) (by change 0 < 2; omega) hij'
    obtain ⟨l1, -⟩ := interact_local (a.vbf T dx) ha.ord hb.stores X U (flowVel2 T 2 dx a vel) hok hI hcr (k := 1) (by change 1 < 2; omega) hij'
    obtain ⟨-, lf⟩ := interact_local (a.vbf T dx) ha.ord hb.stores X U (flowVel2 T 2 dx a vel) hok hI hcr (k := k.1) (by change k.1 < 2; omega) hij'
    have hi : i < a.N := by rw [← hlen]; exact (slot_lt hij).2.2
    rw [l0, l1, lf]
    congr 1
    change (a.stiff * a.lagDx ^ (2 - 1)) * h.P k.1 i + (a.damp * a.lagDx ^ (2 - 1)) * (flowAt _ _ _ k.1 i - U k.1 i) = _
    rw [hflow k.1 k.2 i hi]
    unfold refLag2 mismatch2
    norm_num

/-- The ranks hold the forcing in inner cells; all ghost cells are zero. -/
def ForceClean2 (T : Cart2) (Φ : Fin 2 → C2 → ℝ) (f : Fin 2 → World C2 C2 ℝ) : Prop :=
  ∀ j c p, Valid2 T c → (Inner2 T ((2 : ℕ) : ℤ) p → f j c p = Φ j (globalIx2 T ((2 : ℕ) : ℤ) c p)) ∧ (¬ Inner2 T ((2 : ℕ) : ℤ) p → f j c p = 0)

theorem forceClean2_holds (hT : mkCart2 gy gx py px false = .ok T) {Φ : Fin 2 → C2 → ℝ} {f : Fin 2 → World C2 C2 ℝ} (h : ForceClean2 T Φ f)
    (hc0 : Confined2 gy gx Φ) : HoldsForce2 T 2 Φ f := by
  obtain ⟨e1, e2, -⟩ := construct2_ok hT
  intro j c p hc _ hp
  by_cases hin : Inner2 T ((2 : ℕ) : ℤ) p
  · exact (h j c p hc).1 hin
  · have hD := hp.resolve_left hin
    rw [(h j c p hc).2 hin, hc0]
    rintro ⟨a1, a2, a3, a4⟩
    apply hD
    unfold InDomain2
    omega

theorem refSpread2_confined {dx : ℝ} {a : Ib2} {X : LagField ℝ} (hin : Inside2 gy gx 1 dx a X) (f : LagField ℝ) {Φ : Fin 2 → C2 → ℝ} (h : Confined2 gy gx Φ) :
    Confined2 gy gx (refSpread2 dx a X f Φ) := by
  intro j G hG
  unfold refSpread2
  have h1 : (if a.reset then 0 else Φ j G) = 0 := by split; rfl; exact h j G hG
  rw [h1, zero_add]
  apply List.sum_eq_zero
  intro x hx
  obtain ⟨i, hi, rfl⟩ := List.mem_map.1 hx
  unfold share2n
  rw [if_neg]
  intro hm
  exact hG (hin i (List.mem_range.1 hi) G hm)

/-- the full interaction -/
theorem fullInteract2_holds (hT : mkCart2 gy gx py px false = .ok T) {C : Cfg2} (hg : C.g = 2) (hy : 2 ≤ T.ny) (hx : 2 ≤ T.nx) (hslab : T.py = 1 ∨ T.px = 1)
    {dx : ℝ} (hdx : 0 < dx) (hdx' : simDx2 T C.xr = dx) {a : Ib2} (ha : a.Ok) {s : List Ev} (hs : Complete (multiMsgs2 T 2 false ([0, 1] : List (Fin 2))) s)
    {u : Fin 2 → C2 → ℝ} {S : Sim2 T} (hu : ∀ j, HoldsX2 T 2 (u j) (S.vel j)) (hf : a.auto = true ∨ FreshVel2 T u S.vel)
    {X U X0 : LagField ℝ} {k0 : ℕ} (hin : Inside2 gy gx k0 dx a X) (hn : Noticed2 T dx a X0 X) {h : NodeHist ℝ} {b : IbSt2} (hb : IbHolds2 T dx a h X0 b)
    {Φ : Fin 2 → C2 → ℝ} (hΦ : ForceClean2 T Φ S.forcing) :
    ∃ vel f b', fullInteract2 C a s X U S b = .ok ({ S with vel := vel, forcing := f }, b') ∧ (∀ j, HoldsX2 T 2 (u j) (vel j)) ∧ FreshVel2 T u vel ∧
      IbHolds2 T dx a (refLag2 dx a u X U h) X b' ∧ ForceClean2 T (refSpread2 dx a X (refLag2 dx a u X U h).F Φ) f := by
  obtain ⟨-, -, -, -, hper, -, -⟩ := construct2_ok hT
  set S1 : Sim2 T := if a.reset then { S with forcing := fun _ _ _ => 0 } else S with hS1
  have hv1 : S1.vel = S.vel := by rw [hS1]; split <;> rfl
  obtain ⟨vel, v, hrun, hu', hf', hb', hnodes⟩ := lagInteract2_holds hT hg hy hx hslab hdx hdx' ha hs (S := S1) (u := u) (U := U) (by rw [hv1]; exact hu)
    (by rw [hv1]; exact hf) hin hn hb
  obtain ⟨addr, hm, hlen, hval, hown⟩ := owned_of_inside2 hT (by omega) (by omega) hdx hin
  have hva : v.addr = addr := by
    have := hb'.mapped
    rw [hm] at this
    exact (Except.ok.inj this).symm
  have hΦ1 : ForceClean2 T (fun j G => if a.reset then 0 else Φ j G) S1.forcing := by
    intro j c p hc
    rw [hS1]
    split
    · exact ⟨fun _ => rfl, fun _ => rfl⟩
    · exact hΦ j c p hc
  -- first component
  have key : ∀ (k : Fin 2) (row col : C2 → C2 → ℝ), (∀ c, Valid2 T c → row c = (fun _ => 0) ∧ col c = fun _ => 0) →
      (∀ c p, Valid2 T c → Inner2 T ((2 : ℕ) : ℤ) p →
        (ghostSum2 T 2 (fun c => ⟨spread2 T 2 a.w dx (a.sh dx) (cosW2 dx) c (S1.forcing k c) (rankNodes2 v c k.1), row c, col c⟩) c).A p =
          refSpread2 dx a X (refLag2 dx a u X U h).F Φ k (globalIx2 T ((2 : ℕ) : ℤ) c p)) ∧
      (∀ c p, ¬ Inner2 T ((2 : ℕ) : ℤ) p →
        (ghostSum2 T 2 (fun c => ⟨spread2 T 2 a.w dx (a.sh dx) (cosW2 dx) c (S1.forcing k c) (rankNodes2 v c k.1), row c, col c⟩) c).A p = 0) ∧
      Clean2 T (ghostSum2 T 2 (fun c => ⟨spread2 T 2 a.w dx (a.sh dx) (cosW2 dx) c (S1.forcing k c) (rankNodes2 v c k.1), row c, col c⟩)) := by
    intro k row col hcl
    have hcl' : Clean2 T (fun c => (⟨spread2 T 2 a.w dx (a.sh dx) (cosW2 dx) c (S1.forcing k c) (rankNodes2 v c k.1), row c, col c⟩ : GS2 ℝ)) := hcl
    have hcl2 : Clean2 T (fun c => (⟨S1.forcing k c, row c, col c⟩ : GS2 ℝ)) := hcl
    obtain ⟨s1, s2, s3⟩ := spread2_decomposition_free hper (g := 2) (w := 2) (le_refl 2) hy hx (by omega) (by omega) hdx (cosW2 dx)
      (hown ((refLag2 dx a u X U h).F k.1)) (fun c => ⟨S1.forcing k c, row c, col c⟩) hcl2 (fun c p hc hp => (hΦ1 k c p hc).2 hp)
    obtain ⟨-, g2, g3⟩ := ghostSum2_correct hy hx hcl'
    refine ⟨?_, g2, g3⟩
    intro c p hc hp
    have e := s1 c p hc hp
    unfold spreadSum2 at e
    rw [ghostSum2_global hper hy hx hcl' hc hp]
    rw [ghostSum2_global hper hy hx (w := fun c => { (⟨S1.forcing k c, row c, col c⟩ : GS2 ℝ) with A := spread2 T 2 2 dx (a.sh dx) (cosW2 dx) c (S1.forcing k c) (nodesOf addr ((List.range a.N).map fun i => ((X 0 i, X 1 i), (refLag2 dx a u X U h).F k.1 i)) c) }) hcl2 hc hp] at e
    have hsum : (∑ b ∈ Finset.Ico (0 : ℤ) T.py ×ˢ Finset.Ico (0 : ℤ) T.px,
        if InArr2 T ((2 : ℕ) : ℤ) (localIx2 T ((2 : ℕ) : ℤ) b (globalIx2 T ((2 : ℕ) : ℤ) c p)) then
          spread2 T 2 a.w dx (a.sh dx) (cosW2 dx) b (S1.forcing k b) (rankNodes2 v b k.1) (localIx2 T ((2 : ℕ) : ℤ) b (globalIx2 T ((2 : ℕ) : ℤ) c p)) else 0) =
        ∑ b ∈ Finset.Ico (0 : ℤ) T.py ×ˢ Finset.Ico (0 : ℤ) T.px,
        if InArr2 T ((2 : ℕ) : ℤ) (localIx2 T ((2 : ℕ) : ℤ) b (globalIx2 T ((2 : ℕ) : ℤ) c p)) then
          spread2 T 2 2 dx (a.sh dx) (cosW2 dx) b (S1.forcing k b) (nodesOf addr ((List.range a.N).map fun i => ((X 0 i, X 1 i), (refLag2 dx a u X U h).F k.1 i)) b) (localIx2 T ((2 : ℕ) : ℤ) b (globalIx2 T ((2 : ℕ) : ℤ) c p)) else 0 := by
      apply Finset.sum_congr rfl
      intro b hb2
      have hbv : Valid2 T b := by
        simp only [Finset.mem_product, Finset.mem_Ico] at hb2
        exact ⟨hb2.1.1, hb2.1.2, hb2.2.1, hb2.2.2⟩
      rw [hnodes k b hbv, hva, ha.w]
    refine hsum.trans (e.trans ?_)
    unfold refSpread2
    simp only
    rw [(hΦ1 k c p hc).1 hp, List.map_map]
    rfl
  obtain ⟨p1, p2, p3⟩ := key 0 b.row b.col hb.clean
  obtain ⟨q1, q2, q3⟩ := key 1 _ _ p3
  refine ⟨vel, (spreadForces2 T 2 dx a { b with v := v } S1.forcing).2, (spreadForces2 T 2 dx a { b with v := v } S1.forcing).1, ?_, hu', hf', ?_, ?_⟩
  rotate_left
  · exact ⟨hb'.stores, hb'.mapped, q3⟩
  · intro j c p hc
    match j with
    | 0 => exact ⟨p1 c p hc, p2 c p⟩
    | 1 => exact ⟨q1 c p hc, q2 c p⟩
  · unfold fullInteract2
    simp only
    rw [← hS1, hrun]
    simp only [hg, hdx']
    have e1 : S1.prim = S.prim := by rw [hS1]; split <;> rfl
    have e2 : S1.buf = S.buf := by rw [hS1]; split <;> rfl
    have e3 : S1.stream = S.stream := by rw [hS1]; split <;> rfl
    have e4 : S1.time = S.time := by rw [hS1]; split <;> rfl
    have e5 : S1.solver = S.solver := by rw [hS1]; split <;> rfl
    rw [e1, e2, e3, e4, e5]

end Sopht
