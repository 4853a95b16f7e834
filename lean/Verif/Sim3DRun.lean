import Verif.Sim3DGlobal
import Verif.Sim2DRun

/-! # Whole 3D simulations do not depend on the decomposition (C66) -/

namespace Sopht

set_option linter.unusedSimpArgs false

/-! ## A simulation run -/

/-- One iteration of a driver on all ranks: what it writes into the forcing field, the rule for `dt`, the free stream (if given), the message schedules. -/
structure StepIn3 where
  rule : DtRule
  fs : Option (Fin 3 → ℝ)
  force : Fin 3 → World C3 C3 ℝ
  sch : Scheds3

variable {T : Cart3}

/-- The `dt` of an iteration, and the state after asking for it. -/
noncomputable def pickDt3 (C : Cfg3) (tol : ℝ) (S : Sim3 T) : DtRule → Sim3 T × Except PyErr ℝ
  | .fixed dt => (S, .ok dt)
  | .stable pre => stableDt3 C tol pre S

/-- One iteration, once `dt` is known. -/
noncomputable def iterate3 [NeZero T.gz] [NeZero T.gy] [NeZero T.gx] (C : Cfg3) (K : Kern3) (x : StepIn3) (r : Sim3 T × Except PyErr ℝ) : Out3 T :=
  match r.2 with
  | .error e => (r.1, some e)
  | .ok dt => timeStep3 C K x.sch dt x.fs { r.1 with forcing := x.force }

/-- The driver loop; an exception ends it. -/
noncomputable def simLoop3 [NeZero T.gz] [NeZero T.gy] [NeZero T.gx] (C : Cfg3) (K : Kern3) (tol : ℝ) : List StepIn3 → Sim3 T → Out3 T
  | [], S => (S, none)
  | x :: xs, S => (iterate3 C K x (pickDt3 C tol S x.rule)).andThen (simLoop3 C K tol xs)

/-! ## The same run on the global grid -/

/-- One iteration: rule for `dt`, free stream, forcing. -/
structure StepSpec3 where
  rule : DtRule
  fs : Fin 3 → ℝ
  Φ : Fin 3 → C3 → ℝ

/-- The largest velocity of the grid. -/
noncomputable def maxVel3 (gz gy gx : ℕ) (u : Fin 3 → C3 → ℝ) : ℝ := sSup {x | ∃ G, Dom3 gz gy gx G ∧ x = |u 0 G| + |u 1 G| + |u 2 G|}

/-- The time step: given, or the smaller of the CFL and the diffusion limit. -/
noncomputable def refDt3 (P : Params3) (cfl tol : ℝ) (F : Fields3) : DtRule → ℝ
  | .fixed dt => dt
  | .stable pre => min (cfl * P.dx / (maxVel3 P.gz P.gy P.gx F.u + tol)) (0.9 * P.dx ^ 2 / 6 / (P.nu + tol)) * pre

/-- One step, by flow type. -/
noncomputable def refStep3 (flowType : String) (P : Params3) (K : Kern3) (dt : ℝ) (fs : Fin 3 → ℝ) (Φ : Fin 3 → C3 → ℝ) (F : Fields3) : Fields3 :=
  if flowType = "navier_stokes" then refNS3 P K dt fs F
  else if flowType = "navier_stokes_with_forcing" then refForcing3 P K dt fs Φ F
  else if flowType = "passive_vector" then refVector3 P K dt F
  else refScalar3 P K dt F

/-- The run: fields and time. -/
noncomputable def refRun3 (flowType : String) (P : Params3) (K : Kern3) (cfl tol : ℝ) : List StepSpec3 → Fields3 × ℝ → Fields3 × ℝ
  | [], s => s
  | y :: ys, s => refRun3 flowType P K cfl tol ys
      (refStep3 flowType P K (refDt3 P cfl tol s.1 y.rule) y.fs y.Φ s.1, s.2 + refDt3 P cfl tol s.1 y.rule)

/-- The iteration `x` on the ranks is the iteration `y` on the grid: same rule; Navier-Stokes: same free stream; all its messages are delivered; and, if there is
forcing, the ranks hold it and it vanishes in the outermost cells. -/
structure Means3 (gz gy gx : ℕ) (T : Cart3) (C : Cfg3) (x : StepIn3) (y : StepSpec3) : Prop where
  rule : x.rule = y.rule
  fs : isNS C.flowType = true → x.fs = some y.fs
  done : x.sch.Done T C.g C.full
  force : C.flowType = "navier_stokes_with_forcing" → HoldsForce3 T C.g y.Φ x.force ∧ Confined3 gz gy gx y.Φ

/-- Blocks of a passive flow: default ghost size 2, at least 4 cells per rank and axis. -/
structure GoodPassive3 (T : Cart3) (C : Cfg3) : Prop where
  g : C.g = 2
  nz : 4 ≤ T.nz
  ny : 4 ≤ T.ny
  nx : 4 ≤ T.nx

/-! ## Proofs -/

variable {gz gy gx pz py px : ℕ}

theorem maxVel3_greatest (hz : 0 < gz) (hy : 0 < gy) (hx : 0 < gx) (u : Fin 3 → C3 → ℝ) :
    IsGreatest {x | ∃ G, Dom3 gz gy gx G ∧ x = |u 0 G| + |u 1 G| + |u 2 G|} (maxVel3 gz gy gx u) := by
  have hfin : {x | ∃ G, Dom3 gz gy gx G ∧ x = |u 0 G| + |u 1 G| + |u 2 G|}.Finite := by
    have : {x | ∃ G, Dom3 gz gy gx G ∧ x = |u 0 G| + |u 1 G| + |u 2 G|} ⊆
        (fun G : C3 => |u 0 G| + |u 1 G| + |u 2 G|) '' (Set.Icc (0 : ℤ) gz ×ˢ Set.Icc (0 : ℤ) gy ×ˢ Set.Icc (0 : ℤ) gx) := by
      rintro x ⟨G, ⟨h1, h2, h3, h4, h5, h6⟩, rfl⟩
      exact ⟨G, ⟨⟨h1, le_of_lt h2⟩, ⟨h3, le_of_lt h4⟩, h5, le_of_lt h6⟩, rfl⟩
    exact Set.Finite.subset (Set.Finite.image _ ((Set.finite_Icc _ _).prod ((Set.finite_Icc _ _).prod (Set.finite_Icc _ _)))) this
  have hne : {x | ∃ G, Dom3 gz gy gx G ∧ x = |u 0 G| + |u 1 G| + |u 2 G|}.Nonempty :=
    ⟨_, (0, 0, 0), ⟨by simp, by simpa using hz, by simp, by simpa using hy, by simp, by simpa using hx⟩, rfl⟩
  exact ⟨hne.csSup_mem hfin, fun x hx => le_csSup hfin.bddAbove hx⟩

variable [NeZero T.gz] [NeZero T.gy] [NeZero T.gx]

theorem pickDt3_holds (hT : mkCart3 gz gy gx pz py px false = .ok T) {C : Cfg3} (hg : 1 ≤ C.g) (hcfl : 0 ≤ C.cfl) (hxr : 0 < C.xr) (hnu : 0 ≤ C.nu)
    {tol : ℝ} (htol : 0 < tol) {F : Fields3} {S : Sim3 T} (h : SimHolds3 C F S) (r : DtRule) :
    (pickDt3 C tol S r).2 = .ok (refDt3 (C.params gz gy gx) C.cfl tol F r) ∧ SimHolds3 C F (pickDt3 C tol S r).1 ∧ (pickDt3 C tol S r).1.time = S.time := by
  obtain ⟨e0, e1, e2, -⟩ := construct3_ok hT
  have n0 : T.gz ≠ 0 := NeZero.ne _
  have n1 : T.gy ≠ 0 := NeZero.ne _
  have n2 : T.gx ≠ 0 := NeZero.ne _
  cases r with
  | fixed dt => exact ⟨rfl, h, rfl⟩
  | stable pre =>
    refine ⟨?_, ⟨h.sc, h.om, h.u, h.green⟩, rfl⟩
    have hM := maxVel3_greatest (gz := gz) (gy := gy) (gx := gx) (by omega) (by omega) (by omega) F.u
    have hset : {x | ∃ G, Dom3 gz gy gx G ∧ x = |F.u 0 G| + |F.u 1 G| + |F.u 2 G|} = {x | ∃ G, InDomain3 T G ∧ x = |F.u 0 G| + |F.u 1 G| + |F.u 2 G|} := by
      ext x
      simp only [Set.mem_setOf_eq]
      constructor
      · rintro ⟨G, hG, rfl⟩; exact ⟨G, (dom3_iff hT G).1 hG, rfl⟩
      · rintro ⟨G, hG, rfl⟩; exact ⟨G, (dom3_iff hT G).2 hG, rfl⟩
    rw [hset] at hM
    exact stableDt3_global hT C hg htol hnu pre hcfl hxr.le S (fun j => holdsX3_holds (h.u j)) hM

/-- one step -/
theorem flowStep3_holds (hT : mkCart3 gz gy gx pz py px false = .ok T) {C : Cfg3} (hNS : isNS C.flowType = true → Good3 T C)
    (hPS : isNS C.flowType = false → GoodPassive3 T C) (hxr : 0 < C.xr) (hft : C.flowType ∈ flowTypes3)
    {K : Kern3} (hK : K.Local) (hK0 : ∀ a, K.upd a (fun _ _ => 0) = 0) {x : StepIn3} {y : StepSpec3} (hxy : Means3 gz gy gx T C x y)
    (dt : ℝ) {F : Fields3} {S : Sim3 T} (h : SimHolds3 C F S) (hS : S.forcing = x.force) :
    (flowStep3 C K x.sch dt x.fs S).2 = none ∧
      SimHolds3 C (refStep3 C.flowType (C.params gz gy gx) K dt y.fs y.Φ F) (flowStep3 C K x.sch dt x.fs S).1 := by
  unfold flowStep3 refStep3
  simp only [flowTypes3, List.mem_cons, List.not_mem_nil, or_false] at hft
  rcases hft with h1 | h1 | h1 | h1
  · have hp : isNS C.flowType = false := by rw [h1]; rfl
    have n1 : C.flowType ≠ "navier_stokes" := by rw [h1]; simp
    have n2 : C.flowType ≠ "navier_stokes_with_forcing" := by rw [h1]; simp
    have n3 : C.flowType ≠ "passive_vector" := by rw [h1]; simp
    simp only [hp, Bool.false_eq_true, if_false, if_neg n1, if_neg n2, if_neg n3]
    have hP := hPS hp
    obtain ⟨a1, a2⟩ := scalarStep3_holds hT hP.g hP.nz hP.ny hP.nx hK (hxy.done.adv 0) (hxy.done.diff 0) dt h.sc h.u
    exact ⟨trivial, ⟨a1, h.om, a2, h.green⟩⟩
  · have hp : isNS C.flowType = false := by rw [h1]; rfl
    have n1 : C.flowType ≠ "navier_stokes" := by rw [h1]; simp
    have n2 : C.flowType ≠ "navier_stokes_with_forcing" := by rw [h1]; simp
    simp only [hp, Bool.false_eq_true, if_false, if_neg n1, if_neg n2, if_pos h1]
    have hP := hPS hp
    have a := vectorStep3_holds hT hP.g hP.nz hP.ny hP.nx hK hxy.done.adv hxy.done.diff dt h.om h.u
    exact ⟨trivial, ⟨h.sc, fun j => (a j).1, fun j => (a j).2, h.green⟩⟩
  · have hp : isNS C.flowType = true := by rw [h1]; rfl
    rw [hxy.fs hp]
    simp only [hp, if_true, if_pos h1]
    exact nsStep3_holds hT (hNS hp) hxr hK hxy.done dt y.fs h
  · have hp : isNS C.flowType = true := by rw [h1]; rfl
    have n1 : C.flowType ≠ "navier_stokes" := by rw [h1]; simp
    rw [hxy.fs hp]
    simp only [hp, if_true, if_neg n1, if_pos h1]
    obtain ⟨f1, f2⟩ := hxy.force h1
    exact nsForcingStep3_holds hT (hNS hp) hxr hK hK0 hxy.done dt y.fs h (by rw [hS]; exact f1) f2

/-- one iteration -/
theorem iterate3_holds (hT : mkCart3 gz gy gx pz py px false = .ok T) {C : Cfg3} (hNS : isNS C.flowType = true → Good3 T C)
    (hPS : isNS C.flowType = false → GoodPassive3 T C) (hxr : 0 < C.xr) (hft : C.flowType ∈ flowTypes3)
    {K : Kern3} (hK : K.Local) (hK0 : ∀ a, K.upd a (fun _ _ => 0) = 0) {x : StepIn3} {y : StepSpec3} (hxy : Means3 gz gy gx T C x y)
    {F : Fields3} {r : Sim3 T × Except PyErr ℝ} {dt : ℝ} (hr : r.2 = .ok dt) (h : SimHolds3 C F r.1) :
    (iterate3 C K x r).2 = none ∧ SimHolds3 C (refStep3 C.flowType (C.params gz gy gx) K dt y.fs y.Φ F) (iterate3 C K x r).1 ∧
    (iterate3 C K x r).1.time = r.1.time + dt := by
  have h' : SimHolds3 C F { r.1 with forcing := x.force } := ⟨h.sc, h.om, h.u, h.green⟩
  obtain ⟨k1, k2⟩ := flowStep3_holds hT hNS hPS hxr hft hK hK0 hxy dt h' rfl
  have k3 := flowStep3_time C K x.sch dt x.fs { r.1 with forcing := x.force }
  unfold iterate3
  rw [hr]
  simp only
  unfold timeStep3 Out3.andThen
  rw [k1]
  simp only
  exact ⟨trivial, ⟨k2.sc, k2.om, k2.u, k2.green⟩, by rw [k3]⟩

/-- C66: any number of iterations on any decomposition: no exception, and the ranks hold the fields of the run on the global grid. -/
theorem simLoop3_holds (hT : mkCart3 gz gy gx pz py px false = .ok T) {C : Cfg3} (hNS : isNS C.flowType = true → Good3 T C)
    (hPS : isNS C.flowType = false → GoodPassive3 T C) (hxr : 0 < C.xr) (hft : C.flowType ∈ flowTypes3) (hcfl : 0 ≤ C.cfl) (hnu : 0 ≤ C.nu)
    {tol : ℝ} (htol : 0 < tol) {K : Kern3} (hK : K.Local) (hK0 : ∀ a, K.upd a (fun _ _ => 0) = 0)
    {xs : List StepIn3} {ys : List StepSpec3} (hxy : List.Forall₂ (Means3 gz gy gx T C) xs ys)
    {F : Fields3} {S : Sim3 T} (h : SimHolds3 C F S) :
    (simLoop3 C K tol xs S).2 = none ∧
    SimHolds3 C (refRun3 C.flowType (C.params gz gy gx) K C.cfl tol ys (F, S.time)).1 (simLoop3 C K tol xs S).1 ∧
    (simLoop3 C K tol xs S).1.time = (refRun3 C.flowType (C.params gz gy gx) K C.cfl tol ys (F, S.time)).2 := by
  have hg : 1 ≤ C.g := by
    cases hp : isNS C.flowType with
    | true => exact (hNS hp).g
    | false => rw [(hPS hp).g]; omega
  induction hxy generalizing F S with
  | nil => exact ⟨rfl, h, rfl⟩
  | @cons x y xs ys hxy _ ih =>
    obtain ⟨d1, d2, d3⟩ := pickDt3_holds hT hg hcfl hxr hnu htol h x.rule
    obtain ⟨i1, i2, i3⟩ := iterate3_holds hT hNS hPS hxr hft hK hK0 hxy d1 d2
    have := ih i2
    rw [i3, d3] at this
    unfold simLoop3 refRun3 Out3.andThen
    rw [← hxy.rule, i1]
    simp only
    exact this

/-! ## From the constructor -/

/-- A simulator is accepted by the constructor and fits its decomposition. Passive flows: default ghost size 2, at least 4 cells per rank and axis.
Navier-Stokes: at least 2 cells, the ghost layer and the penalty zone per rank and axis; penalty zone at least one cell wide; along every axis one rank or an even
number of ranks; filter, if any, of order at least 1. -/
structure Fit3 (a : SimArgs3) (T : Cart3) : Prop where
  built : simCheck3 a = .ok T
  passive : isNS a.flowType = false → a.g = 2 ∧ 4 ≤ T.nz ∧ 4 ≤ T.ny ∧ 4 ≤ T.nx
  ns : isNS a.flowType = true → (2 ≤ T.nz ∧ 2 ≤ T.ny ∧ 2 ≤ T.nx) ∧ (a.g ≤ T.nz ∧ a.g ≤ T.ny ∧ a.g ≤ T.nx) ∧
    (∃ w : ℕ, a.width = .int w ∧ 1 ≤ w ∧ w ≤ T.nz ∧ w ≤ T.ny ∧ w ≤ T.nx) ∧ EvenTopo3 T ∧
    ∀ o ty, filterInUse a = some (.int o, ty) → 1 ≤ o

omit [NeZero T.gz] [NeZero T.gy] [NeZero T.gx] in
theorem Fit3.good {a : SimArgs3} (h : Fit3 a T) (xr nu cfl : ℝ) (hns : isNS a.flowType = true) : Good3 T (simCfg3 a xr nu cfl) := by
  obtain ⟨⟨h1, h2, h3⟩, ⟨h4, h5, h6⟩, ⟨w, hw, w1, w2, w3, w4⟩, h7, h8⟩ := h.ns hns
  obtain ⟨-, hb⟩ := (simCheck3_ok_iff a).1 ⟨T, h.built⟩
  have hb' : 1 ≤ a.g ∧ (a.filterVorticity = true → FilterOk (filterInUse a)) := by
    rcases hb with ⟨h0 | h0, -⟩ | ⟨-, hb⟩
    · rw [h0] at hns; cases hns
    · rw [h0] at hns; cases hns
    · exact ⟨hb.1, hb.2.2.2⟩
  have hwid : widthOf a.width = w := by rw [hw]; simp [widthOf]
  refine ⟨hb'.1, h4, h5, h6, h1, h2, h3, ?_, ?_, ?_, ?_, h7, ?_⟩
  · show 1 ≤ widthOf a.width
    rw [hwid]; exact w1
  · show widthOf a.width ≤ T.nz
    rw [hwid]; exact w2
  · show widthOf a.width ≤ T.ny
    rw [hwid]; exact w3
  · show widthOf a.width ≤ T.nx
    rw [hwid]; exact w4
  · intro order ty hf
    have hf' : filterNums (filterInUse a) = some (order, ty) := hf
    cases hfi : filterInUse a with
    | none => rw [hfi] at hf'; cases hf'
    | some ot =>
      obtain ⟨o, ty'⟩ := ot
      rw [hfi] at hf'
      have hv : a.filterVorticity = true := by
        unfold filterInUse at hfi
        split at hfi
        · assumption
        · cases hfi
      obtain ⟨⟨n, rfl⟩, -⟩ := hb'.2 hv o ty' hfi
      have := h8 n ty' hfi
      have he : (n : ℤ).toNat = order := by
        have := congrArg (fun x => (x.getD (0, "")).1) hf'
        exact this
      omega

/-- The initial state a user sets up: the constructor's zero fields, then every rank fills the primary fields and the velocity (ghost cells included) from its
`position_field`. -/
noncomputable def initFrom3 (T : Cart3) [NeZero T.gz] [NeZero T.gy] [NeZero T.gx] (g : ℕ) (xr time : ℝ) (dbl0 : World C3 C3 ℝ) (conv0 : Dbl3 T → ℂ)
    (sc : ℝ → ℝ → ℝ → ℝ) (om u : Fin 3 → ℝ → ℝ → ℝ → ℝ) : Sim3 T :=
  { simInit3 T xr time dbl0 conv0 with
    sc := fun c p => sc (position3 T g xr c 0 p) (position3 T g xr c 1 p) (position3 T g xr c 2 p)
    om := fun j c p => om j (position3 T g xr c 0 p) (position3 T g xr c 1 p) (position3 T g xr c 2 p)
    vel := fun j c p => u j (position3 T g xr c 0 p) (position3 T g xr c 1 p) (position3 T g xr c 2 p) }

/-- The value of a function of x, y, z at the centre of cell `G = (z, y, x)`. -/
noncomputable def atCentre3 (dx : ℝ) (f : ℝ → ℝ → ℝ → ℝ) (G : C3) : ℝ := f ((G.2.2 + 1 / 2) * dx) ((G.2.1 + 1 / 2) * dx) ((G.1 + 1 / 2) * dx)

/-- The same fields on the global grid: their values at the cell centres. -/
noncomputable def fieldsFrom3 (dx : ℝ) (sc : ℝ → ℝ → ℝ → ℝ) (om u : Fin 3 → ℝ → ℝ → ℝ → ℝ) : Fields3 :=
  { sc := atCentre3 dx sc, om := fun j => atCentre3 dx (om j), u := fun j => atCentre3 dx (u j) }

theorem initFrom3_holds (hT : mkCart3 gz gy gx pz py px false = .ok T) (C : Cfg3) (time : ℝ) (dbl0 : World C3 C3 ℝ) (conv0 : Dbl3 T → ℂ)
    (sc : ℝ → ℝ → ℝ → ℝ) (om u : Fin 3 → ℝ → ℝ → ℝ → ℝ) :
    SimHolds3 C (fieldsFrom3 (C.xr / gx) sc om u) (initFrom3 T C.g C.xr time dbl0 conv0 sc om u) := by
  obtain ⟨-, -, e2, -⟩ := construct3_ok hT
  have key : ∀ (f : ℝ → ℝ → ℝ → ℝ) c p, InArr3 T C.g p →
      f (position3 T C.g C.xr c 0 p) (position3 T C.g C.xr c 1 p) (position3 T C.g C.xr c 2 p) = atCentre3 (C.xr / gx) f (globalIx3 T C.g c p) := by
    intro f c p ha
    obtain ⟨h1, h2, h3⟩ := position3_cells T C.g C.xr c ha
    unfold atCentre3
    rw [h1, h2, h3, e2]
  exact ⟨fun c p hc ha _ => key sc c p ha, fun j c p hc ha _ => key (om j) c p ha, fun j c p hc ha _ => key (u j) c p ha, dbl0, conv0, rfl⟩

/-- C66: a simulation constructed, initialised from the coordinates and driven for any number of iterations (time steps given or stable, every flow type) returns
from every call and leaves in every inner cell of every rank the value of the run on the global grid. -/
theorem sim3_run {a : SimArgs3} (h : Fit3 a T) {xr : ℝ} (hxr : 0 < xr) {nu : ℝ} (hnu : 0 ≤ nu) {cfl : ℝ} (hcfl : 0 ≤ cfl) {tol : ℝ} (htol : 0 < tol)
    {K : Kern3} (hK : K.Local) (hK0 : ∀ r, K.upd r (fun _ _ => 0) = 0) (time : ℝ) (dbl0 : World C3 C3 ℝ) (conv0 : Dbl3 T → ℂ)
    (sc : ℝ → ℝ → ℝ → ℝ) (om u : Fin 3 → ℝ → ℝ → ℝ → ℝ) {xs : List StepIn3} {ys : List StepSpec3}
    (hxy : List.Forall₂ (Means3 a.gz a.gy a.gx T (simCfg3 a xr nu cfl)) xs ys) :
    let out := simLoop3 (simCfg3 a xr nu cfl) K tol xs (initFrom3 T a.g xr time dbl0 conv0 sc om u)
    let ref := refRun3 a.flowType ⟨a.gz, a.gy, a.gx, xr, nu, widthOf a.width, a.freeStream, filterNums (filterInUse a)⟩ K cfl tol ys
      (fieldsFrom3 (xr / a.gx) sc om u, time)
    out.2 = none ∧ out.1.time = ref.2 ∧ ∀ c p, Valid3 T c → Inner3 T a.g p →
      out.1.sc c p = ref.1.sc (globalIx3 T a.g c p) ∧
      ∀ j, out.1.om j c p = ref.1.om j (globalIx3 T a.g c p) ∧ out.1.vel j c p = ref.1.u j (globalIx3 T a.g c p) := by
  obtain ⟨hT, hft⟩ := simCheck3_cart h.built
  have hinit := initFrom3_holds hT (simCfg3 a xr nu cfl) time dbl0 conv0 sc om u
  obtain ⟨r1, r2, r3⟩ := simLoop3_holds hT (fun hn => h.good xr nu cfl hn)
    (fun hn => ⟨(h.passive hn).1, (h.passive hn).2.1, (h.passive hn).2.2.1, (h.passive hn).2.2.2⟩) hxr hft hcfl hnu htol hK hK0 hxy hinit
  intro out ref
  exact ⟨r1, r3, fun c p hc hp => ⟨r2.sc c p hc (inArr_of_inner3 hp) (Or.inl hp), fun j => ⟨r2.om j c p hc (inArr_of_inner3 hp) (Or.inl hp),
    r2.u j c p hc (inArr_of_inner3 hp) (Or.inl hp)⟩⟩⟩

/-- C66: the same simulation on two decompositions (one of them possibly a single rank), under any message schedules, gives the same time and the same values in
every cell of the global grid. -/
theorem sim3_decomposition_independent {a a' : SimArgs3} (hsame : a' = { a with pz := a'.pz, py := a'.py, px := a'.px }) {T' : Cart3}
    [NeZero T'.gz] [NeZero T'.gy] [NeZero T'.gx] (h : Fit3 a T) (h' : Fit3 a' T') {xr : ℝ} (hxr : 0 < xr) {nu : ℝ} (hnu : 0 ≤ nu) {cfl : ℝ} (hcfl : 0 ≤ cfl)
    {tol : ℝ} (htol : 0 < tol) {K : Kern3} (hK : K.Local) (hK0 : ∀ r, K.upd r (fun _ _ => 0) = 0) (time : ℝ) (dbl0 dbl0' : World C3 C3 ℝ)
    (conv0 : Dbl3 T → ℂ) (conv0' : Dbl3 T' → ℂ) (sc : ℝ → ℝ → ℝ → ℝ) (om u : Fin 3 → ℝ → ℝ → ℝ → ℝ) {xs xs' : List StepIn3} {ys : List StepSpec3}
    (hxy : List.Forall₂ (Means3 a.gz a.gy a.gx T (simCfg3 a xr nu cfl)) xs ys)
    (hxy' : List.Forall₂ (Means3 a'.gz a'.gy a'.gx T' (simCfg3 a' xr nu cfl)) xs' ys) :
    let out := simLoop3 (simCfg3 a xr nu cfl) K tol xs (initFrom3 T a.g xr time dbl0 conv0 sc om u)
    let out' := simLoop3 (simCfg3 a' xr nu cfl) K tol xs' (initFrom3 T' a'.g xr time dbl0' conv0' sc om u)
    out.2 = none ∧ out'.2 = none ∧ out.1.time = out'.1.time ∧
    ∀ c p c' p', Valid3 T c → Inner3 T a.g p → Valid3 T' c' → Inner3 T' a'.g p' → globalIx3 T a.g c p = globalIx3 T' a'.g c' p' →
      out.1.sc c p = out'.1.sc c' p' ∧ ∀ j, out.1.om j c p = out'.1.om j c' p' ∧ out.1.vel j c p = out'.1.vel j c' p' := by
  obtain ⟨r1, r2, r3⟩ := sim3_run h hxr hnu hcfl htol hK hK0 time dbl0 conv0 sc om u hxy
  obtain ⟨s1, s2, s3⟩ := sim3_run h' hxr hnu hcfl htol hK hK0 time dbl0' conv0' sc om u hxy'
  have e : refRun3 a'.flowType ⟨a'.gz, a'.gy, a'.gx, xr, nu, widthOf a'.width, a'.freeStream, filterNums (filterInUse a')⟩ K cfl tol ys
      (fieldsFrom3 (xr / a'.gx) sc om u, time) =
    refRun3 a.flowType ⟨a.gz, a.gy, a.gx, xr, nu, widthOf a.width, a.freeStream, filterNums (filterInUse a)⟩ K cfl tol ys
      (fieldsFrom3 (xr / a.gx) sc om u, time) := by
    rw [hsame]; rfl
  rw [e] at s2 s3
  intro out out'
  refine ⟨r1, s1, r2.trans s2.symm, ?_⟩
  intro c p c' p' hc hp hc' hp' hG
  obtain ⟨q1, q2⟩ := r3 c p hc hp
  obtain ⟨t1, t2⟩ := s3 c' p' hc' hp'
  rw [← hG] at t1
  refine ⟨q1.trans t1.symm, fun j => ?_⟩
  have tj := t2 j
  rw [← hG] at tj
  exact ⟨(q2 j).1.trans tj.1.symm, (q2 j).2.trans tj.2.symm⟩

/-! ## The hypotheses can be met -/

/-- schedules that deliver everything exist for every decomposition -/
theorem scheds3_exist (T : Cart3) (g : ℕ) (full : Bool) : ∃ sch : Scheds3, sch.Done T g full := by
  obtain ⟨s1, h1⟩ := complete_schedule_exists (multiMsgs3 T g full ([0, 1, 2] : List (Fin 3)))
  obtain ⟨s2, h2⟩ := complete_schedule_exists (multiMsgs3 T g full [none, some (0 : Fin 3), some 1, some 2])
  obtain ⟨s3, h3⟩ := complete_schedule_exists (multiMsgs3 T g full [()])
  obtain ⟨s4, h4⟩ := complete_schedule_exists (toMsgs3 T g)
  obtain ⟨s5, h5⟩ := complete_schedule_exists (fromMsgs3 T g)
  exact ⟨⟨(fun _ => [], s1), (fun _ => [], s1), fun _ => (fun _ => [], s2), fun _ => (fun _ => [], s3), fun _ _ _ => (fun _ => [], s3), fun _ => (s4, s5),
    (fun _ => [], s1)⟩, ⟨h1, h1, fun _ => h2, fun _ => h3, fun _ _ _ => h3, fun _ => ⟨h4, h5⟩, h1⟩⟩

/-- an 8×8×4 grid with forcing and filter, ghost size 1, on 2×2×1 ranks, on 2×1×1 ranks and on a single rank; a passive vector on 2×2×2 ranks -/
example : Fit3 ⟨8, 8, 4, 2, 2, 1, "navier_stokes_with_forcing", true, some (.int 3, "convolution"), true, 1, .int 2⟩ ⟨8, 8, 4, 2, 2, 1, 4, 4, 4, false⟩ ∧
    Fit3 ⟨8, 8, 4, 2, 1, 1, "navier_stokes_with_forcing", true, some (.int 3, "convolution"), true, 1, .int 2⟩ ⟨8, 8, 4, 2, 1, 1, 4, 8, 4, false⟩ ∧
    Fit3 ⟨8, 8, 4, 1, 1, 1, "navier_stokes_with_forcing", true, some (.int 3, "convolution"), true, 1, .int 2⟩ ⟨8, 8, 4, 1, 1, 1, 8, 8, 4, false⟩ ∧
    Fit3 ⟨8, 8, 8, 2, 2, 2, "passive_vector", false, none, false, 2, .int 2⟩ ⟨8, 8, 8, 2, 2, 2, 4, 4, 4, false⟩ := by
  refine ⟨⟨by decide, (by intro h; cases h), fun _ => ⟨by decide, by decide, ⟨2, rfl, by decide, by decide, by decide, by decide⟩, by unfold EvenTopo3; decide, ?_⟩⟩,
    ⟨by decide, (by intro h; cases h), fun _ => ⟨by decide, by decide, ⟨2, rfl, by decide, by decide, by decide, by decide⟩, by unfold EvenTopo3; decide, ?_⟩⟩,
    ⟨by decide, (by intro h; cases h), fun _ => ⟨by decide, by decide, ⟨2, rfl, by decide, by decide, by decide, by decide⟩, by unfold EvenTopo3; decide, ?_⟩⟩,
    ⟨by decide, fun _ => by decide, (by intro h; cases h)⟩⟩
  all_goals
    intro o ty hf
    simp only [filterInUse, if_true, Option.getD_some, Option.some.injEq, Prod.mk.injEq, PyNum.int.injEq] at hf
    omega

/-- forcing confined to a cell in the middle of the grid; every rank holding its values there and zero elsewhere -/
example (T : Cart3) : ∃ Φ : Fin 3 → C3 → ℝ, Confined3 8 8 4 Φ ∧ Φ 0 (5, 4, 2) = 3 ∧ ∃ v, HoldsForce3 T 1 Φ v :=
  ⟨fun j G => if j = 0 ∧ G = (5, 4, 2) then 3 else 0, by
    intro j G h
    dsimp only
    split
    · rename_i h'
      exfalso; apply h
      rw [h'.2]; simp [Away3]
    · rfl, by simp, fun j c p => if j = 0 ∧ globalIx3 T ((1 : ℕ) : ℤ) c p = (5, 4, 2) then 3 else 0, fun _ _ _ _ _ _ => rfl⟩

/-- kernels as in `sopht`: central differences, and a flux over two neighbours -/
example : ∃ K : Kern3, K.Local ∧ (∀ r, K.upd r (fun _ _ => 0) = 0) ∧ K.curl 1 (fun _ d => (d.1 : ℝ)) = (-2, 2, 0) :=
  ⟨{ diff := fun a f => a * (f () (1, 0, 0) + f () (-1, 0, 0) + f () (0, 1, 0) + f () (0, -1, 0) + f () (0, 0, 1) + f () (0, 0, -1) - 6 * f () (0, 0, 0))
     adv := fun a f => a * (f (some 0) (0, 0, 0) * (f none (0, 0, 2) - f none (0, 0, -2)) + f (some 1) (0, 0, 0) * (f none (0, 2, 0) - f none (0, -2, 0)) +
       f (some 2) (0, 0, 0) * (f none (2, 0, 0) - f none (-2, 0, 0)))
     curl := fun a f => (a * (f 2 (0, 1, 0) - f 2 (0, -1, 0) - f 1 (1, 0, 0) + f 1 (-1, 0, 0)), a * (f 0 (1, 0, 0) - f 0 (-1, 0, 0) - f 2 (0, 0, 1) + f 2 (0, 0, -1)),
       a * (f 1 (0, 0, 1) - f 1 (0, 0, -1) - f 0 (0, 1, 0) + f 0 (0, -1, 0)))
     upd := fun a f => (a * (f 2 (0, 1, 0) - f 2 (0, -1, 0) - f 1 (1, 0, 0) + f 1 (-1, 0, 0)), a * (f 0 (1, 0, 0) - f 0 (-1, 0, 0) - f 2 (0, 0, 1) + f 2 (0, 0, -1)),
       a * (f 1 (0, 0, 1) - f 1 (0, 0, -1) - f 0 (0, 1, 0) + f 0 (0, -1, 0)))
     div := fun a f => a * (f 0 (0, 0, 1) - f 0 (0, 0, -1)) },
   by
    constructor <;> intro a A B h <;> simp only <;>
      (repeat rw [h _ _ (by simp [Cross3])]), by intro r; simp, by norm_num⟩

end Sopht
