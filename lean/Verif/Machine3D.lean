import Verif.Machine2D
import Verif.Sim3DGlobalLemmas

/-!
# Passive transport in machine arithmetic (3D)

As `Machine2D`, for the passive scalar and the passive vector simulators in 3D.
-/

namespace Sopht

/-- What the machine computes in a passive simulator (`K` has type `real_t`, `D` is the type of the time step).
* `adv dt`: the advection flux kernel with factor `-real_t(dt / dx)` (`sopht_mpi/simulator/flow/flow_simulators_mpi_3d.py:356-362, 369-375`);
* `diff dt`: the diffusion flux kernel with prefactor `real_t(nu * dt / dx / dx)` (flow_simulators_mpi_3d.py:363-367, 376-380);
* `mag`: `np.sum(np.fabs(velocity), axis=0)` in one cell (431); `limit`: `min(CFL * dx / (greatest + tol), 0.9 * dx**2 / 6 / (nu + tol))` (432-446);
* `scale`: `dt * dt_prefac` (449); `tick`: `time + dt` (349). -/
structure Num3 (K D : Type) where
  adv : D → (Option (Fin 3) → C3 → K) → K
  diff : D → (Unit → C3 → K) → K
  mag : K → K → K → K
  limit : K → D
  scale : D → D → D
  tick : D → D → D

section
variable {K D : Type}

/-- The kernels look at neighbours along the axes: advection at most 2 cells away, diffusion 1. -/
structure Num3.Local (N : Num3 K D) : Prop where
  adv : ∀ a, CrossLocal3 2 (N.adv a)
  diff : ∀ a, CrossLocal3 1 (N.diff a)

/-- A greater velocity magnitude never gives a greater time step limit. -/
def Num3.Slower [LE K] [LE D] (N : Num3 K D) : Prop :=
  ∀ a b c a' b' c', N.mag a b c ≤ N.mag a' b' c' → N.limit (N.mag a' b' c') ≤ N.limit (N.mag a b c)

/-- `advection_timestep_euler_forward_conservative_eno3_pyst_mpi_kernel_3d` (advection_timestep_mpi_3d.py:40-62), as `advectionStep3` with
ghost size 2, but for a type `K` with `+` and `0` only; `f` is the flux kernel with its factor. -/
def machAdv3 [Add K] [Zero K] (T : Cart3) (f : (Option (Fin 3) → C3 → K) → K)
    (s1 : C3 → List Ev) (s : List Ev) (vel : World C3 (Fin 3 × C3) K) (st : StepState C3 C3 K) :
    World C3 (Fin 3 × C3) K × StepState C3 C3 K :=
  let comps : List (Option (Fin 3)) := [none, some 0, some 1, some 2]
  let w : World C3 (Option (Fin 3) × C3) K := fun c i => match i.1 with
    | none => st.field c i.2
    | some j => vel c (j, i.2)
  let flux0 : C3 → C3 → K := fun _ _ => 0
  let flux := stencilAdd3 T 2 false comps 2 f w s1 s flux0
  let w' := multiExchange3 T 2 false comps w s
  (fun c i => w' c (some i.1, i.2), ⟨addFlux3 (fun c i => w' c (none, i)) flux, flux⟩)

/-- it is the step of the other chapters when `K` is a group -/
theorem machAdv3_eq [AddGroup K] (T : Cart3) (f : K → (Option (Fin 3) → C3 → K) → K) (a : K) (s1 : C3 → List Ev) (s : List Ev)
    (vel : World C3 (Fin 3 × C3) K) (st : StepState C3 C3 K) :
    machAdv3 T (f (-a)) s1 s vel st = advectionStep3 T 2 false f a s1 s vel st := by
  unfold machAdv3 advectionStep3
  congr 1

/-- `vector_field_advection_timestep_…_3d` (advection_timestep_mpi_3d.py:66-93): components 0, 1, 2 in turn with one flux buffer. -/
def machAdvVec3 [Add K] [Zero K] (T : Cart3) (f : (Option (Fin 3) → C3 → K) → K) (sch : Fin 3 → Sched3)
    (vs : World C3 (Fin 3 × C3) K × VecStepState K) : World C3 (Fin 3 × C3) K × VecStepState K :=
  ([0, 1, 2] : List (Fin 3)).foldl (fun vs i =>
    let r := machAdv3 T f (sch i).1 (sch i).2 vs.1 ⟨vs.2.field i, vs.2.flux⟩
    (r.1, ⟨Function.update vs.2.field i r.2.field, r.2.flux⟩)) vs

/-- Arrays and time of a passive simulator: `primary_scalar_field` (`sc`) or `primary_vector_field` (`om`), `velocity_field`, `buffer_scalar_field`
(flow_simulators_mpi_3d.py:170-196), `time`. -/
structure Mach3 (K D : Type) where
  sc : World C3 C3 K
  om : Fin 3 → World C3 C3 K
  vel : World C3 (Fin 3 × C3) K
  buf : C3 → C3 → K
  time : D

/-- `time_step` of a passive simulator (flow_simulators_mpi_3d.py:336-380); `vec` = the flow type is `passive_vector`. `sa`, `sd` are the message
schedules of the exchanges, per component. -/
def machStep3 [Add K] [Zero K] (N : Num3 K D) (T : Cart3) (vec : Bool) (sa sd : Fin 3 → Sched3) (dt : D) (S : Mach3 K D) : Mach3 K D :=
  if vec then
    let r := machAdvVec3 T (N.adv dt) sa (S.vel, ⟨S.om, S.buf⟩)
    let q := diffusionVecStep3 T 2 false (N.diff dt) sd r.2
    { S with om := q.field, vel := r.1, buf := q.flux, time := N.tick S.time dt }
  else
    let r := machAdv3 T (N.adv dt) (sa 0).1 (sa 0).2 S.vel ⟨S.sc, S.buf⟩
    let q := diffusionStep3 T 2 false (N.diff dt) (sd 0).1 (sd 0).2 r.2
    { S with sc := q.field, vel := r.1, buf := q.flux, time := N.tick S.time dt }

/-- `compute_stable_timestep` (flow_simulators_mpi_3d.py:426-449): the magnitude is left in the scalar buffer. -/
def machStable3 [LinearOrder K] [LinearOrder D] (N : Num3 K D) (T : Cart3) (prefac : D) (S : Mach3 K D) : Mach3 K D × Except PyErr D :=
  let mag : C3 → C3 → K := fun c p => N.mag (S.vel c (0, p)) (S.vel c (1, p)) (S.vel c (2, p))
  ({ S with buf := mag }, (allminK (ranks3 T) fun c => (amaxK ((innerCells3 T 2).map (mag c))).map N.limit).map fun dt => N.scale dt prefac)

/-- One round of a driver's loop: it may assign the velocity arrays, takes a time step and calls `time_step`
(`examples/3d_examples/PointSourceAdvectAndDiffuseCase/point_source_advection_diffusion.py:64, 109-132`). -/
structure MIn3 (K D : Type) where
  vel : Option (World C3 (Fin 3 × C3) K)
  rule : MRule D
  sa : Fin 3 → Sched3
  sd : Fin 3 → Sched3

/-- The driver's loop. -/
def machRun3 [Add K] [Zero K] [LinearOrder K] [LinearOrder D] (N : Num3 K D) (T : Cart3) (vec : Bool) :
    List (MIn3 K D) → Mach3 K D → Mach3 K D × Option PyErr
  | [], S => (S, none)
  | x :: xs, S =>
    let S := match x.vel with
      | none => S
      | some w => { S with vel := w }
    match x.rule with
    | .given dt => machRun3 N T vec xs (machStep3 N T vec x.sa x.sd dt S)
    | .stable prefac =>
      match machStable3 N T prefac S with
      | (S, .error e) => (S, some e)
      | (S, .ok dt) => machRun3 N T vec xs (machStep3 N T vec x.sa x.sd dt S)

/-! ## Specification: the same operations on the global grid -/

/-- Fields on the global grid, continued beyond its sides. -/
structure MFields3 (K : Type) where
  sc : C3 → K
  om : Fin 3 → C3 → K
  u : Fin 3 → C3 → K

/-- Advection: the kernel adds its flux to a zero buffer in the cells of the domain, then the buffer is added everywhere. -/
def mAdv3 [Add K] [Zero K] (N : Num3 K D) (gz gy gx : ℕ) (dt : D) (u : Fin 3 → C3 → K) (F : C3 → K) : C3 → K := fun G =>
  F G + (if Dom3 gz gy gx G then (0 : K) + N.adv dt (fun i d => match i with
    | none => F (G.1 + d.1, G.2.1 + d.2.1, G.2.2 + d.2.2)
    | some j => u j (G.1 + d.1, G.2.1 + d.2.1, G.2.2 + d.2.2)) else 0)

/-- Diffusion: the flux is zero in the outermost cells and outside. -/
def mDiff3 [Add K] [Zero K] (N : Num3 K D) (gz gy gx : ℕ) (dt : D) (F : C3 → K) : C3 → K := fun G =>
  F G + (if Dom3 gz gy gx G ∧ ¬ OnEdge3 gz gy gx G then N.diff dt (fun _ d => F (G.1 + d.1, G.2.1 + d.2.1, G.2.2 + d.2.2)) else 0)

/-- The stable time step: the limit for the greatest velocity magnitude on the grid. -/
noncomputable def mDt3 [LE K] (N : Num3 K D) (gz gy gx : ℕ) (u : Fin 3 → C3 → K) : MRule D → D
  | .given dt => dt
  | .stable prefac => N.scale (N.limit (greatestOf {x | ∃ G, Dom3 gz gy gx G ∧ x = N.mag (u 0 G) (u 1 G) (u 2 G)}
      (N.mag (u 0 (0, 0, 0)) (u 1 (0, 0, 0)) (u 2 (0, 0, 0))))) prefac

/-- One round on the global grid. -/
structure MSpec3 (K D : Type) where
  vel : Option (Fin 3 → C3 → K)
  rule : MRule D

/-- One time step on the global grid: the scalar, or the three components of the vector. -/
def mStep3 [Add K] [Zero K] (N : Num3 K D) (vec : Bool) (gz gy gx : ℕ) (dt : D) (F : MFields3 K) : MFields3 K :=
  if vec then { F with om := fun j => mDiff3 N gz gy gx dt (mAdv3 N gz gy gx dt F.u (F.om j)) }
  else { F with sc := mDiff3 N gz gy gx dt (mAdv3 N gz gy gx dt F.u F.sc) }

/-- The loop on the global grid: fields and time. -/
noncomputable def mRun3 [Add K] [Zero K] [LE K] (N : Num3 K D) (vec : Bool) (gz gy gx : ℕ) : List (MSpec3 K D) → MFields3 K × D → MFields3 K × D
  | [], r => r
  | y :: ys, r =>
    let F : MFields3 K := { r.1 with u := y.vel.getD r.1.u }
    let dt := mDt3 N gz gy gx F.u y.rule
    mRun3 N vec gz gy gx ys (mStep3 N vec gz gy gx dt F, N.tick r.2 dt)

/-- The ranks hold `F`: in inner cells, and in the face ghost cells beyond the sides of the domain. -/
def HoldsK3 (T : Cart3) (F : C3 → K) (v : World C3 C3 K) : Prop :=
  ∀ c p, Valid3 T c → InArr3 T (2 : ℕ) p → (Inner3 T (2 : ℕ) p ∨ FaceOut3 T 2 c p) → v c p = F (globalIx3 T (2 : ℕ) c p)

/-- The ranks hold the fields. -/
structure MHolds3 (T : Cart3) (F : MFields3 K) (S : Mach3 K D) : Prop where
  sc : HoldsK3 T F.sc S.sc
  om : ∀ j, HoldsK3 T (F.om j) (S.om j)
  u : ∀ j, HoldsK3 T (F.u j) fun c p => S.vel c (j, p)

/-- The round of the program means the round on the global grid: assigned arrays hold the assigned field, the same rule, and all messages of
the exchanges arrive. -/
structure MMeans3 (T : Cart3) (x : MIn3 K D) (y : MSpec3 K D) : Prop where
  novel : x.vel = none → y.vel = none
  newvel : ∀ w, x.vel = some w → ∃ V, y.vel = some V ∧ ∀ j, HoldsK3 T (V j) fun c p => w c (j, p)
  rule : x.rule = y.rule
  sa : ∀ i, Complete (multiMsgs3 T 2 false [none, some (0 : Fin 3), some 1, some 2]) (x.sa i).2
  sd : ∀ i, Complete (multiMsgs3 T 2 false [()]) (x.sd i).2

end

/-! ## Lemmas -/

section
variable {K D : Type} {gz gy gx pz py px : ℕ} {T : Cart3}

/-- `multi3_outside` for any type -/
theorem multi3_outsideK {ι : Type} [DecidableEq ι] (hT : mkCart3 gz gy gx pz py px false = .ok T) {g : ℕ} (hz : g ≤ T.nz) (hy : g ≤ T.ny) (hx : g ≤ T.nx)
    (full : Bool) {comps : List ι} (hcs : ∀ i, i ∈ comps) (w : World C3 (ι × C3) K) {s : List Ev} (hs : Complete (multiMsgs3 T g full comps) s)
    {c p : C3} (hc : Valid3 T c) (hp : InArr3 T g p) (hD : ¬ InDomain3 T (globalIx3 T g c p)) (i : ι) :
    multiExchange3 T g full comps w s c (i, p) = w c (i, p) := by
  obtain ⟨s', hs'⟩ := complete_schedule_exists (ghostMsgs3 T g full)
  rw [multiExchange3_eq hz hy hx full hcs w hs hs' i, exchange3_outside hT hz hy hx full _ hs' hc hp hD]

variable [Add K] [Zero K]

/-- advection of one component -/
theorem machAdv3_holds (hT : mkCart3 gz gy gx pz py px false = .ok T) (hz : 4 ≤ T.nz) (hy : 4 ≤ T.ny) (hx : 4 ≤ T.nx) {N : Num3 K D} (hN : N.Local) (dt : D)
    {sa : Sched3} (hs : Complete (multiMsgs3 T 2 false [none, some (0 : Fin 3), some 1, some 2]) sa.2)
    {F : C3 → K} {u : Fin 3 → C3 → K} {vel : World C3 (Fin 3 × C3) K} {st : StepState C3 C3 K} (ho : HoldsK3 T F st.field)
    (hu : ∀ j, HoldsK3 T (u j) fun c p => vel c (j, p)) :
    HoldsK3 T (mAdv3 N gz gy gx dt u F) (machAdv3 T (N.adv dt) sa.1 sa.2 vel st).2.field ∧
    ∀ j, HoldsK3 T (u j) fun c p => (machAdv3 T (N.adv dt) sa.1 sa.2 vel st).1 c (j, p) := by
  have hw : ∀ (i : Option (Fin 3)) (c p : C3), Valid3 T c → InArr3 T ((2 : ℕ) : ℤ) p → (Inner3 T ((2 : ℕ) : ℤ) p ∨ FaceOut3 T 2 c p) →
      (match i with
        | none => st.field c p
        | some j => vel c (j, p)) = advIn3 F u i (globalIx3 T ((2 : ℕ) : ℤ) c p) := by
    intro i c p hc ha hp
    cases i with
    | none => exact ho c p hc ha hp
    | some j => exact hu j c p hc ha hp
  constructor
  · intro c p hc ha hp
    unfold machAdv3 addFlux3 mAdv3
    simp only
    rcases hp with hp | hp
    · rw [if_pos ((dom3_iff hT _).2 (inner_inDomain3 hT hc hp)),
        multiExchange3_inner (by omega) (by omega) (by omega) false mem_advComps3 _ _ none hp,
        stencilAdd3_global (F := advIn3 F u) hT (by omega) le_rfl (by omega) (by omega) (by omega) hz hy hx false mem_advComps3 (hN.adv dt)
          (fun i c p hc hp => hw i c p hc (inArr_of_inner3 hp) (Or.inl hp)) sa.1 hs _ hc hp
          (Or.inr (Or.inr fun i q h1 h2 h3 => hw i c q hc h1 (Or.inr ⟨h2, h3⟩)))]
      unfold serialAt3
      simp only [contIx3_false]
      rw [ho c p hc ha (Or.inl hp)]
      congr 3
      funext i d
      cases i <;> rfl
    · have hin : ¬ Inner3 T ((2 : ℕ) : ℤ) p := fun h => hp.2 (inner_inDomain3 hT hc h)
      rw [if_neg (fun h => hp.2 ((dom3_iff hT _).1 h)), multi3_outsideK hT (by omega) (by omega) (by omega) false mem_advComps3 _ hs hc ha hp.2]
      unfold stencilAdd3 stencil3
      rw [kernel3_ghost_kept (by omega) (by omega) (by omega) (by omega) _ _ _ _ _ _ hin]
      simp only
      rw [ho c p hc ha (Or.inr hp)]
  · intro j c p hc ha hp
    unfold machAdv3
    simp only
    rcases hp with hp | hp
    · rw [multiExchange3_inner (by omega) (by omega) (by omega) false mem_advComps3 _ _ _ hp]
      exact hu j c p hc ha (Or.inl hp)
    · rw [multi3_outsideK hT (by omega) (by omega) (by omega) false mem_advComps3 _ hs hc ha hp.2]
      exact hu j c p hc ha (Or.inr hp)

/-- diffusion of one component -/
theorem machDiff3_holds (hT : mkCart3 gz gy gx pz py px false = .ok T) (hz : 4 ≤ T.nz) (hy : 4 ≤ T.ny) (hx : 4 ≤ T.nx) {N : Num3 K D} (hN : N.Local) (dt : D)
    {sd : Sched3} (hs : Complete (multiMsgs3 T 2 false [()]) sd.2) {F : C3 → K} {st : StepState C3 C3 K}
    (ho : HoldsK3 T F st.field) : HoldsK3 T (mDiff3 N gz gy gx dt F) (diffusionStep3 T 2 false (N.diff dt) sd.1 sd.2 st).field := by
  intro c p hc ha hp
  have hcs : ∀ i : Unit, i ∈ [()] := by simp
  unfold mDiff3 diffusionStep3 addFlux3
  simp only
  rcases hp with hp | hp
  · rw [multiExchange3_inner (by omega) (by omega) (by omega) false hcs _ _ () hp,
      stencilZero3_global (F := fun _ => F) hT (by omega) (by omega) (by omega) (by omega) false hcs false (hN.diff dt) 0
        (fun _ c p hc hp => ho c p hc (inArr_of_inner3 hp) (Or.inl hp)) sd.1 hs _ hc hp]
    unfold serialZero3 serialAt3
    simp only [contIx3_false, true_and]
    rw [ho c p hc ha (Or.inl hp)]
    have hd : Dom3 gz gy gx (globalIx3 T ((2 : ℕ) : ℤ) c p) := (dom3_iff hT _).2 (inner_inDomain3 hT hc hp)
    by_cases he : OnEdge3 gz gy gx (globalIx3 T ((2 : ℕ) : ℤ) c p)
    · rw [if_pos he, if_neg fun h => h.2 he]
    · rw [if_neg he, if_pos ⟨hd, he⟩]
  · rw [if_neg (fun h => hp.2 ((dom3_iff hT _).1 h.1))]
    unfold stencilZero3
    rw [zeroSides3_outside hT (by omega) (by omega) (by omega) (by omega) (by omega) (by omega) _ _ hc ha hp.2,
      multi3_outsideK hT (by omega) (by omega) (by omega) false hcs _ hs hc ha hp.2, ho c p hc ha (Or.inr hp)]

/-- advection of the vector -/
theorem machAdvVec3_holds (hT : mkCart3 gz gy gx pz py px false = .ok T) (hz : 4 ≤ T.nz) (hy : 4 ≤ T.ny) (hx : 4 ≤ T.nx) {N : Num3 K D} (hN : N.Local) (dt : D)
    {sa : Fin 3 → Sched3} (hs : ∀ i, Complete (multiMsgs3 T 2 false [none, some (0 : Fin 3), some 1, some 2]) (sa i).2)
    {F u : Fin 3 → C3 → K} {vel : World C3 (Fin 3 × C3) K} {st : VecStepState K} (ho : ∀ j, HoldsK3 T (F j) (st.field j))
    (hu : ∀ j, HoldsK3 T (u j) fun c p => vel c (j, p)) :
    (∀ j, HoldsK3 T (mAdv3 N gz gy gx dt u (F j)) ((machAdvVec3 T (N.adv dt) sa (vel, st)).2.field j)) ∧
    ∀ j, HoldsK3 T (u j) fun c p => (machAdvVec3 T (N.adv dt) sa (vel, st)).1 c (j, p) := by
  unfold machAdvVec3
  simp only [List.foldl_cons, List.foldl_nil]
  obtain ⟨a0, b0⟩ := machAdv3_holds hT hz hy hx hN dt (hs 0) (st := ⟨st.field 0, st.flux⟩) (ho 0) hu
  generalize machAdv3 T (N.adv dt) (sa 0).1 (sa 0).2 vel ⟨st.field 0, st.flux⟩ = r0 at *
  have e1 : Function.update st.field 0 r0.2.field 1 = st.field 1 := by simp
  rw [e1]
  obtain ⟨a1, b1⟩ := machAdv3_holds hT hz hy hx hN dt (hs 1) (st := ⟨st.field 1, r0.2.flux⟩) (ho 1) b0
  generalize machAdv3 T (N.adv dt) (sa 1).1 (sa 1).2 r0.1 ⟨st.field 1, r0.2.flux⟩ = r1 at *
  have e2 : Function.update (Function.update st.field 0 r0.2.field) 1 r1.2.field 2 = st.field 2 := by simp
  rw [e2]
  obtain ⟨a2, b2⟩ := machAdv3_holds hT hz hy hx hN dt (hs 2) (st := ⟨st.field 2, r1.2.flux⟩) (ho 2) b1
  generalize machAdv3 T (N.adv dt) (sa 2).1 (sa 2).2 r1.1 ⟨st.field 2, r1.2.flux⟩ = r2 at *
  refine ⟨?_, b2⟩
  intro j
  fin_cases j
  · have e : Function.update (Function.update (Function.update st.field 0 r0.2.field) 1 r1.2.field) 2 r2.2.field 0 = r0.2.field := by simp
    exact e ▸ a0
  · have e : Function.update (Function.update (Function.update st.field 0 r0.2.field) 1 r1.2.field) 2 r2.2.field 1 = r1.2.field := by simp
    exact e ▸ a1
  · have e : Function.update (Function.update (Function.update st.field 0 r0.2.field) 1 r1.2.field) 2 r2.2.field 2 = r2.2.field := by simp
    exact e ▸ a2

/-- diffusion of the vector -/
theorem machDiffVec3_holds (hT : mkCart3 gz gy gx pz py px false = .ok T) (hz : 4 ≤ T.nz) (hy : 4 ≤ T.ny) (hx : 4 ≤ T.nx) {N : Num3 K D} (hN : N.Local) (dt : D)
    {sd : Fin 3 → Sched3} (hs : ∀ i, Complete (multiMsgs3 T 2 false [()]) (sd i).2) {F : Fin 3 → C3 → K} {st : VecStepState K}
    (ho : ∀ j, HoldsK3 T (F j) (st.field j)) (j : Fin 3) :
    HoldsK3 T (mDiff3 N gz gy gx dt (F j)) ((diffusionVecStep3 T 2 false (N.diff dt) sd st).field j) := by
  have key : ∃ fl, (diffusionVecStep3 T 2 false (N.diff dt) sd st).field j =
      (diffusionStep3 T 2 false (N.diff dt) (sd j).1 (sd j).2 ⟨st.field j, fl⟩).field := by
    unfold diffusionVecStep3
    simp only [List.foldl_cons, List.foldl_nil]
    match j with
    | 0 => exact ⟨st.flux, by simp [Function.update]⟩
    | 1 => exact ⟨_, by simp [Function.update]; rfl⟩
    | 2 => exact ⟨_, by simp [Function.update]; rfl⟩
  obtain ⟨fl, e⟩ := key
  rw [e]
  exact machDiff3_holds hT hz hy hx hN dt (hs j) (st := ⟨st.field j, fl⟩) (ho j)

/-- one time step -/
theorem machStep3_holds (hT : mkCart3 gz gy gx pz py px false = .ok T) (hz : 4 ≤ T.nz) (hy : 4 ≤ T.ny) (hx : 4 ≤ T.nx) {N : Num3 K D} (hN : N.Local)
    (vec : Bool) (dt : D) {sa sd : Fin 3 → Sched3} (hsa : ∀ i, Complete (multiMsgs3 T 2 false [none, some (0 : Fin 3), some 1, some 2]) (sa i).2)
    (hsd : ∀ i, Complete (multiMsgs3 T 2 false [()]) (sd i).2) {F : MFields3 K} {S : Mach3 K D} (h : MHolds3 T F S) :
    MHolds3 T (mStep3 N vec gz gy gx dt F) (machStep3 N T vec sa sd dt S) ∧ (machStep3 N T vec sa sd dt S).time = N.tick S.time dt := by
  cases vec with
  | true =>
    obtain ⟨a, b⟩ := machAdvVec3_holds hT hz hy hx hN dt hsa (st := ⟨S.om, S.buf⟩) h.om h.u
    exact ⟨⟨h.sc, machDiffVec3_holds hT hz hy hx hN dt hsd a, b⟩, rfl⟩
  | false =>
    obtain ⟨a, b⟩ := machAdv3_holds hT hz hy hx hN dt (hsa 0) (st := ⟨S.sc, S.buf⟩) h.sc h.u
    exact ⟨⟨machDiff3_holds hT hz hy hx hN dt (hsd 0) a, h.om, b⟩, rfl⟩

end

section
variable {K D : Type} [LinearOrder K] [LinearOrder D] {gz gy gx pz py px : ℕ} {T : Cart3}

/-- the stable time step of the ranks is the one of the grid -/
theorem machStable3_holds (hT : mkCart3 gz gy gx pz py px false = .ok T) (hz : 4 ≤ T.nz) (hy : 4 ≤ T.ny) (hx : 4 ≤ T.nx) {N : Num3 K D} (hM : N.Slower)
    (prefac : D) {F : MFields3 K} {S : Mach3 K D} (h : MHolds3 T F S) :
    (machStable3 N T prefac S).2 = .ok (mDt3 N gz gy gx F.u (.stable prefac)) := by
  let mg : C3 → C3 → K := fun c p => N.mag (S.vel c (0, p)) (S.vel c (1, p)) (S.vel c (2, p))
  let mG : C3 → K := fun G => N.mag (F.u 0 G) (F.u 1 G) (F.u 2 G)
  have hval : ∀ c p, Valid3 T c → Inner3 T ((2 : ℕ) : ℤ) p → mg c p = mG (globalIx3 T ((2 : ℕ) : ℤ) c p) := by
    intro c p hc hp
    show N.mag _ _ _ = N.mag _ _ _
    have q : ∀ j, S.vel c (j, p) = F.u j (globalIx3 T ((2 : ℕ) : ℤ) c p) := fun j => h.u j c p hc (inArr_of_inner3 hp) (Or.inl hp)
    rw [q, q, q]
  let inner : C3 → List K := fun c => (innerCells3 T 2).map (mg c)
  have hmem : ∀ c x, x ∈ inner c ↔ ∃ p, Inner3 T ((2 : ℕ) : ℤ) p ∧ x = mg c p := by
    intro c x
    simp only [inner, List.mem_map, mem_innerCells3]
    constructor
    · rintro ⟨p, ⟨-, hp⟩, rfl⟩; exact ⟨p, hp, rfl⟩
    · rintro ⟨p, hp, rfl⟩; exact ⟨p, ⟨by omega, hp⟩, rfl⟩
  have hne : ∀ c, inner c ≠ [] := fun c => List.ne_nil_of_mem ((hmem c _).2 ⟨(2, 2, 2), by
    refine ⟨?_, ?_, ?_, ?_, ?_, ?_⟩ <;> simp only <;> push_cast <;> omega, rfl⟩)
  choose m hm hgr using fun c => amaxK_ok (hne c)
  have hpos : 0 < gz ∧ 0 < gy ∧ 0 < gx := by
    unfold mkCart3 at hT
    split at hT
    · exact absurd hT (by simp)
    · cases hT
      simp only at hz hy hx
      have := Nat.div_le_self gz pz
      have := Nat.div_le_self gy py
      have := Nat.div_le_self gx px
      omega
  have hr : ranks3 T ≠ [] := by
    obtain ⟨c, p, hc, -⟩ := domain_owned3 hT 2 (G := (0, 0, 0)) ((dom3_iff hT _).1 (by
      refine ⟨?_, ?_, ?_, ?_, ?_, ?_⟩ <;> simp <;> omega))
    exact List.ne_nil_of_mem (mem_ranks3.2 hc)
  obtain ⟨v, hv, ⟨c1, hc1, hv1⟩, hv2⟩ := allminK_ok (rs := ranks3 T) hr (x := fun c => (amaxK (inner c)).map N.limit) (y := fun c => N.limit (m c))
    (fun c _ => by rw [hm c]; rfl)
  have hval1 : ∀ c, Valid3 T c → ∃ p, Inner3 T ((2 : ℕ) : ℤ) p ∧ m c = mG (globalIx3 T ((2 : ℕ) : ℤ) c p) := by
    intro c hc
    obtain ⟨p, hp, e⟩ := (hmem c _).1 (hgr c).1
    exact ⟨p, hp, e.trans (hval c p hc hp)⟩
  have hex : ∃ M, IsGreatest {x | ∃ G, Dom3 gz gy gx G ∧ x = mG G} M ∧ N.limit M = v := by
    obtain ⟨m2, hm2, hg2⟩ := amaxK_ok (l := (ranks3 T).map m) (by simpa using hr)
    obtain ⟨c2, hc2, e2'⟩ := List.mem_map.1 hg2.1
    have hv2' := mem_ranks3.1 hc2
    obtain ⟨p2, hp2, ep2⟩ := hval1 c2 hv2'
    refine ⟨m2, ⟨⟨_, (dom3_iff hT _).2 (inner_inDomain3 hT hv2' hp2), e2'.symm.trans ep2⟩, ?_⟩, ?_⟩
    · rintro x ⟨G, hG, rfl⟩
      obtain ⟨c, p, hc, hp, rfl⟩ := domain_owned3 hT 2 ((dom3_iff hT _).1 hG)
      exact ((hgr c).2 ((hmem c _).2 ⟨p, hp, (hval c p hc hp).symm⟩)).trans (hg2.2 (List.mem_map_of_mem (mem_ranks3.2 hc)))
    · refine le_antisymm ?_ (hv2 ⟨c2, hc2, by rw [e2']⟩)
      obtain ⟨p1, hp1, ep1⟩ := hval1 c1 (mem_ranks3.1 hc1)
      have hle : m c1 ≤ m2 := hg2.2 (List.mem_map_of_mem hc1)
      rw [hv1, ← e2']
      rw [← e2', ep1, ep2] at hle
      rw [ep1, ep2]
      exact hM _ _ _ _ _ _ hle
  obtain ⟨M, hM1, hM2⟩ := hex
  unfold mDt3
  simp only
  rw [greatestOf_eq hM1, hM2]
  show (allminK (ranks3 T) fun c => (amaxK (inner c)).map N.limit).map (fun dt => N.scale dt prefac) = _
  rw [hv]
  rfl

variable [Add K] [Zero K]

/-- C117 (3D): bit for bit: whatever the arithmetic of the machine, on every decomposition and for all message schedules, the driver's loop of a
passive scalar or vector simulator raises nothing, and all ranks hold the fields and the time that the same operations give on the global grid. -/
theorem machine3_run (hT : mkCart3 gz gy gx pz py px false = .ok T) (hz : 4 ≤ T.nz) (hy : 4 ≤ T.ny) (hx : 4 ≤ T.nx) {N : Num3 K D} (hN : N.Local)
    (hM : N.Slower) (vec : Bool) {xs : List (MIn3 K D)} {ys : List (MSpec3 K D)} (h : List.Forall₂ (MMeans3 T) xs ys) {F : MFields3 K} {S : Mach3 K D}
    (hF : MHolds3 T F S) :
    ∃ S', machRun3 N T vec xs S = (S', none) ∧ MHolds3 T (mRun3 N vec gz gy gx ys (F, S.time)).1 S' ∧
      S'.time = (mRun3 N vec gz gy gx ys (F, S.time)).2 := by
  induction h generalizing F S with
  | nil => exact ⟨S, rfl, hF, rfl⟩
  | @cons x y xs ys hxy _ ih =>
    have hset : ∃ S1 : Mach3 K D, (match x.vel with
        | none => S
        | some w => { S with vel := w }) = S1 ∧ S1.time = S.time ∧ MHolds3 T { F with u := y.vel.getD F.u } S1 := by
      cases hv : x.vel with
      | none => exact ⟨S, rfl, rfl, by rw [hxy.novel hv]; exact hF⟩
      | some w =>
        obtain ⟨V, e, hV⟩ := hxy.newvel w hv
        exact ⟨{ S with vel := w }, rfl, rfl, by rw [e]; exact ⟨hF.sc, hF.om, hV⟩⟩
    obtain ⟨S1, e1, et, h1⟩ := hset
    unfold machRun3 mRun3
    simp only
    rw [e1, ← hxy.rule]
    cases hr : x.rule with
    | given dt =>
      obtain ⟨a, t⟩ := machStep3_holds hT hz hy hx hN vec dt hxy.sa hxy.sd h1
      have q := ih a
      rw [t, et] at q
      exact q
    | stable prefac =>
      have q := machStable3_holds hT hz hy hx hM prefac h1
      obtain ⟨S2, e2, h2, t2⟩ : ∃ S2, machStable3 N T prefac S1 = (S2, .ok (mDt3 N gz gy gx (y.vel.getD F.u) (.stable prefac))) ∧
          MHolds3 T { F with u := y.vel.getD F.u } S2 ∧ S2.time = S1.time :=
        ⟨(machStable3 N T prefac S1).1, Prod.ext rfl q, ⟨h1.sc, h1.om, h1.u⟩, rfl⟩
      simp only [e2]
      obtain ⟨a, t⟩ := machStep3_holds hT hz hy hx hN vec (mDt3 N gz gy gx (y.vel.getD F.u) (.stable prefac)) hxy.sa hxy.sd h2
      have q := ih a
      rw [t, t2, et] at q
      exact q

/-- C117 (3D): two runs of one driver on two decompositions, with any message schedules on both, end with the same values at the same cells of
the grid and the same time, bit for bit. -/
theorem machine3_same {pz' py' px' : ℕ} {T' : Cart3} (hT : mkCart3 gz gy gx pz py px false = .ok T) (hT' : mkCart3 gz gy gx pz' py' px' false = .ok T')
    (hz : 4 ≤ T.nz) (hy : 4 ≤ T.ny) (hx : 4 ≤ T.nx) (hz' : 4 ≤ T'.nz) (hy' : 4 ≤ T'.ny) (hx' : 4 ≤ T'.nx) {N : Num3 K D} (hN : N.Local) (hM : N.Slower)
    (vec : Bool) {xs xs' : List (MIn3 K D)} {ys : List (MSpec3 K D)} (h : List.Forall₂ (MMeans3 T) xs ys) (h' : List.Forall₂ (MMeans3 T') xs' ys)
    {F : MFields3 K} {S S' : Mach3 K D} (hF : MHolds3 T F S) (hF' : MHolds3 T' F S') (ht : S.time = S'.time) :
    ∃ R R', machRun3 N T vec xs S = (R, none) ∧ machRun3 N T' vec xs' S' = (R', none) ∧ R.time = R'.time ∧
      ∀ c p c' p', Valid3 T c → Inner3 T (2 : ℕ) p → Valid3 T' c' → Inner3 T' (2 : ℕ) p' → globalIx3 T (2 : ℕ) c p = globalIx3 T' (2 : ℕ) c' p' →
        R.sc c p = R'.sc c' p' ∧ ∀ j, R.om j c p = R'.om j c' p' := by
  obtain ⟨R, e, a, t⟩ := machine3_run hT hz hy hx hN hM vec h hF
  obtain ⟨R', e', a', t'⟩ := machine3_run hT' hz' hy' hx' hN hM vec h' hF'
  refine ⟨R, R', e, e', by rw [t, t', ht], ?_⟩
  intro c p c' p' hc hp hc' hp' hG
  refine ⟨?_, fun j => ?_⟩
  · rw [a.sc c p hc (inArr_of_inner3 hp) (Or.inl hp), a'.sc c' p' hc' (inArr_of_inner3 hp') (Or.inl hp'), hG, ht]
  · rw [a.om j c p hc (inArr_of_inner3 hp) (Or.inl hp), a'.om j c' p' hc' (inArr_of_inner3 hp') (Or.inl hp'), hG, ht]

end

/-! ## Link to the simulator model over the reals -/

section
variable {T : Cart3}

/-- The simulator's numbers when arithmetic is exact. -/
noncomputable def exactNum3 (C : Cfg3) (T : Cart3) (K : Kern3) (tol : ℝ) : Num3 ℝ ℝ where
  adv dt := K.adv (-(dt / simDx3 T C.xr))
  diff dt := K.diff (C.nu * dt / simDx3 T C.xr / simDx3 T C.xr)
  mag a b c := |a| + |b| + |c|
  limit m := minInf (C.cfl * simDx3 T C.xr / (m + tol)) (divInf (0.9 * simDx3 T C.xr ^ 2 / (2 * 3)) (C.nu + tol))
  scale a b := a * b
  tick a b := a + b

/-- The arrays of a simulator. -/
def machOf3 (S : Sim3 T) : Mach3 ℝ ℝ := ⟨S.sc, S.om, asFam S.vel, S.buf, S.time⟩

/-- the machine's step with exact arithmetic is the passive step of the simulator model -/
theorem machStep3_exact {C : Cfg3} (hg : C.g = 2) {vec : Bool} (hf : C.flowType = if vec then "passive_vector" else "passive_scalar") (K : Kern3) (tol : ℝ)
    (sch : Scheds3) (dt : ℝ) (fs : Option (Fin 3 → ℝ)) [NeZero T.gz] [NeZero T.gy] [NeZero T.gx] (S : Sim3 T) :
    ∃ S', timeStep3 C K sch dt fs S = (S', none) ∧ machOf3 S' = machStep3 (exactNum3 C T K tol) T vec sch.adv sch.diff dt (machOf3 S) := by
  have e : ∀ s1 s vel st, machAdv3 T ((exactNum3 C T K tol).adv dt) s1 s vel st = advectionStep3 T 2 false K.adv (dt / simDx3 T C.xr) s1 s vel st :=
    fun s1 s vel st => machAdv3_eq T K.adv _ _ _ _ _
  cases vec with
  | true =>
    have hfull : C.full = false := by unfold Cfg3.full; rw [hf]; decide
    have h1 : flowStep3 C K sch dt fs S = (vectorStep3 C K sch dt S, none) := by
      unfold flowStep3
      rw [hf, if_neg (by decide), if_pos (by decide)]
    unfold timeStep3
    rw [h1]
    refine ⟨_, rfl, ?_⟩
    unfold machOf3 machStep3 vectorStep3 callDiffV3 callAdvV3 machAdvVec3 advectionVecStep3
    simp only [hg, hfull, e]
    rfl
  | false =>
    have hfull : C.full = false := by unfold Cfg3.full; rw [hf]; decide
    have h1 : flowStep3 C K sch dt fs S = (scalarStep3 C K sch dt S, none) := by
      unfold flowStep3
      rw [hf, if_neg (by decide), if_neg (by decide)]
    unfold timeStep3
    rw [h1]
    refine ⟨_, rfl, ?_⟩
    unfold machOf3 machStep3 scalarStep3
    simp only [hg, hfull, e]
    rfl

/-- … and so is the stable time step -/
theorem machStable3_exact {C : Cfg3} (hg : C.g = 2) (K : Kern3) (tol prefac : ℝ) (S : Sim3 T) :
    (machStable3 (exactNum3 C T K tol) T prefac (machOf3 S)).2 = (stableDt3 C tol prefac S).2 := by
  unfold machStable3 stableDt3
  simp only [hg]
  have hx : (fun c => (amaxK ((innerCells3 T 2).map fun p => (exactNum3 C T K tol).mag ((machOf3 S).vel c (0, p)) ((machOf3 S).vel c (1, p))
      ((machOf3 S).vel c (2, p)))).map (exactNum3 C T K tol).limit) =
      fun c => (do
        let m ← amax ((innerCells3 T 2).map fun p => |S.vel 0 c p| + |S.vel 1 c p| + |S.vel 2 c p|)
        (.ok (minInf (C.cfl * simDx3 T C.xr / (m + tol)) (divInf (0.9 * simDx3 T C.xr ^ 2 / (2 * 3)) (C.nu + tol))) : Except PyErr ℝ)) := by
    funext c
    show (amaxK ((innerCells3 T 2).map fun p => |S.vel 0 c p| + |S.vel 1 c p| + |S.vel 2 c p|)).map (exactNum3 C T K tol).limit = _
    cases (innerCells3 T 2).map fun p => |S.vel 0 c p| + |S.vel 1 c p| + |S.vel 2 c p| <;> rfl
  have hm : ∀ (rs : List C3) (x : C3 → Except PyErr ℝ), allminK rs x = allreduce min rs x := by
    intro rs x
    unfold allminK allreduce
    cases rs.mapM x with
    | error e => rfl
    | ok l => cases l <;> rfl
  rw [hx, hm]
  rfl

end

/-! ## A concrete case -/

/-- an upwind flux and a seven-point Laplacian in coarse arithmetic -/
noncomputable def exNum3 : Num3 (Rnd coarse) ℝ where
  adv dt v := ⟨coarse (dt * (v (some 2) (0, 0, 0)).val * ((v none (0, 0, -1)).val - (v none (0, 0, 0)).val) +
      dt * (v (some 0) (0, 0, 0)).val * ((v none (-2, 0, 0)).val - (v none (0, 0, 0)).val))⟩
  diff dt v := ⟨coarse (dt * ((v () (0, 0, 1)).val + (v () (0, 0, -1)).val + (v () (0, 1, 0)).val - 3 * (v () (0, 0, 0)).val))⟩
  mag a b c := ⟨coarse (coarse (|a.val| + |b.val|) + |c.val|)⟩
  limit m := min (coarse (3 / coarse (m.val + 1))) 2
  scale a b := coarse (a * b)
  tick a b := coarse (a + b)

theorem exNum3_local : exNum3.Local := by
  constructor
  · intro a u v h
    have h1 := h none (0, 0, -1) (by simp [Cross3])
    have h2 := h none (0, 0, 0) (by simp [Cross3])
    have h3 := h none (-2, 0, 0) (by simp [Cross3])
    have h4 := h (some 0) (0, 0, 0) (by simp [Cross3])
    have h5 := h (some 2) (0, 0, 0) (by simp [Cross3])
    show Rnd.mk _ = Rnd.mk _
    rw [h1, h2, h3, h4, h5]
  · intro a u v h
    show Rnd.mk _ = Rnd.mk _
    rw [h () (0, 0, 1) (by simp [Cross3]), h () (0, 0, -1) (by simp [Cross3]), h () (0, 1, 0) (by simp [Cross3]), h () (0, 0, 0) (by simp [Cross3])]

theorem exNum3_slower : exNum3.Slower := by
  intro a b c a' b' c' h
  have nonneg : ∀ x y z : Rnd coarse, 0 ≤ coarse (coarse (|x.val| + |y.val|) + |z.val|) := by
    intro x y z
    rw [← coarse_zero]
    refine coarse_mono ?_
    have : 0 ≤ coarse (|x.val| + |y.val|) := by
      have q := coarse_mono (show (0 : ℝ) ≤ |x.val| + |y.val| by positivity)
      rwa [coarse_zero] at q
    positivity
  have h : coarse (coarse (|a.val| + |b.val|) + |c.val|) ≤ coarse (coarse (|a'.val| + |b'.val|) + |c'.val|) := h
  have hm := nonneg a b c
  have h1 : 1 ≤ coarse (coarse (coarse (|a.val| + |b.val|) + |c.val|) + 1) := by
    have q := coarse_mono (show (1 : ℝ) ≤ coarse (coarse (|a.val| + |b.val|) + |c.val|) + 1 by linarith)
    rwa [coarse_one] at q
  have h2 : coarse (coarse (coarse (|a.val| + |b.val|) + |c.val|) + 1) ≤ coarse (coarse (coarse (|a'.val| + |b'.val|) + |c'.val|) + 1) := coarse_mono (by linarith)
  show min (coarse (3 / coarse (coarse (coarse (|a'.val| + |b'.val|) + |c'.val|) + 1))) 2 ≤ min (coarse (3 / coarse (coarse (coarse (|a.val| + |b.val|) + |c.val|) + 1))) 2
  exact min_le_min (coarse_mono (div_le_div_of_nonneg_left (by norm_num) (by linarith) h2)) le_rfl

/-- non-vacuity of C117 in 3D: an 8 × 8 × 8 grid on 1 × 2 × 1 and on 2 × 1 × 2 ranks; a driver of a passive vector simulator that assigns a
velocity, takes a stable step and then a given one, in coarse arithmetic. -/
example (F : MFields3 (Rnd coarse)) (V : Fin 3 → C3 → Rnd coarse) : ∃ xs xs' S S' R R',
    List.Forall₂ (MMeans3 ⟨8, 8, 8, 1, 2, 1, 8, 4, 8, false⟩) xs [⟨some V, .stable 0.5⟩, ⟨none, .given 0.25⟩] ∧
    List.Forall₂ (MMeans3 ⟨8, 8, 8, 2, 1, 2, 4, 8, 4, false⟩) xs' [⟨some V, .stable 0.5⟩, ⟨none, .given 0.25⟩] ∧
    MHolds3 ⟨8, 8, 8, 1, 2, 1, 8, 4, 8, false⟩ F S ∧ MHolds3 ⟨8, 8, 8, 2, 1, 2, 4, 8, 4, false⟩ F S' ∧ S.time = 0 ∧ S'.time = 0 ∧
    machRun3 exNum3 ⟨8, 8, 8, 1, 2, 1, 8, 4, 8, false⟩ true xs S = (R, none) ∧
    machRun3 exNum3 ⟨8, 8, 8, 2, 1, 2, 4, 8, 4, false⟩ true xs' S' = (R', none) ∧ R.time = R'.time := by
  have hold : ∀ (T : Cart3) (A : C3 → Rnd coarse), HoldsK3 T A fun c p => A (globalIx3 T (2 : ℕ) c p) := fun T A c p _ _ _ => rfl
  have one : ∀ T : Cart3, ∃ xs, List.Forall₂ (MMeans3 (K := Rnd coarse) (D := ℝ) T) xs [⟨some V, .stable 0.5⟩, ⟨none, .given 0.25⟩] := by
    intro T
    obtain ⟨s, hs⟩ := complete_schedule_exists (multiMsgs3 T 2 false [none, some (0 : Fin 3), some 1, some 2])
    obtain ⟨s', hs'⟩ := complete_schedule_exists (multiMsgs3 T 2 false [()])
    refine ⟨[⟨some fun c i => V i.1 (globalIx3 T (2 : ℕ) c i.2), .stable 0.5, fun _ => (fun _ => [], s), fun _ => (fun _ => [], s')⟩,
      ⟨none, .given 0.25, fun _ => (fun _ => [], s), fun _ => (fun _ => [], s')⟩],
      .cons ⟨by simp, ?_, rfl, fun _ => hs, fun _ => hs'⟩ (.cons ⟨fun _ => rfl, by simp, rfl, fun _ => hs, fun _ => hs'⟩ .nil)⟩
    intro w hw
    cases hw
    exact ⟨V, rfl, fun j => hold T (V j)⟩
  let st : Cart3 → Mach3 (Rnd coarse) ℝ := fun T => ⟨fun c p => F.sc (globalIx3 T (2 : ℕ) c p), fun j c p => F.om j (globalIx3 T (2 : ℕ) c p),
    fun c i => F.u i.1 (globalIx3 T (2 : ℕ) c i.2), fun _ _ => 0, 0⟩
  have hst : ∀ T, MHolds3 T F (st T) := fun T => ⟨hold T F.sc, fun j => hold T (F.om j), fun j => hold T (F.u j)⟩
  obtain ⟨xs, hxs⟩ := one ⟨8, 8, 8, 1, 2, 1, 8, 4, 8, false⟩
  obtain ⟨xs', hxs'⟩ := one ⟨8, 8, 8, 2, 1, 2, 4, 8, 4, false⟩
  obtain ⟨R, R', e, e', t, -⟩ := machine3_same (gz := 8) (gy := 8) (gx := 8) (pz := 1) (py := 2) (px := 1) (pz' := 2) (py' := 1) (px' := 2) rfl rfl
    (by norm_num) (by norm_num) (by norm_num) (by norm_num) (by norm_num) (by norm_num) exNum3_local exNum3_slower true hxs hxs' (hst _) (hst _) rfl
  exact ⟨xs, xs', st _, st _, R, R', hxs, hxs', hst _, hst _, rfl, rfl, e, e', t⟩

end Sopht
