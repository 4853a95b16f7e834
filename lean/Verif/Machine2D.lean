import Verif.Sim2DGlobalLemmas
import Verif.Complements

/-!
# Passive transport in machine arithmetic (2D)

The other models compute with real numbers.  The program computes with floating point numbers, for which addition is neither associative nor
has inverses.  Here the passive scalar time step (`advection_and_diffusion_timestep`), the stable time step and a driver's loop are modelled
over any type `K` of field values and any type `D` of time step values, with whatever operations the machine has: no law of arithmetic is
assumed.  What the machine computes is collected in `Num2`.

`K` may be taken to be the bit patterns of a floating point format; its order is only used by `np.amax` of velocity magnitudes and `MPI.MIN`
of time steps (a total order that agrees with the usual one on those numbers; NaN is not modelled there).

Trusted: a compiled kernel computes the same function of the values around a cell in every pass and on every rank.
-/

namespace Sopht

/-- What the machine computes in a passive scalar simulator (`K` has type `real_t`, `D` is the type of the time step).
* `adv dt`: the advection flux kernel with factor `-real_t(dt / dx)` (`sopht_mpi/simulator/flow/flow_simulators_mpi_2d.py:260-266`,
  `advection_timestep_mpi_2d.py:38-58`);
* `diff dt`: the diffusion flux kernel with prefactor `real_t(nu * dt / dx / dx)` (flow_simulators_mpi_2d.py:267-271);
* `mag`: `np.sum(np.fabs(velocity), axis=0)` in one cell (304); `limit`: `min(CFL * dx / (greatest + tol), 0.9 * dx**2 / 4 / nu)` (305-318);
* `scale`: `dt * dt_prefac` (321); `tick`: `time + dt` (253). -/
structure Num2 (K D : Type) where
  adv : D → (Option (Fin 2) → C2 → K) → K
  diff : D → (Unit → C2 → K) → K
  mag : K → K → K
  limit : K → D
  scale : D → D → D
  tick : D → D → D

section
variable {K D : Type}

/-- The kernels look at neighbours along the axes: advection at most 2 cells away, diffusion 1. -/
structure Num2.Local (N : Num2 K D) : Prop where
  adv : ∀ a, CrossLocal2 2 (N.adv a)
  diff : ∀ a, CrossLocal2 1 (N.diff a)

/-- A greater velocity magnitude never gives a greater time step limit: what the stable time step needs of the arithmetic. -/
def Num2.Slower [LE K] [LE D] (N : Num2 K D) : Prop := ∀ a b a' b', N.mag a b ≤ N.mag a' b' → N.limit (N.mag a' b') ≤ N.limit (N.mag a b)

/-- `advection_timestep_euler_forward_conservative_eno3_pyst_mpi_kernel_2d` (advection_timestep_mpi_2d.py:38-58), as `advectionStep2` with
ghost size 2, but for a type `K` with `+` and `0` only; `f` is the flux kernel with its factor. -/
def machAdv2 [Add K] [Zero K] (T : Cart2) (f : (Option (Fin 2) → C2 → K) → K)
    (s1 : C2 → List Ev) (s : List Ev) (vel : World C2 (Fin 2 × ℤ) K) (st : StepState C2 ℤ K) :
    World C2 (Fin 2 × ℤ) K × StepState C2 ℤ K :=
  let comps : List (Option (Fin 2)) := [none, some 0, some 1]
  let w : World C2 (Option (Fin 2) × ℤ) K := fun c i => match i.1 with
    | none => st.field c i.2
    | some j => vel c (j, i.2)
  let flux0 : C2 → C2 → K := fun _ _ => 0
  let flux := stencilAdd2 T 2 false comps 2 f w s1 s flux0
  let w' := multiExchange2 T 2 false comps w s
  (fun c i => w' c (some i.1, i.2), ⟨addFlux2 T 2 (fun c i => w' c (none, i)) flux, flux⟩)

/-- it is the step of the other chapters when `K` is a group -/
theorem machAdv2_eq [AddGroup K] (T : Cart2) (f : K → (Option (Fin 2) → C2 → K) → K) (a : K) (s1 : C2 → List Ev) (s : List Ev)
    (vel : World C2 (Fin 2 × ℤ) K) (st : StepState C2 ℤ K) :
    machAdv2 T (f (-a)) s1 s vel st = advectionStep2 T 2 false f a s1 s vel st := by
  unfold machAdv2 advectionStep2
  congr 1

/-- Arrays and time of a passive scalar simulator: `primary_scalar_field`, `velocity_field`, `buffer_scalar_field`
(flow_simulators_mpi_2d.py:147-158), `time`. -/
structure Mach2 (K D : Type) where
  prim : World C2 ℤ K
  vel : World C2 (Fin 2 × ℤ) K
  buf : C2 → C2 → K
  time : D

/-- `time_step` of a passive scalar simulator (flow_simulators_mpi_2d.py:251-271). `sa`, `sd` are the message schedules of the two exchanges. -/
def machStep2 [Add K] [Zero K] (N : Num2 K D) (T : Cart2) (sa sd : (C2 → List Ev) × List Ev) (dt : D) (S : Mach2 K D) : Mach2 K D :=
  let r := machAdv2 T (N.adv dt) sa.1 sa.2 S.vel ⟨S.prim, S.buf⟩
  let q := diffusionStep2 T 2 false (N.diff dt) sd.1 sd.2 r.2
  ⟨q.field, r.1, q.flux, N.tick S.time dt⟩

/-- `np.amax` of a list of elements: ValueError if there are none. -/
def amaxK [Max K] : List K → Except PyErr K
  | [] => .error .valueError
  | a :: l => .ok (l.foldl max a)

/-- `allreduce(x, op=MPI.MIN)` over the ranks `rs`. -/
def allminK [Min D] {R : Type} (rs : List R) (x : R → Except PyErr D) : Except PyErr D := do
  match ← rs.mapM x with
  | [] => .error .mpiError
  | a :: l => .ok (l.foldl min a)

/-- `compute_stable_timestep` (flow_simulators_mpi_2d.py:300-321): the magnitude is left in the scalar buffer. -/
def machStable2 [LinearOrder K] [LinearOrder D] (N : Num2 K D) (T : Cart2) (prefac : D) (S : Mach2 K D) : Mach2 K D × Except PyErr D :=
  let mag : C2 → C2 → K := fun c p => N.mag (S.vel c (0, flat2 T 2 p)) (S.vel c (1, flat2 T 2 p))
  let inner : C2 → List K := fun c => (rangeOf (innerR T.ny 2)).flatMap fun i => (rangeOf (innerR T.nx 2)).map fun j => mag c (i, j)
  ({ S with buf := mag }, (allminK (ranks2 T) fun c => (amaxK (inner c)).map N.limit).map fun dt => N.scale dt prefac)

/-- Where a driver takes `dt` from. -/
inductive MRule (D : Type) where
  /-- a number -/
  | given (dt : D)
  /-- `compute_stable_timestep(dt_prefac=…)` -/
  | stable (prefac : D)

/-- One round of a driver's loop: it may assign the velocity arrays, takes a time step and calls `time_step`
(`time_step`, `compute_stable_timestep` as in tests/test_simulator/test_flow/test_flow_simulators_2d.py). -/
structure MIn2 (K D : Type) where
  vel : Option (World C2 (Fin 2 × ℤ) K)
  rule : MRule D
  sa : (C2 → List Ev) × List Ev
  sd : (C2 → List Ev) × List Ev

/-- The driver's loop. -/
def machRun2 [Add K] [Zero K] [LinearOrder K] [LinearOrder D] (N : Num2 K D) (T : Cart2) : List (MIn2 K D) → Mach2 K D → Mach2 K D × Option PyErr
  | [], S => (S, none)
  | x :: xs, S =>
    let S := match x.vel with
      | none => S
      | some w => { S with vel := w }
    match x.rule with
    | .given dt => machRun2 N T xs (machStep2 N T x.sa x.sd dt S)
    | .stable prefac =>
      match machStable2 N T prefac S with
      | (S, .error e) => (S, some e)
      | (S, .ok dt) => machRun2 N T xs (machStep2 N T x.sa x.sd dt S)

/-! ## Specification: the same operations on the global grid -/

/-- Fields on the global grid, continued beyond its sides. -/
structure MFields2 (K : Type) where
  om : C2 → K
  u : Fin 2 → C2 → K

/-- Advection: the kernel adds its flux to a zero buffer in the cells of the domain, then the buffer is added everywhere. -/
def mAdv2 [Add K] [Zero K] (N : Num2 K D) (gy gx : ℕ) (dt : D) (F : MFields2 K) : C2 → K := fun G =>
  F.om G + (if Dom2 gy gx G then (0 : K) + N.adv dt (fun i d => match i with
    | none => F.om (G.1 + d.1, G.2 + d.2)
    | some j => F.u j (G.1 + d.1, G.2 + d.2)) else 0)

/-- Diffusion: the flux is zero in the outermost cells and outside. -/
def mDiff2 [Add K] [Zero K] (N : Num2 K D) (gy gx : ℕ) (dt : D) (om : C2 → K) : C2 → K := fun G =>
  om G + (if Dom2 gy gx G ∧ ¬ OnEdge2 gy gx G then N.diff dt (fun _ d => om (G.1 + d.1, G.2 + d.2)) else 0)

/-- The greatest element of a set that has one. -/
noncomputable def greatestOf [LE K] (A : Set K) (default : K) : K := by
  classical exact if h : ∃ m, IsGreatest A m then h.choose else default

/-- The stable time step: the limit for the greatest velocity magnitude on the grid. -/
noncomputable def mDt2 [LE K] (N : Num2 K D) (gy gx : ℕ) (F : MFields2 K) : MRule D → D
  | .given dt => dt
  | .stable prefac => N.scale (N.limit (greatestOf {x | ∃ G, Dom2 gy gx G ∧ x = N.mag (F.u 0 G) (F.u 1 G)} (N.mag (F.u 0 (0, 0)) (F.u 1 (0, 0))))) prefac

/-- One round on the global grid. -/
structure MSpec2 (K D : Type) where
  vel : Option (Fin 2 → C2 → K)
  rule : MRule D

/-- The loop on the global grid: fields and time. -/
noncomputable def mRun2 [Add K] [Zero K] [LE K] (N : Num2 K D) (gy gx : ℕ) : List (MSpec2 K D) → MFields2 K × D → MFields2 K × D
  | [], r => r
  | y :: ys, r =>
    let F : MFields2 K := { r.1 with u := y.vel.getD r.1.u }
    let dt := mDt2 N gy gx F y.rule
    mRun2 N gy gx ys ({ F with om := mDiff2 N gy gx dt (mAdv2 N gy gx dt F) }, N.tick r.2 dt)

/-- The ranks hold the fields: inner cells, and the ghost cells beyond the sides of the domain. -/
structure MHolds2 (T : Cart2) (F : MFields2 K) (S : Mach2 K D) : Prop where
  om : HoldsExt2 T 2 F.om S.prim
  u : ∀ j, HoldsExt2 T 2 (F.u j) fun c i => S.vel c (j, i)

/-- The round of the program means the round on the global grid: assigned arrays hold the assigned field, the same rule, and all messages of
the two exchanges arrive. -/
structure MMeans2 (T : Cart2) (x : MIn2 K D) (y : MSpec2 K D) : Prop where
  novel : x.vel = none → y.vel = none
  newvel : ∀ w, x.vel = some w → ∃ V, y.vel = some V ∧ ∀ j, HoldsExt2 T 2 (V j) fun c i => w c (j, i)
  rule : x.rule = y.rule
  sa : Complete (multiMsgs2 T 2 false [none, some (0 : Fin 2), some 1]) x.sa.2
  sd : Complete (multiMsgs2 T 2 false [()]) x.sd.2

end

/-! ## Lemmas -/

section
variable {K D : Type} {gy gx py px : ℕ} {T : Cart2}

/-- `kernel2_ghost_kept` for any type -/
theorem kernel2_ghost_keptK {ι β : Type} {k : ℕ} (hk1 : 1 ≤ k) (hny : k ≤ T.ny) (hnx : k ≤ T.nx) (op : β → β → β)
    (f : (ι → C2 → K) → β) (A1 A2 : ι → C2 → K) (out : C2 → β) {p : C2} (hp : ¬ Inner2 T k p) :
    kernel2 T k k op f A1 A2 out p = out p := by
  have key : ∀ V ∈ interiorView2 T k :: boundaryViews2 T k k, ¬ writes2 k V p := by
    intro V hV hw
    apply hp
    unfold boundaryViews2 interiorView2 at hV
    simp only [List.mem_cons, List.not_mem_nil, or_false] at hV
    unfold Inner2
    rcases hV with rfl | rfl | rfl | rfl | rfl <;> unfold writes2 at hw <;>
      simp only [inPass_inner hk1, inPass_lo le_rfl hny, inPass_lo le_rfl hnx, inPass_hi hk1 le_rfl hny, inPass_hi hk1 le_rfl hnx,
        inPass_full] at hw <;> omega
  unfold kernel2
  unfold boundaryViews2 at *
  simp only [List.foldl_cons, List.foldl_nil]
  simp only [List.mem_cons, List.not_mem_nil, or_false, forall_eq_or_imp, forall_eq] at key
  obtain ⟨k0, k1, k2, k3, k4⟩ := key
  rw [pass2_neg k4, pass2_neg k3, pass2_neg k2, pass2_neg k1, pass2_neg k0]

/-- `multi2_outside` for any type -/
theorem multi2_outsideK {ι : Type} [DecidableEq ι] (hT : mkCart2 gy gx py px false = .ok T) {g : ℕ} (hg : 1 ≤ g) (hy : g ≤ T.ny) (hx : g ≤ T.nx)
    (full : Bool) {comps : List ι} (hcs : ∀ i, i ∈ comps) (w : World C2 (ι × ℤ) K) {s : List Ev} (hs : Complete (multiMsgs2 T g full comps) s)
    {c p : C2} (hc : Valid2 T c) (hp : InArr2 T g p) (hD : ¬ InDomain2 T (globalIx2 T g c p)) (i : ι) :
    multiExchange2 T g full comps w s c (i, flat2 T g p) = w c (i, flat2 T g p) := by
  obtain ⟨s', hs'⟩ := complete_schedule_exists (ghostMsgs2 T g full)
  rw [multiExchange2_eq hg hy hx full hcs w hs hs' i, exchange2_outside hT hg hy hx full _ hs' hc hp hD]

variable [Add K] [Zero K]

/-- `advection_timestep` -/
theorem machAdv2_holds (hT : mkCart2 gy gx py px false = .ok T) (hy : 4 ≤ T.ny) (hx : 4 ≤ T.nx) {N : Num2 K D} (hN : N.Local) (dt : D)
    {sa : (C2 → List Ev) × List Ev} (hs : Complete (multiMsgs2 T 2 false [none, some (0 : Fin 2), some 1]) sa.2)
    {F : MFields2 K} {vel : World C2 (Fin 2 × ℤ) K} {st : StepState C2 ℤ K} (ho : HoldsExt2 T 2 F.om st.field)
    (hu : ∀ j, HoldsExt2 T 2 (F.u j) fun c i => vel c (j, i)) :
    HoldsExt2 T 2 (mAdv2 N gy gx dt F) (machAdv2 T (N.adv dt) sa.1 sa.2 vel st).2.field ∧
    ∀ j, HoldsExt2 T 2 (F.u j) fun c i => (machAdv2 T (N.adv dt) sa.1 sa.2 vel st).1 c (j, i) := by
  obtain ⟨-, -, -, -, hper, -⟩ := construct2_ok hT
  have hw : ∀ (i : Option (Fin 2)) (c p : C2), Valid2 T c → (Inner2 T ((2 : ℕ) : ℤ) p ∨ (T.per = false ∧ InArr2 T ((2 : ℕ) : ℤ) p ∧
      (zone ((2 : ℕ) : ℤ) T.ny p.1 = 0 ∨ zone ((2 : ℕ) : ℤ) T.nx p.2 = 0) ∧ ¬ InDomain2 T (globalIx2 T ((2 : ℕ) : ℤ) c p))) →
      (match i with
        | none => st.field c (flat2 T 2 p)
        | some j => vel c (j, flat2 T 2 p)) = advIn2 F.om F.u i (globalIx2 T ((2 : ℕ) : ℤ) c p) := by
    intro i c p hc hp
    cases i with
    | none => exact ho c p hc hp
    | some j => exact hu j c p hc hp
  constructor
  · intro c p hc hp
    unfold machAdv2 addFlux2 mAdv2
    simp only
    rcases hp with hp | ⟨hpe, ha, hz, hD⟩
    · rw [if_pos ((dom2_iff hT _).2 (inner_inDomain2 hT hc hp)), unflat2_flat2 (inArr_of_inner2 hp),
        multiExchange2_inner (by omega) (by omega) (by omega) false mem_advComps2 _ _ none hp,
        stencilAdd2_global (F := advIn2 F.om F.u) hT (by omega) le_rfl (by omega) (by omega) hy hx false mem_advComps2 (hN.adv dt)
          (fun i c p hc hp => hw i c p hc (Or.inl hp)) sa.1 hs _ hc hp
          (Or.inr (Or.inr fun i q h1 h2 h3 => hw i c q hc (Or.inr ⟨hper, h1, h2, h3⟩)))]
      unfold serialAt2
      simp only [contIx2_false]
      rw [ho c p hc (Or.inl hp)]
      congr 3
      funext i d
      cases i <;> rfl
    · have hin : ¬ Inner2 T ((2 : ℕ) : ℤ) p := fun hin => hD (inner_inDomain2 hT hc hin)
      rw [if_neg (fun h => hD ((dom2_iff hT _).1 h)), unflat2_flat2 ha, multi2_outsideK hT (by omega) (by omega) (by omega) false mem_advComps2 _ hs hc ha hD]
      unfold stencilAdd2 stencil2
      rw [kernel2_ghost_keptK (by omega) (by omega) (by omega) _ _ _ _ _ hin]
      simp only
      rw [ho c p hc (Or.inr ⟨hpe, ha, hz, hD⟩)]
  · intro j c p hc hp
    unfold machAdv2
    simp only
    rcases hp with hp | ⟨hpe, ha, hz, hD⟩
    · rw [multiExchange2_inner (by omega) (by omega) (by omega) false mem_advComps2 _ _ _ hp]
      exact hu j c p hc (Or.inl hp)
    · rw [multi2_outsideK hT (by omega) (by omega) (by omega) false mem_advComps2 _ hs hc ha hD]
      exact hu j c p hc (Or.inr ⟨hpe, ha, hz, hD⟩)

/-- `diffusion_timestep` -/
theorem machDiff2_holds (hT : mkCart2 gy gx py px false = .ok T) (hy : 4 ≤ T.ny) (hx : 4 ≤ T.nx) {N : Num2 K D} (hN : N.Local) (dt : D)
    {sd : (C2 → List Ev) × List Ev} (hs : Complete (multiMsgs2 T 2 false [()]) sd.2) {om : C2 → K} {st : StepState C2 ℤ K}
    (ho : HoldsExt2 T 2 om st.field) : HoldsExt2 T 2 (mDiff2 N gy gx dt om) (diffusionStep2 T 2 false (N.diff dt) sd.1 sd.2 st).field := by
  intro c p hc hp
  have hcs : ∀ i : Unit, i ∈ [()] := by simp
  unfold mDiff2 diffusionStep2 addFlux2
  simp only
  rcases hp with hp | ⟨hpe, ha, hz, hD⟩
  · rw [unflat2_flat2 (inArr_of_inner2 hp), multiExchange2_inner (by omega) (by omega) (by omega) false hcs _ _ () hp,
      stencilZero2_global (F := fun _ => om) hT (by omega) (by omega) (by omega) false hcs (hN.diff dt) 0
        (fun _ c p hc hp => ho c p hc (Or.inl hp)) sd.1 hs _ hc hp]
    unfold serialZero2 serialAt2
    simp only [contIx2_false, true_and]
    rw [ho c p hc (Or.inl hp)]
    have hd : Dom2 gy gx (globalIx2 T ((2 : ℕ) : ℤ) c p) := (dom2_iff hT _).2 (inner_inDomain2 hT hc hp)
    by_cases he : OnEdge2 gy gx (globalIx2 T ((2 : ℕ) : ℤ) c p)
    · rw [if_pos he, if_neg fun h => h.2 he]
    · rw [if_neg he, if_pos ⟨hd, he⟩]
  · rw [if_neg (fun h => hD ((dom2_iff hT _).1 h.1))]
    unfold stencilZero2
    rw [unflat2_flat2 ha, zeroSides2_outside hT (by omega) (by omega) (by omega) _ _ hc ha hD,
      multi2_outsideK hT (by omega) (by omega) (by omega) false hcs _ hs hc ha hD, ho c p hc (Or.inr ⟨hpe, ha, hz, hD⟩)]

/-- one time step -/
theorem machStep2_holds (hT : mkCart2 gy gx py px false = .ok T) (hy : 4 ≤ T.ny) (hx : 4 ≤ T.nx) {N : Num2 K D} (hN : N.Local) (dt : D)
    {sa sd : (C2 → List Ev) × List Ev} (hsa : Complete (multiMsgs2 T 2 false [none, some (0 : Fin 2), some 1]) sa.2)
    (hsd : Complete (multiMsgs2 T 2 false [()]) sd.2) {F : MFields2 K} {S : Mach2 K D} (h : MHolds2 T F S) :
    MHolds2 T { F with om := mDiff2 N gy gx dt (mAdv2 N gy gx dt F) } (machStep2 N T sa sd dt S) := by
  obtain ⟨a, b⟩ := machAdv2_holds hT hy hx hN dt hsa (st := ⟨S.prim, S.buf⟩) h.om h.u
  exact ⟨machDiff2_holds hT hy hx hN dt hsd a, b⟩

end

section
variable {K D : Type} [LinearOrder K] [LinearOrder D]

theorem greatestOf_eq {A : Set K} {m : K} (h : IsGreatest A m) (d : K) : greatestOf A d = m := by
  unfold greatestOf
  have e : ∃ m, IsGreatest A m := ⟨m, h⟩
  rw [dif_pos e]
  exact IsGreatest.unique e.choose_spec h

omit [LinearOrder D] in
theorem foldl_maxK (l : List K) (a : K) : a ≤ l.foldl max a ∧ (∀ x ∈ l, x ≤ l.foldl max a) ∧ (l.foldl max a = a ∨ l.foldl max a ∈ l) := by
  induction l generalizing a with
  | nil => exact ⟨le_rfl, by simp, Or.inl rfl⟩
  | cons b l ih =>
    obtain ⟨h1, h2, h3⟩ := ih (max a b)
    rw [List.foldl_cons]
    refine ⟨(le_max_left a b).trans h1, ?_, ?_⟩
    · intro x hx
      rcases List.mem_cons.1 hx with rfl | hx
      · exact (le_max_right a x).trans h1
      · exact h2 x hx
    · rcases h3 with h3 | h3
      · rw [h3]
        rcases max_choice a b with e | e
        · exact Or.inl e
        · rw [e]; exact Or.inr List.mem_cons_self
      · exact Or.inr (List.mem_cons_of_mem _ h3)

omit [LinearOrder D] in
theorem amaxK_ok {l : List K} (h : l ≠ []) : ∃ m, amaxK l = .ok m ∧ IsGreatest {x | x ∈ l} m := by
  cases l with
  | nil => exact absurd rfl h
  | cons a l =>
    obtain ⟨h1, h2, h3⟩ := foldl_maxK l a
    refine ⟨_, rfl, ?_, ?_⟩
    · rcases h3 with h3 | h3
      · exact List.mem_cons.2 (Or.inl h3)
      · exact List.mem_cons_of_mem _ h3
    · intro x hx
      rcases List.mem_cons.1 hx with rfl | hx
      · exact h1
      · exact h2 x hx

omit [LinearOrder K] in
theorem foldl_minK (l : List D) (a : D) : l.foldl min a ≤ a ∧ (∀ x ∈ l, l.foldl min a ≤ x) ∧ (l.foldl min a = a ∨ l.foldl min a ∈ l) :=
  foldl_maxK (K := Dᵒᵈ) l a

omit [LinearOrder K] in
theorem allminK_ok {R : Type} {rs : List R} (hne : rs ≠ []) {x : R → Except PyErr D} {y : R → D} (h : ∀ r ∈ rs, x r = .ok (y r)) :
    ∃ m, allminK rs x = .ok m ∧ IsLeast {v | ∃ r ∈ rs, v = y r} m := by
  unfold allminK
  rw [mapM_okR h]
  cases rs with
  | nil => exact absurd rfl hne
  | cons r rs =>
    obtain ⟨h1, h2, h3⟩ := foldl_minK (rs.map y) (y r)
    refine ⟨_, rfl, ?_, ?_⟩
    · rcases h3 with h3 | h3
      · exact ⟨r, List.mem_cons_self, h3⟩
      · obtain ⟨q, hq, e⟩ := List.mem_map.1 h3
        exact ⟨q, List.mem_cons_of_mem _ hq, e.symm⟩
    · rintro v ⟨q, hq, rfl⟩
      rcases List.mem_cons.1 hq with rfl | hq
      · exact h1
      · exact h2 _ (List.mem_map_of_mem hq)

variable {gy gx py px : ℕ} {T : Cart2}

/-- the stable time step of the ranks is the one of the grid -/
theorem machStable2_holds (hT : mkCart2 gy gx py px false = .ok T) (hy : 4 ≤ T.ny) (hx : 4 ≤ T.nx) {N : Num2 K D} (hM : N.Slower) (prefac : D)
    {F : MFields2 K} {S : Mach2 K D} (h : MHolds2 T F S) :
    (machStable2 N T prefac S).2 = .ok (mDt2 N gy gx F (.stable prefac)) := by
  obtain ⟨e1, e2, -, -, hper, hY, hX⟩ := construct2_ok hT
  have hval : ∀ c p, Valid2 T c → Inner2 T ((2 : ℕ) : ℤ) p → N.mag (S.vel c (0, flat2 T 2 p)) (S.vel c (1, flat2 T 2 p)) =
      N.mag (F.u 0 (globalIx2 T ((2 : ℕ) : ℤ) c p)) (F.u 1 (globalIx2 T ((2 : ℕ) : ℤ) c p)) := by
    intro c p hc hp
    rw [← h.u 0 c p hc (Or.inl hp), ← h.u 1 c p hc (Or.inl hp)]
  let inner : C2 → List K := fun c => (rangeOf (innerR T.ny 2)).flatMap fun i => (rangeOf (innerR T.nx 2)).map fun j =>
    N.mag (S.vel c (0, flat2 T 2 (i, j))) (S.vel c (1, flat2 T 2 (i, j)))
  have hmem : ∀ c x, x ∈ inner c ↔ ∃ p, Inner2 T ((2 : ℕ) : ℤ) p ∧ x = N.mag (S.vel c (0, flat2 T 2 p)) (S.vel c (1, flat2 T 2 p)) := by
    intro c x
    simp only [inner, List.mem_flatMap, List.mem_map, mem_rangeOf_inner]
    constructor
    · rintro ⟨i, ⟨-, a, b⟩, j, ⟨-, a', b'⟩, rfl⟩
      exact ⟨(i, j), ⟨a, by omega, a', by omega⟩, rfl⟩
    · rintro ⟨p, ⟨a, b, a', b'⟩, rfl⟩
      exact ⟨p.1, ⟨by omega, a, by omega⟩, p.2, ⟨by omega, a', by omega⟩, rfl⟩
  have hne : ∀ c, inner c ≠ [] := by
    intro c hc
    have : N.mag (S.vel c (0, flat2 T 2 (2, 2))) (S.vel c (1, flat2 T 2 (2, 2))) ∈ inner c :=
      (hmem c _).2 ⟨(2, 2), ⟨by norm_num, by simp only; push_cast; omega, by norm_num, by simp only; push_cast; omega⟩, rfl⟩
    rw [hc] at this
    exact absurd this List.not_mem_nil
  choose m hm hgr using fun c => amaxK_ok (hne c)
  have hpos : 0 < gy ∧ 0 < gx := by
    unfold mkCart2 at hT
    split at hT
    · exact absurd hT (by simp)
    · cases hT
      simp only at hy hx
      have := Nat.div_le_self gy py
      have := Nat.div_le_self gx px
      omega
  have hr : ranks2 T ≠ [] := by
    obtain ⟨c, p, hc, -⟩ := domain_owned2 hT 2 (G := (0, 0)) (by refine ⟨?_, ?_, ?_, ?_⟩ <;> simp <;> omega)
    exact List.ne_nil_of_mem (mem_ranks2.2 hc)
  obtain ⟨v, hv, ⟨c1, hc1, hv1⟩, hv2⟩ := allminK_ok (rs := ranks2 T) hr (x := fun c => (amaxK (inner c)).map N.limit) (y := fun c => N.limit (m c))
    (fun c _ => by rw [hm c]; rfl)
  have hval1 : ∀ c, Valid2 T c → ∃ p, Inner2 T ((2 : ℕ) : ℤ) p ∧
      m c = N.mag (F.u 0 (globalIx2 T ((2 : ℕ) : ℤ) c p)) (F.u 1 (globalIx2 T ((2 : ℕ) : ℤ) c p)) := by
    intro c hc
    obtain ⟨p, hp, e⟩ := (hmem c _).1 (hgr c).1
    exact ⟨p, hp, e.trans (hval c p hc hp)⟩
  -- the rank whose limit is the least has the greatest magnitude, up to equal limits
  have hex : ∃ M, IsGreatest {x | ∃ G, Dom2 gy gx G ∧ x = N.mag (F.u 0 G) (F.u 1 G)} M ∧ N.limit M = v := by
    obtain ⟨m2, hm2, hg2⟩ := amaxK_ok (l := (ranks2 T).map m) (by simpa using hr)
    obtain ⟨c2, hc2, e2'⟩ := List.mem_map.1 hg2.1
    have hv2' := mem_ranks2.1 hc2
    obtain ⟨p2, hp2, ep2⟩ := hval1 c2 hv2'
    refine ⟨m2, ⟨⟨_, (dom2_iff hT _).2 (inner_inDomain2 hT hv2' hp2), e2'.symm.trans ep2⟩, ?_⟩, ?_⟩
    · rintro x ⟨G, hG, rfl⟩
      obtain ⟨c, p, hc, hp, rfl⟩ := domain_owned2 hT 2 ((dom2_iff hT _).1 hG)
      exact ((hgr c).2 ((hmem c _).2 ⟨p, hp, (hval c p hc hp).symm⟩)).trans (hg2.2 (List.mem_map_of_mem (mem_ranks2.2 hc)))
    · refine le_antisymm ?_ (hv2 ⟨c2, hc2, by rw [e2']⟩)
      obtain ⟨p1, hp1, ep1⟩ := hval1 c1 (mem_ranks2.1 hc1)
      have hle : m c1 ≤ m2 := hg2.2 (List.mem_map_of_mem hc1)
      rw [hv1, ← e2']
      rw [← e2', ep1, ep2] at hle
      rw [ep1, ep2]
      exact hM _ _ _ _ hle
  obtain ⟨M, hM1, hM2⟩ := hex
  unfold mDt2
  simp only
  rw [greatestOf_eq hM1, hM2]
  show (allminK (ranks2 T) fun c => (amaxK (inner c)).map N.limit).map (fun dt => N.scale dt prefac) = _
  rw [hv]
  rfl

variable [Add K] [Zero K]

/-- C117: bit for bit: whatever the arithmetic of the machine, on every decomposition and for all message schedules, the driver's loop of a
passive scalar simulator raises nothing, and all ranks hold the field and the time that the same operations give on the global grid. -/
theorem machine2_run (hT : mkCart2 gy gx py px false = .ok T) (hy : 4 ≤ T.ny) (hx : 4 ≤ T.nx) {N : Num2 K D} (hN : N.Local) (hM : N.Slower)
    {xs : List (MIn2 K D)} {ys : List (MSpec2 K D)} (h : List.Forall₂ (MMeans2 T) xs ys) {F : MFields2 K} {S : Mach2 K D} (hF : MHolds2 T F S) :
    ∃ S', machRun2 N T xs S = (S', none) ∧ MHolds2 T (mRun2 N gy gx ys (F, S.time)).1 S' ∧ S'.time = (mRun2 N gy gx ys (F, S.time)).2 := by
  induction h generalizing F S with
  | nil => exact ⟨S, rfl, hF, rfl⟩
  | @cons x y xs ys hxy _ ih =>
    -- the assignment of the velocity
    have hset : ∃ S1 : Mach2 K D, (match x.vel with
        | none => S
        | some w => { S with vel := w }) = S1 ∧ S1.time = S.time ∧ MHolds2 T { F with u := y.vel.getD F.u } S1 := by
      cases hv : x.vel with
      | none => exact ⟨S, rfl, rfl, by rw [hxy.novel hv]; exact hF⟩
      | some w =>
        obtain ⟨V, e, hV⟩ := hxy.newvel w hv
        exact ⟨{ S with vel := w }, rfl, rfl, by rw [e]; exact ⟨hF.om, hV⟩⟩
    obtain ⟨S1, e1, et, h1⟩ := hset
    unfold machRun2 mRun2
    simp only
    rw [e1, ← hxy.rule]
    cases hr : x.rule with
    | given dt =>
      have q := ih (machStep2_holds hT hy hx hN dt hxy.sa hxy.sd h1)
      rw [← et]
      exact q
    | stable prefac =>
      have q := machStable2_holds hT hy hx hM prefac h1
      obtain ⟨S2, e2, h2, t2⟩ : ∃ S2, machStable2 N T prefac S1 = (S2, .ok (mDt2 N gy gx { F with u := y.vel.getD F.u } (.stable prefac))) ∧
          MHolds2 T { F with u := y.vel.getD F.u } S2 ∧ S2.time = S1.time :=
        ⟨(machStable2 N T prefac S1).1, Prod.ext rfl q, ⟨h1.om, h1.u⟩, rfl⟩
      simp only [e2]
      have q := ih (machStep2_holds hT hy hx hN (mDt2 N gy gx { F with u := y.vel.getD F.u } (.stable prefac)) hxy.sa hxy.sd h2)
      rw [← et, ← t2]
      exact q

/-- C117: two runs of one driver on two decompositions (for example many ranks and one), with any message schedules on both, end with the
same values at the same cells of the grid and the same time, bit for bit. -/
theorem machine2_same {py' px' : ℕ} {T' : Cart2} (hT : mkCart2 gy gx py px false = .ok T) (hT' : mkCart2 gy gx py' px' false = .ok T')
    (hy : 4 ≤ T.ny) (hx : 4 ≤ T.nx) (hy' : 4 ≤ T'.ny) (hx' : 4 ≤ T'.nx) {N : Num2 K D} (hN : N.Local) (hM : N.Slower)
    {xs xs' : List (MIn2 K D)} {ys : List (MSpec2 K D)} (h : List.Forall₂ (MMeans2 T) xs ys) (h' : List.Forall₂ (MMeans2 T') xs' ys)
    {F : MFields2 K} {S S' : Mach2 K D} (hF : MHolds2 T F S) (hF' : MHolds2 T' F S') (ht : S.time = S'.time) :
    ∃ R R', machRun2 N T xs S = (R, none) ∧ machRun2 N T' xs' S' = (R', none) ∧ R.time = R'.time ∧
      ∀ c p c' p', Valid2 T c → Inner2 T (2 : ℕ) p → Valid2 T' c' → Inner2 T' (2 : ℕ) p' → globalIx2 T (2 : ℕ) c p = globalIx2 T' (2 : ℕ) c' p' →
        R.prim c (flat2 T 2 p) = R'.prim c' (flat2 T' 2 p') := by
  obtain ⟨R, e, a, t⟩ := machine2_run hT hy hx hN hM h hF
  obtain ⟨R', e', a', t'⟩ := machine2_run hT' hy' hx' hN hM h' hF'
  refine ⟨R, R', e, e', by rw [t, t', ht], ?_⟩
  intro c p c' p' hc hp hc' hp' hG
  rw [a.om c p hc (Or.inl hp), a'.om c' p' hc' (Or.inl hp'), hG, ht]

end

/-! ## Link to the simulator model over the reals -/

section
variable {T : Cart2}

/-- The simulator's numbers when arithmetic is exact. -/
noncomputable def exactNum2 (C : Cfg2) (T : Cart2) (K : Kern2) (tol : ℝ) : Num2 ℝ ℝ where
  adv dt := K.adv (-(dt / simDx2 T C.xr))
  diff dt := K.diff (C.nu * dt / simDx2 T C.xr / simDx2 T C.xr)
  mag a b := |a| + |b|
  limit m := minInf (C.cfl * simDx2 T C.xr / (m + tol)) (divInf (0.9 * simDx2 T C.xr ^ 2 / (2 * 2)) C.nu)
  scale a b := a * b
  tick a b := a + b

/-- The arrays of a simulator as flat arrays. -/
def machOf2 (S : Sim2 T) : Mach2 ℝ ℝ := ⟨toFlat2 T 2 S.prim, fun c i => toFlat2 T 2 (S.vel i.1) c i.2, S.buf, S.time⟩

theorem toFlat2_ofFlat2 {g : ℕ} (v : World C2 ℤ ℝ) : toFlat2 T g (ofFlat2 T g v) = v := by
  funext c i
  unfold toFlat2 ofFlat2 unflat2 flat2
  congr 1
  have := Int.mul_ediv_add_emod i (cols2 T g)
  simp only
  linarith [mul_comm (cols2 T g : ℤ) (i / cols2 T g)]

/-- the machine's step with exact arithmetic is the passive scalar step of the simulator model -/
theorem machStep2_exact {C : Cfg2} (hg : C.g = 2) (hf : C.flowType = "passive_scalar") (ha : "advection_timestep" ∈ C.attrs)
    (hd : "diffusion_timestep" ∈ C.attrs) (K : Kern2) (tol : ℝ) (sch : Scheds2) (dt : ℝ) (fs : Fin 2 → ℝ) [NeZero T.gy] [NeZero T.gx] (S : Sim2 T) :
    ∃ S', timeStep2 C K sch dt fs S = (S', none) ∧ machOf2 S' = machStep2 (exactNum2 C T K tol) T sch.adv sch.diff dt (machOf2 S) := by
  have h1 : flowStep2 C K sch dt fs S = (callDiff2 C K sch.diff dt (callAdv2 C K sch.adv dt S), none) := by
    unfold flowStep2 advDiffStep2 useAttr2 Out2.andThen
    rw [hf, if_neg (by decide), if_neg (by decide), if_pos ha]
    simp only
    rw [if_pos hd]
  unfold timeStep2
  rw [h1]
  refine ⟨_, rfl, ?_⟩
  unfold machOf2 machStep2 callDiff2 callAdv2
  simp only [hg]
  have e : machAdv2 T ((exactNum2 C T K tol).adv dt) sch.adv.1 sch.adv.2 (fun c i => toFlat2 T 2 (S.vel i.1) c i.2) ⟨toFlat2 T 2 S.prim, S.buf⟩ =
      advectionStep2 T 2 false K.adv (dt / simDx2 T C.xr) sch.adv.1 sch.adv.2 (fun c i => toFlat2 T 2 (S.vel i.1) c i.2)
        ⟨toFlat2 T 2 S.prim, S.buf⟩ := machAdv2_eq T K.adv _ _ _ _ _
  rw [e]
  simp only [toFlat2_ofFlat2]
  rfl

/-- … and so is the stable time step -/
theorem machStable2_exact {C : Cfg2} (hg : C.g = 2) (K : Kern2) (tol prefac : ℝ) (S : Sim2 T) :
    (machStable2 (exactNum2 C T K tol) T prefac (machOf2 S)).2 = (stableDt2 C tol prefac S).2 := by
  have hl : ∀ c, ((rangeOf (innerR T.ny 2)).flatMap fun i => (rangeOf (innerR T.nx 2)).map fun j =>
      (exactNum2 C T K tol).mag ((machOf2 S).vel c (0, flat2 T 2 (i, j))) ((machOf2 S).vel c (1, flat2 T 2 (i, j)))) =
      innerElems2 T 2 (fun p => |S.vel 0 c p| + |S.vel 1 c p|) := by
    intro c
    unfold innerElems2
    refine List.flatMap_congr fun i hi => List.map_congr_left fun j hj => ?_
    obtain ⟨-, a, b⟩ := mem_rangeOf_inner.1 hi
    obtain ⟨-, a', b'⟩ := mem_rangeOf_inner.1 hj
    have hp : InArr2 T ((2 : ℕ) : ℤ) (i, j) := inArr_of_inner2 ⟨a, by simp only; omega, a', by simp only; omega⟩
    show |toFlat2 T 2 (S.vel 0) c (flat2 T 2 (i, j))| + |toFlat2 T 2 (S.vel 1) c (flat2 T 2 (i, j))| = _
    rw [toFlat2_flat hp, toFlat2_flat hp]
  unfold machStable2 stableDt2
  simp only [hg, hl]
  have hx : (fun c => (amaxK (innerElems2 T 2 fun p => |S.vel 0 c p| + |S.vel 1 c p|)).map (exactNum2 C T K tol).limit) =
      fun c => (do
        let m ← amax (innerElems2 T 2 fun p => |S.vel 0 c p| + |S.vel 1 c p|)
        let lim := divInf (0.9 * simDx2 T C.xr ^ 2 / (2 * 2)) C.nu
        (.ok (minInf (C.cfl * simDx2 T C.xr / (m + tol)) lim) : Except PyErr ℝ)) := by
    funext c
    cases innerElems2 T 2 fun p => |S.vel 0 c p| + |S.vel 1 c p| <;> rfl
  have hm : ∀ (rs : List C2) (x : C2 → Except PyErr ℝ), allminK rs x = allreduce min rs x := by
    intro rs x
    unfold allminK allreduce
    cases rs.mapM x with
    | error e => rfl
    | ok l => cases l <;> rfl
  rw [hx, hm]
  rfl

end

/-! ## Rounded arithmetic -/

/-- Real numbers whose sums are rounded by `r`. -/
structure Rnd (r : ℝ → ℝ) where
  val : ℝ

section Rounded
variable {r : ℝ → ℝ}

instance : Add (Rnd r) := ⟨fun a b => ⟨r (a.val + b.val)⟩⟩
instance : Zero (Rnd r) := ⟨⟨0⟩⟩

theorem Rnd.val_injective : Function.Injective (Rnd.val (r := r)) := fun a b h => by cases a; cases b; simpa using h

noncomputable instance : LinearOrder (Rnd r) := LinearOrder.lift' Rnd.val Rnd.val_injective

/-- A simulator in arithmetic with rounding `r` after every operation: the stable time step is `min(CFL dx / (greatest + tol), diffusion limit)`
with every operation rounded; the flux kernels are any functions. -/
noncomputable def roundedNum2 (r : ℝ → ℝ) (adv : ℝ → (Option (Fin 2) → C2 → Rnd r) → Rnd r) (diff : ℝ → (Unit → C2 → Rnd r) → Rnd r)
    (cflDx tol diffLimit : ℝ) : Num2 (Rnd r) ℝ where
  adv := adv
  diff := diff
  mag a b := ⟨r (|a.val| + |b.val|)⟩
  limit m := min (r (cflDx / r (m.val + tol))) diffLimit
  scale a b := r (a * b)
  tick a b := r (a + b)

/-- C117: rounded arithmetic meets what the stable time step needs, if rounding is monotone and keeps `0` and the tolerance. -/
theorem rounded_sound (hr : Monotone r) (h0 : r 0 = 0) {tol : ℝ} (ht : 0 < tol) (hrt : r tol = tol) {cflDx : ℝ} (hc : 0 ≤ cflDx)
    (adv : ℝ → (Option (Fin 2) → C2 → Rnd r) → Rnd r) (diff : ℝ → (Unit → C2 → Rnd r) → Rnd r) (diffLimit : ℝ) :
    (roundedNum2 r adv diff cflDx tol diffLimit).Slower := by
  intro a b a' b' h
  have h : r (|a.val| + |b.val|) ≤ r (|a'.val| + |b'.val|) := h
  have hm : 0 ≤ r (|a.val| + |b.val|) := by rw [← h0]; exact hr (by positivity)
  have h1 : tol ≤ r (r (|a.val| + |b.val|) + tol) := by
    calc tol = r tol := hrt.symm
      _ ≤ _ := hr (by linarith)
  have h2 : r (r (|a.val| + |b.val|) + tol) ≤ r (r (|a'.val| + |b'.val|) + tol) := hr (by linarith)
  show min (r (cflDx / r (r (|a'.val| + |b'.val|) + tol))) diffLimit ≤ min (r (cflDx / r (r (|a.val| + |b.val|) + tol))) diffLimit
  exact min_le_min (hr (div_le_div_of_nonneg_left hc (by linarith) h2)) le_rfl

/-- Rounding of a format with few digits: integers below 4, even integers from there on. -/
noncomputable def coarse (x : ℝ) : ℝ := if x < 4 then ⌊x⌋ else 2 * ⌊x / 2⌋

theorem coarse_mono : Monotone coarse := by
  intro x y h
  unfold coarse
  split <;> split
  · exact_mod_cast Int.floor_le_floor h
  · rename_i h1 h2
    have a : (⌊x⌋ : ℝ) ≤ 3 := by
      have : ⌊x⌋ < 4 := Int.floor_lt.2 (by exact_mod_cast h1)
      exact_mod_cast (by omega : ⌊x⌋ ≤ 3)
    have b : (2 : ℤ) ≤ ⌊y / 2⌋ := Int.le_floor.2 (by push_cast; linarith [not_lt.1 h2])
    have b' : (2 : ℝ) ≤ (⌊y / 2⌋ : ℝ) := by exact_mod_cast b
    linarith
  · linarith
  · have : (⌊x / 2⌋ : ℝ) ≤ ⌊y / 2⌋ := by exact_mod_cast Int.floor_le_floor (by linarith)
    linarith

theorem coarse_zero : coarse 0 = 0 := by unfold coarse; norm_num
theorem coarse_one : coarse 1 = 1 := by unfold coarse; norm_num

/-- C117: what bit-for-bit reproducibility does *not* extend to: sums over all ranks.  With this rounding the local sums of `[4, 0]` and
`[1, 1]` on two ranks, added by `MPI.SUM`, differ from the sum of the same four values on one rank.  (Norms and totals are therefore only claimed in
real arithmetic.) -/
theorem rounded_sums_differ : ([⟨4⟩, 0, ⟨1⟩, ⟨1⟩] : List (Rnd coarse)).foldl (· + ·) 0 ≠
    (([⟨4⟩, 0] : List (Rnd coarse)).foldl (· + ·) 0) + (([⟨1⟩, ⟨1⟩] : List (Rnd coarse)).foldl (· + ·) 0) := by
  intro h
  have h := congrArg Rnd.val h
  have c4 : coarse 4 = 4 := by unfold coarse; norm_num
  have c5 : coarse 5 = 4 := by
    unfold coarse
    rw [if_neg (by norm_num), show ⌊(5 : ℝ) / 2⌋ = 2 from Int.floor_eq_iff.2 (by constructor <;> norm_num)]
    norm_num
  have c6 : coarse 6 = 6 := by unfold coarse; norm_num
  have c2 : coarse 2 = 2 := by unfold coarse; norm_num
  have : coarse (coarse (coarse (coarse (0 + 4) + 0) + 1) + 1) = coarse (coarse (coarse (0 + 4) + 0) + coarse (coarse (0 + 1) + 1)) := h
  norm_num [c4, c5, c6, c2, coarse_one] at this

/-- non-vacuity: an upwind flux and a five-point Laplacian in coarse arithmetic (`+` is not associative there, subtraction is left to the
real numbers and rounded) -/
noncomputable def exNum2 : Num2 (Rnd coarse) ℝ :=
  roundedNum2 coarse
    (fun dt v => ⟨coarse (dt * (v (some 1) (0, 0)).val * ((v none (0, -1)).val - (v none (0, 0)).val) +
      dt * (v (some 0) (0, 0)).val * ((v none (-2, 0)).val - (v none (0, 0)).val))⟩)
    (fun dt v => ⟨coarse (dt * ((v () (0, 1)).val + (v () (0, -1)).val + (v () (1, 0)).val + (v () (-1, 0)).val - 4 * (v () (0, 0)).val))⟩) 3 1 2

theorem exNum2_local : exNum2.Local := by
  constructor
  · intro a u v h
    have h1 := h none (0, -1) (by simp [Cross2])
    have h2 := h none (0, 0) (by simp [Cross2])
    have h3 := h none (-2, 0) (by simp [Cross2])
    have h4 := h (some 0) (0, 0) (by simp [Cross2])
    have h5 := h (some 1) (0, 0) (by simp [Cross2])
    show Rnd.mk _ = Rnd.mk _
    rw [h1, h2, h3, h4, h5]
  · intro a u v h
    show Rnd.mk _ = Rnd.mk _
    rw [h () (1, 0) (by simp [Cross2]), h () (-1, 0) (by simp [Cross2]), h () (0, 1) (by simp [Cross2]),
      h () (0, -1) (by simp [Cross2]), h () (0, 0) (by simp [Cross2])]

theorem exNum2_slower : exNum2.Slower := rounded_sound coarse_mono coarse_zero one_pos coarse_one (by norm_num) _ _ _

/-- every field on the grid, with its continuation, can be held by the ranks -/
theorem mHolds2_exists {K D : Type} (T : Cart2) (F : MFields2 K) (t : D) (buf : C2 → C2 → K) : ∃ S : Mach2 K D, MHolds2 T F S ∧ S.time = t := by
  have key : ∀ A : C2 → K, HoldsExt2 T 2 A fun c i => A (globalIx2 T (2 : ℕ) c (unflat2 T 2 i)) := by
    intro A c p hc hp
    have ha : InArr2 T ((2 : ℕ) : ℤ) p := by
      rcases hp with hp | hp
      · exact inArr_of_inner2 hp
      · exact hp.2.1
    simp only [unflat2_flat2 ha]
  exact ⟨⟨fun c i => F.om (globalIx2 T (2 : ℕ) c (unflat2 T 2 i)), fun c i => F.u i.1 (globalIx2 T (2 : ℕ) c (unflat2 T 2 i.2)), buf, t⟩,
    ⟨key F.om, fun j => key (F.u j)⟩, rfl⟩

/-- non-vacuity of C117: an 8 × 8 grid on 1 × 2 and on 2 × 1 ranks, a driver that assigns a velocity, takes a stable step and then a given one, in
coarse arithmetic. -/
example (F : MFields2 (Rnd coarse)) (V : Fin 2 → C2 → Rnd coarse) : ∃ xs xs' S S' R R',
    List.Forall₂ (MMeans2 ⟨8, 8, 1, 2, 8, 4, false⟩) xs [⟨some V, .stable 0.5⟩, ⟨none, .given 0.25⟩] ∧
    List.Forall₂ (MMeans2 ⟨8, 8, 2, 1, 4, 8, false⟩) xs' [⟨some V, .stable 0.5⟩, ⟨none, .given 0.25⟩] ∧
    MHolds2 ⟨8, 8, 1, 2, 8, 4, false⟩ F S ∧ MHolds2 ⟨8, 8, 2, 1, 4, 8, false⟩ F S' ∧ S.time = 0 ∧ S'.time = 0 ∧
    machRun2 exNum2 ⟨8, 8, 1, 2, 8, 4, false⟩ xs S = (R, none) ∧ machRun2 exNum2 ⟨8, 8, 2, 1, 4, 8, false⟩ xs' S' = (R', none) ∧ R.time = R'.time := by
  have one : ∀ T : Cart2, ∃ xs, List.Forall₂ (MMeans2 (K := Rnd coarse) (D := ℝ) T) xs [⟨some V, .stable 0.5⟩, ⟨none, .given 0.25⟩] := by
    intro T
    obtain ⟨s, hs⟩ := complete_schedule_exists (multiMsgs2 T 2 false [none, some (0 : Fin 2), some 1])
    obtain ⟨s', hs'⟩ := complete_schedule_exists (multiMsgs2 T 2 false [()])
    obtain ⟨W, hW, -⟩ := mHolds2_exists (D := ℝ) T ⟨F.om, V⟩ 0 (fun _ _ => 0)
    refine ⟨[⟨some W.vel, .stable 0.5, (fun _ => [], s), (fun _ => [], s')⟩, ⟨none, .given 0.25, (fun _ => [], s), (fun _ => [], s')⟩],
      .cons ⟨by simp, ?_, rfl, hs, hs'⟩ (.cons ⟨fun _ => rfl, by simp, rfl, hs, hs'⟩ .nil)⟩
    intro w hw
    cases hw
    exact ⟨V, rfl, hW.u⟩
  obtain ⟨xs, hxs⟩ := one ⟨8, 8, 1, 2, 8, 4, false⟩
  obtain ⟨xs', hxs'⟩ := one ⟨8, 8, 2, 1, 4, 8, false⟩
  obtain ⟨S, hS, ht⟩ := mHolds2_exists (D := ℝ) ⟨8, 8, 1, 2, 8, 4, false⟩ F 0 (fun _ _ => 0)
  obtain ⟨S', hS', ht'⟩ := mHolds2_exists (D := ℝ) ⟨8, 8, 2, 1, 4, 8, false⟩ F 0 (fun _ _ => 0)
  obtain ⟨R, R', e, e', t, -⟩ := machine2_same (gy := 8) (gx := 8) (py := 1) (px := 2) (py' := 2) (px' := 1) rfl rfl (by norm_num) (by norm_num) (by norm_num)
    (by norm_num) exNum2_local exNum2_slower hxs hxs' hS hS' (ht.trans ht'.symm)
  exact ⟨xs, xs', S, S', R, R', hxs, hxs', hS, hS', ht, ht', e, e', t⟩

end Rounded

end Sopht
