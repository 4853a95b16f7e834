import Verif.Sim2DGlobal

/-! # Whole 2D simulations do not depend on the decomposition (C65) -/

namespace Sopht

set_option linter.unusedSimpArgs false

/-! ## A simulation run -/

/-- How a driver chooses the time step: a number, or `compute_stable_timestep(dt_prefac)`. -/
inductive DtRule where
  | fixed (dt : ℝ)
  | stable (pre : ℝ)

/-- One iteration of a driver on all ranks: what it writes into the forcing field, the rule for `dt`, the free stream, the message schedules. -/
structure StepIn2 where
  rule : DtRule
  fs : Fin 2 → ℝ
  force : Fin 2 → World C2 C2 ℝ
  sch : Scheds2

variable {T : Cart2}

/-- The `dt` of an iteration, and the state after asking for it. -/
noncomputable def pickDt2 (C : Cfg2) (tol : ℝ) (S : Sim2 T) : DtRule → Sim2 T × Except PyErr ℝ
  | .fixed dt => (S, .ok dt)
  | .stable pre => stableDt2 C tol pre S

/-- One iteration, once `dt` is known. -/
noncomputable def iterate2 [NeZero T.gy] [NeZero T.gx] (C : Cfg2) (K : Kern2) (x : StepIn2) (r : Sim2 T × Except PyErr ℝ) : Out2 T :=
  match r.2 with
  | .error e => (r.1, some e)
  | .ok dt => timeStep2 C K x.sch dt x.fs { r.1 with forcing := x.force }

/-- The driver loop; an exception ends it. -/
noncomputable def simLoop2 [NeZero T.gy] [NeZero T.gx] (C : Cfg2) (K : Kern2) (tol : ℝ) : List StepIn2 → Sim2 T → Out2 T
  | [], S => (S, none)
  | x :: xs, S => (iterate2 C K x (pickDt2 C tol S x.rule)).andThen (simLoop2 C K tol xs)

/-! ## The same run on the global grid -/

/-- One iteration: rule for `dt`, free stream, forcing. -/
structure StepSpec2 where
  rule : DtRule
  fs : Fin 2 → ℝ
  Φ : Fin 2 → C2 → ℝ

/-- The largest velocity of the grid. -/
noncomputable def maxVel2 (gy gx : ℕ) (u : Fin 2 → C2 → ℝ) : ℝ := sSup {x | ∃ G, Dom2 gy gx G ∧ x = |u 0 G| + |u 1 G|}

/-- The time step: given, or the smaller of the CFL and the diffusion limit. -/
noncomputable def refDt2 (P : Params2) (cfl tol : ℝ) (F : Fields2) : DtRule → ℝ
  | .fixed dt => dt
  | .stable pre => (if P.nu = 0 then cfl * P.dx / (maxVel2 P.gy P.gx F.u + tol)
      else min (cfl * P.dx / (maxVel2 P.gy P.gx F.u + tol)) (0.9 * P.dx ^ 2 / 4 / P.nu)) * pre

/-- One step, by flow type. -/
noncomputable def refStep2 (flowType : String) (P : Params2) (K : Kern2) (dt : ℝ) (fs : Fin 2 → ℝ) (Φ : Fin 2 → C2 → ℝ) (F : Fields2) : Fields2 :=
  if flowType = "navier_stokes" then refNS2 P K dt fs F
  else if flowType = "navier_stokes_with_forcing" then refForcing2 P K dt fs Φ F
  else refScalar2 P K dt F

/-- The run: fields and time. -/
noncomputable def refRun2 (flowType : String) (P : Params2) (K : Kern2) (cfl tol : ℝ) : List StepSpec2 → Fields2 × ℝ → Fields2 × ℝ
  | [], s => s
  | y :: ys, s => refRun2 flowType P K cfl tol ys
      (refStep2 flowType P K (refDt2 P cfl tol s.1 y.rule) y.fs y.Φ s.1, s.2 + refDt2 P cfl tol s.1 y.rule)

/-- The iteration `x` on the ranks is the iteration `y` on the grid: same rule and free stream; all its messages are delivered; and, if there is forcing, the
ranks hold it and it vanishes in the outermost cells. -/
structure Means2 (gy gx : ℕ) (T : Cart2) (C : Cfg2) (x : StepIn2) (y : StepSpec2) : Prop where
  rule : x.rule = y.rule
  fs : x.fs = y.fs
  done : x.sch.Done T C.d
  force : C.flowType = "navier_stokes_with_forcing" → HoldsForce2 T 2 y.Φ x.force ∧ Confined2 gy gx y.Φ

/-! ## Proofs -/

variable {gy gx py px : ℕ}

theorem maxVel2_greatest (hy : 0 < gy) (hx : 0 < gx) (u : Fin 2 → C2 → ℝ) :
    IsGreatest {x | ∃ G, Dom2 gy gx G ∧ x = |u 0 G| + |u 1 G|} (maxVel2 gy gx u) := by
  have hfin : {x | ∃ G, Dom2 gy gx G ∧ x = |u 0 G| + |u 1 G|}.Finite := by
    have : {x | ∃ G, Dom2 gy gx G ∧ x = |u 0 G| + |u 1 G|} ⊆
        (fun G : C2 => |u 0 G| + |u 1 G|) '' (Set.Icc (0 : ℤ) gy ×ˢ Set.Icc (0 : ℤ) gx) := by
      rintro x ⟨G, hG, rfl⟩
      refine ⟨G, ⟨⟨hG.1, le_of_lt hG.2.1⟩, hG.2.2.1, le_of_lt hG.2.2.2⟩, rfl⟩
    exact Set.Finite.subset (Set.Finite.image _ ((Set.finite_Icc _ _).prod (Set.finite_Icc _ _))) this
  have hne : {x | ∃ G, Dom2 gy gx G ∧ x = |u 0 G| + |u 1 G|}.Nonempty := ⟨_, (0, 0), ⟨by simp, by simpa using hy, by simp, by simpa using hx⟩, rfl⟩
  exact ⟨hne.csSup_mem hfin, fun x hx => le_csSup hfin.bddAbove hx⟩

variable [NeZero T.gy] [NeZero T.gx]

theorem pickDt2_holds (hT : mkCart2 gy gx py px false = .ok T) {C : Cfg2} (hC : Good2 gy gx T C) (hcfl : 0 ≤ C.cfl) {tol : ℝ} (htol : 0 < tol)
    {F : Fields2} {S : Sim2 T} (h : SimHolds2 C F S) (r : DtRule) :
    (pickDt2 C tol S r).2 = .ok (refDt2 (C.params gy gx) C.cfl tol F r) ∧ SimHolds2 C F (pickDt2 C tol S r).1 ∧ (pickDt2 C tol S r).1.time = S.time := by
  obtain ⟨e1, e2, -⟩ := construct2_ok hT
  have n1 : T.gy ≠ 0 := NeZero.ne _
  have n2 : T.gx ≠ 0 := NeZero.ne _
  cases r with
  | fixed dt => exact ⟨rfl, h, rfl⟩
  | stable pre =>
    refine ⟨?_, ⟨h.om, h.u, h.green⟩, rfl⟩
    have hM := maxVel2_greatest (gy := gy) (gx := gx) (by omega) (by omega) F.u
    have hV : ∀ j, Blocks2 T C.g (F.u j) (S.vel j) := by
      intro j; rw [hC.g]; exact holdsX2_blocks (h.u j)
    have hset : {x | ∃ G, Dom2 gy gx G ∧ x = |F.u 0 G| + |F.u 1 G|} = {x | ∃ G, InDomain2 T G ∧ x = |F.u 0 G| + |F.u 1 G|} := by
      ext x
      simp only [Set.mem_setOf_eq]
      constructor
      · rintro ⟨G, hG, rfl⟩; exact ⟨G, (dom2_iff hT G).1 hG, rfl⟩
      · rintro ⟨G, hG, rfl⟩; exact ⟨G, (dom2_iff hT G).2 hG, rfl⟩
    rw [hset] at hM
    have := stableDt2_global hT C (by rw [hC.g]; omega) htol pre hcfl hC.xr.le S hV hM
    exact this

/-- one iteration -/
theorem iterate2_holds (hT : mkCart2 gy gx py px false = .ok T) {C : Cfg2} (hC : Good2 gy gx T C)
    (hd : C.flowType ≠ "passive_scalar" → ∃ gn, doublingInit2 gn T = .ok C.d) (hft : C.flowType ∈ flowTypes2)
    {K : Kern2} (hK : K.Local) (hK0 : ∀ a, K.upd a (fun _ _ => 0) = 0) {x : StepIn2} {y : StepSpec2} (hxy : Means2 gy gx T C x y)
    {F : Fields2} {r : Sim2 T × Except PyErr ℝ} {dt : ℝ} (hr : r.2 = .ok dt) (h : SimHolds2 C F r.1) :
    (iterate2 C K x r).2 = none ∧ SimHolds2 C (refStep2 C.flowType (C.params gy gx) K dt y.fs y.Φ F) (iterate2 C K x r).1 ∧
    (iterate2 C K x r).1.time = r.1.time + dt := by
  have h' : SimHolds2 C F { r.1 with forcing := x.force } := ⟨h.om, h.u, h.green⟩
  have key : (flowStep2 C K x.sch dt x.fs { r.1 with forcing := x.force }).2 = none ∧
      SimHolds2 C (refStep2 C.flowType (C.params gy gx) K dt y.fs y.Φ F) (flowStep2 C K x.sch dt x.fs { r.1 with forcing := x.force }).1 ∧
      (flowStep2 C K x.sch dt x.fs { r.1 with forcing := x.force }).1.time = r.1.time := by
    unfold flowStep2 refStep2
    rw [← hxy.fs]
    simp only [flowTypes2, List.mem_cons, List.not_mem_nil, or_false] at hft
    rcases hft with h1 | h1 | h1
    · have n1 : C.flowType ≠ "navier_stokes" := by rw [h1]; simp
      have n2 : C.flowType ≠ "navier_stokes_with_forcing" := by rw [h1]; simp
      simp only [if_neg n1, if_neg n2]
      have hat := hC.attrs
      unfold used2 at hat
      rw [if_pos h1] at hat
      obtain ⟨a1, a2, a3, -⟩ := advDiffStep2_holds hT hC hK (hat _ (by simp)) (hat _ (by simp)) hxy.done dt h'
      exact ⟨a1, a2, a3⟩
    · simp only [if_pos h1]
      have n1 : C.flowType ≠ "passive_scalar" := by rw [h1]; simp
      obtain ⟨gn, hd⟩ := hd n1
      exact nsStep2_holds hT hC hd hK n1 hxy.done dt x.fs h'
    · have n1 : C.flowType ≠ "passive_scalar" := by rw [h1]; simp
      have n2 : C.flowType ≠ "navier_stokes" := by rw [h1]; simp
      simp only [if_neg n2, if_pos h1]
      obtain ⟨gn, hd⟩ := hd n1
      obtain ⟨f1, f2⟩ := hxy.force h1
      obtain ⟨a1, a2, a3, -⟩ := nsForcingStep2_holds hT hC hd hK hK0 h1 hxy.done dt x.fs h' f1 f2
      exact ⟨a1, a2, a3⟩
  unfold iterate2
  rw [hr]
  simp only
  unfold timeStep2 Out2.andThen
  obtain ⟨k1, k2, k3⟩ := key
  rw [k1]
  simp only
  exact ⟨trivial, ⟨k2.om, k2.u, k2.green⟩, by rw [k3]⟩

/-- C65: any number of iterations on any decomposition: no exception, and the ranks hold the fields of the run on the global grid. -/
theorem simLoop2_holds (hT : mkCart2 gy gx py px false = .ok T) {C : Cfg2} (hC : Good2 gy gx T C)
    (hd : C.flowType ≠ "passive_scalar" → ∃ gn, doublingInit2 gn T = .ok C.d) (hft : C.flowType ∈ flowTypes2) (hcfl : 0 ≤ C.cfl)
    {tol : ℝ} (htol : 0 < tol) {K : Kern2} (hK : K.Local) (hK0 : ∀ a, K.upd a (fun _ _ => 0) = 0)
    {xs : List StepIn2} {ys : List StepSpec2} (hxy : List.Forall₂ (Means2 gy gx T C) xs ys)
    {F : Fields2} {S : Sim2 T} (h : SimHolds2 C F S) :
    (simLoop2 C K tol xs S).2 = none ∧
    SimHolds2 C (refRun2 C.flowType (C.params gy gx) K C.cfl tol ys (F, S.time)).1 (simLoop2 C K tol xs S).1 ∧
    (simLoop2 C K tol xs S).1.time = (refRun2 C.flowType (C.params gy gx) K C.cfl tol ys (F, S.time)).2 := by
  induction hxy generalizing F S with
  | nil => exact ⟨rfl, h, rfl⟩
  | @cons x y xs ys hxy _ ih =>
    obtain ⟨d1, d2, d3⟩ := pickDt2_holds hT hC hcfl htol h x.rule
    obtain ⟨i1, i2, i3⟩ := iterate2_holds hT hC hd hft hK hK0 hxy d1 d2
    have := ih i2
    rw [i3, d3] at this
    unfold simLoop2 refRun2 Out2.andThen
    rw [← hxy.rule, i1]
    simp only
    exact this

/-! ## From the constructor -/

omit [NeZero T.gy] [NeZero T.gx] in
theorem simCheck2_cart' {a : SimArgs2} (h : simCheck2 a = .ok T) : mkCart2 a.gy a.gx a.py a.px false = .ok T ∧ a.flowType ∈ flowTypes2 := by
  unfold simCheck2 at h
  split at h
  · cases h
  · rename_i hf
    split at h
    · cases h
    · split at h
      · cases h
      · rename_i T' hT'
        split at h
        · cases h
        · cases h
          exact ⟨hT', by simpa using hf⟩

/-- A simulator is usable and its blocks are not too thin: default ghost size 2, at least 4 cells and at least the penalty zone per rank and axis. -/
structure Fit2 (a : SimArgs2) (T : Cart2) : Prop where
  built : simCheck2 a = .ok T
  usable : Usable2 a
  g : a.g = 2
  ny : 4 ≤ T.ny
  nx : 4 ≤ T.nx
  wy : widthOf a.width ≤ T.ny
  wx : widthOf a.width ≤ T.nx

omit [NeZero T.gy] [NeZero T.gx] in
theorem Fit2.good {a : SimArgs2} (h : Fit2 a T) {xr : ℝ} (hx : 0 < xr) (nu cfl : ℝ) : Good2 a.gy a.gx T (simCfg2 a T xr nu cfl) :=
  ⟨h.g, h.ny, h.nx, h.wy, h.wx, hx, (attrs2_complete_iff a h.built).2 h.usable⟩

omit [NeZero T.gy] [NeZero T.gx] in
theorem Fit2.dbl {a : SimArgs2} (h : Fit2 a T) (xr nu cfl : ℝ) (hft : (simCfg2 a T xr nu cfl).flowType ≠ "passive_scalar") :
    ∃ gn, doublingInit2 gn T = .ok (simCfg2 a T xr nu cfl).d := by
  obtain ⟨hT, -⟩ := simCheck2_cart' h.built
  obtain ⟨-, -, e3, e4, -⟩ := construct2_ok hT
  have hs : T.py = 1 ∨ T.px = 1 := by rw [e3, e4]; exact (h.usable.2 hft).1
  have := doublingInit2_accepts a.g T hs
  refine ⟨.int a.g, ?_⟩
  unfold simCfg2
  simp only [this]

/-- The initial state a user sets up: the constructor's zero fields, then every rank fills the primary field and the velocity (ghost cells included) from its
`position_field`. -/
noncomputable def initFrom2 (T : Cart2) [NeZero T.gy] [NeZero T.gx] (g : ℕ) (xr time : ℝ) (dbl0 : World C2 C2 ℝ) (conv0 : Dbl2 T → ℂ)
    (om : ℝ → ℝ → ℝ) (u : Fin 2 → ℝ → ℝ → ℝ) : Sim2 T :=
  { simInit2 T xr time dbl0 conv0 with
    prim := fun c p => om (position2 T g xr c 0 p) (position2 T g xr c 1 p)
    vel := fun j c p => u j (position2 T g xr c 0 p) (position2 T g xr c 1 p) }

/-- The same fields on the global grid: their values at the cell centres. -/
noncomputable def fieldsFrom2 (dx : ℝ) (om : ℝ → ℝ → ℝ) (u : Fin 2 → ℝ → ℝ → ℝ) : Fields2 :=
  { om := fun G => om ((G.2 + 1 / 2) * dx) ((G.1 + 1 / 2) * dx), u := fun j G => u j ((G.2 + 1 / 2) * dx) ((G.1 + 1 / 2) * dx) }

theorem initFrom2_holds (hT : mkCart2 gy gx py px false = .ok T) (C : Cfg2) (time : ℝ) (dbl0 : World C2 C2 ℝ) (conv0 : Dbl2 T → ℂ)
    (om : ℝ → ℝ → ℝ) (u : Fin 2 → ℝ → ℝ → ℝ) :
    SimHolds2 C (fieldsFrom2 (C.xr / gx) om u) (initFrom2 T 2 C.xr time dbl0 conv0 om u) := by
  obtain ⟨-, e2, -⟩ := construct2_ok hT
  refine ⟨?_, ?_, dbl0, conv0, rfl⟩
  · intro c p hc ha _
    obtain ⟨h1, h2⟩ := position2_cells T 2 C.xr c ha
    unfold initFrom2 fieldsFrom2
    simp only
    rw [h1, h2, e2]
  · intro j c p hc ha _
    obtain ⟨h1, h2⟩ := position2_cells T 2 C.xr c ha
    unfold initFrom2 fieldsFrom2
    simp only
    rw [h1, h2, e2]

/-- C65: a simulation constructed, initialised from the coordinates and driven for any number of iterations (time steps given or stable, every flow
type) returns from every call and leaves in every inner cell of every rank the value of the run on the global grid. -/
theorem sim2_run {a : SimArgs2} (h : Fit2 a T) {xr : ℝ} (hxr : 0 < xr) (nu : ℝ) {cfl : ℝ} (hcfl : 0 ≤ cfl) {tol : ℝ} (htol : 0 < tol)
    {K : Kern2} (hK : K.Local) (hK0 : ∀ r, K.upd r (fun _ _ => 0) = 0) (time : ℝ) (dbl0 : World C2 C2 ℝ) (conv0 : Dbl2 T → ℂ)
    (om : ℝ → ℝ → ℝ) (u : Fin 2 → ℝ → ℝ → ℝ) {xs : List StepIn2} {ys : List StepSpec2}
    (hxy : List.Forall₂ (Means2 a.gy a.gx T (simCfg2 a T xr nu cfl)) xs ys) :
    let out := simLoop2 (simCfg2 a T xr nu cfl) K tol xs (initFrom2 T a.g xr time dbl0 conv0 om u)
    let ref := refRun2 a.flowType ⟨a.gy, a.gx, xr, nu, widthOf a.width, a.freeStream⟩ K cfl tol ys (fieldsFrom2 (xr / a.gx) om u, time)
    out.2 = none ∧ out.1.time = ref.2 ∧ ∀ c p, Valid2 T c → Inner2 T ((2 : ℕ) : ℤ) p →
      out.1.prim c p = ref.1.om (globalIx2 T ((2 : ℕ) : ℤ) c p) ∧ ∀ j, out.1.vel j c p = ref.1.u j (globalIx2 T ((2 : ℕ) : ℤ) c p) := by
  obtain ⟨hT, hft⟩ := simCheck2_cart' h.built
  have hinit := initFrom2_holds hT (simCfg2 a T xr nu cfl) time dbl0 conv0 om u
  obtain ⟨r1, r2, r3⟩ := simLoop2_holds hT (h.good hxr nu cfl) (h.dbl xr nu cfl) hft hcfl htol hK hK0 hxy hinit
  intro out ref
  have hout : out = simLoop2 (simCfg2 a T xr nu cfl) K tol xs (initFrom2 T 2 xr time dbl0 conv0 om u) := by simp only [out, h.g]
  rw [hout]
  refine ⟨r1, r3, fun c p hc hp => ⟨r2.om c p hc (inArr_of_inner2 hp) (Or.inl hp), fun j => r2.u j c p hc (inArr_of_inner2 hp) (Or.inl hp)⟩⟩

/-- C65: the same simulation on two decompositions (one of them possibly a single rank), under any message schedules, gives the same time and the same
values in every cell of the global grid. -/
theorem sim2_decomposition_independent {a a' : SimArgs2} (hsame : a' = { a with py := a'.py, px := a'.px }) {T' : Cart2} [NeZero T'.gy] [NeZero T'.gx]
    (h : Fit2 a T) (h' : Fit2 a' T') {xr : ℝ} (hxr : 0 < xr) (nu : ℝ) {cfl : ℝ} (hcfl : 0 ≤ cfl) {tol : ℝ} (htol : 0 < tol)
    {K : Kern2} (hK : K.Local) (hK0 : ∀ r, K.upd r (fun _ _ => 0) = 0) (time : ℝ) (dbl0 dbl0' : World C2 C2 ℝ) (conv0 : Dbl2 T → ℂ) (conv0' : Dbl2 T' → ℂ)
    (om : ℝ → ℝ → ℝ) (u : Fin 2 → ℝ → ℝ → ℝ) {xs xs' : List StepIn2} {ys : List StepSpec2}
    (hxy : List.Forall₂ (Means2 a.gy a.gx T (simCfg2 a T xr nu cfl)) xs ys)
    (hxy' : List.Forall₂ (Means2 a'.gy a'.gx T' (simCfg2 a' T' xr nu cfl)) xs' ys) :
    let out := simLoop2 (simCfg2 a T xr nu cfl) K tol xs (initFrom2 T a.g xr time dbl0 conv0 om u)
    let out' := simLoop2 (simCfg2 a' T' xr nu cfl) K tol xs' (initFrom2 T' a'.g xr time dbl0' conv0' om u)
    out.2 = none ∧ out'.2 = none ∧ out.1.time = out'.1.time ∧
    ∀ c p c' p', Valid2 T c → Inner2 T ((2 : ℕ) : ℤ) p → Valid2 T' c' → Inner2 T' ((2 : ℕ) : ℤ) p' →
      globalIx2 T ((2 : ℕ) : ℤ) c p = globalIx2 T' ((2 : ℕ) : ℤ) c' p' →
      out.1.prim c p = out'.1.prim c' p' ∧ ∀ j, out.1.vel j c p = out'.1.vel j c' p' := by
  obtain ⟨r1, r2, r3⟩ := sim2_run h hxr nu hcfl htol hK hK0 time dbl0 conv0 om u hxy
  obtain ⟨s1, s2, s3⟩ := sim2_run h' hxr nu hcfl htol hK hK0 time dbl0' conv0' om u hxy'
  have e : refRun2 a'.flowType ⟨a'.gy, a'.gx, xr, nu, widthOf a'.width, a'.freeStream⟩ K cfl tol ys (fieldsFrom2 (xr / a'.gx) om u, time) =
      refRun2 a.flowType ⟨a.gy, a.gx, xr, nu, widthOf a.width, a.freeStream⟩ K cfl tol ys (fieldsFrom2 (xr / a.gx) om u, time) := by
    rw [hsame]
  rw [e] at s2 s3
  intro out out'
  refine ⟨r1, s1, r2.trans s2.symm, ?_⟩
  intro c p c' p' hc hp hc' hp' hG
  obtain ⟨q1, q2⟩ := r3 c p hc hp
  obtain ⟨t1, t2⟩ := s3 c' p' hc' hp'
  rw [hG] at q1
  exact ⟨q1.trans t1.symm, fun j => by rw [q2 j, t2 j, hG]⟩

/-! ## The hypotheses can be met -/

/-- schedules that deliver everything exist for every decomposition -/
theorem scheds2_exist (T : Cart2) (d : Fin 2) : ∃ sch : Scheds2, sch.Done T d := by
  obtain ⟨s1, h1⟩ := complete_schedule_exists (multiMsgs2 T 2 false ([0, 1] : List (Fin 2)))
  obtain ⟨s2, h2⟩ := complete_schedule_exists (multiMsgs2 T 2 false [none, some (0 : Fin 2), some 1])
  obtain ⟨s3, h3⟩ := complete_schedule_exists (multiMsgs2 T 2 false [()])
  obtain ⟨s4, h4⟩ := complete_schedule_exists (toMsgs2 T 2 d)
  obtain ⟨s5, h5⟩ := complete_schedule_exists (fromMsgs2 T 2 d)
  exact ⟨⟨(fun _ => [], s1), (fun _ => [], s2), (fun _ => [], s3), s4, s5, (fun _ => [], s3)⟩, ⟨h1, h2, h3, h4, h5, h3⟩⟩

/-- a 16×8 grid with forcing on 1×2 and 2×1 ranks and on a single rank -/
example : Fit2 ⟨16, 8, 1, 2, "navier_stokes_with_forcing", true, 2, .int 2⟩ ⟨16, 8, 1, 2, 16, 4, false⟩ ∧
    Fit2 ⟨16, 8, 2, 1, "navier_stokes_with_forcing", true, 2, .int 2⟩ ⟨16, 8, 2, 1, 8, 8, false⟩ ∧
    Fit2 ⟨16, 8, 1, 1, "navier_stokes_with_forcing", true, 2, .int 2⟩ ⟨16, 8, 1, 1, 16, 8, false⟩ := by
  refine ⟨⟨by decide, ⟨by decide, fun _ => ⟨by decide, 2, rfl⟩⟩, rfl, by decide, by decide, by decide, by decide⟩,
    ⟨by decide, ⟨by decide, fun _ => ⟨by decide, 2, rfl⟩⟩, rfl, by decide, by decide, by decide, by decide⟩,
    ⟨by decide, ⟨by decide, fun _ => ⟨by decide, 2, rfl⟩⟩, rfl, by decide, by decide, by decide, by decide⟩⟩

/-- forcing confined to a cell in the middle of the grid; every rank holding its values there and zero elsewhere -/
example (T : Cart2) : ∃ Φ : Fin 2 → C2 → ℝ, Confined2 16 8 Φ ∧ Φ 0 (5, 4) = 3 ∧ ∃ v, HoldsForce2 T 2 Φ v :=
  ⟨fun j G => if j = 0 ∧ G = (5, 4) then 3 else 0, by
    intro j G h
    dsimp only
    split
    · rename_i h'
      exfalso; apply h
      rw [h'.2]; simp [Away2]
    · rfl, by simp, fun j c p => if j = 0 ∧ globalIx2 T ((2 : ℕ) : ℤ) c p = (5, 4) then 3 else 0, fun _ _ _ _ _ _ => rfl⟩

/-- kernels as in `sopht`: central differences, and an upwind-like flux over two neighbours -/
example : ∃ K : Kern2, K.Local ∧ (∀ r, K.upd r (fun _ _ => 0) = 0) ∧ K.curl 1 (fun _ d => (d.1 : ℝ)) = (2, 0) :=
  ⟨{ diff := fun a f => a * (f () (1, 0) + f () (-1, 0) + f () (0, 1) + f () (0, -1) - 4 * f () (0, 0))
     adv := fun a f => a * (f (some 0) (0, 0) * (f none (0, 2) - f none (0, -2)) + f (some 1) (0, 0) * (f none (2, 0) - f none (-2, 0)))
     curl := fun a f => (a * (f () (1, 0) - f () (-1, 0)), -a * (f () (0, 1) - f () (0, -1)))
     upd := fun a f => a * (f 1 (0, 1) - f 1 (0, -1) - f 0 (1, 0) + f 0 (-1, 0)) },
   by
    constructor <;> intro a A B h <;> simp only <;>
      (repeat rw [h _ _ (by simp [Cross2])]), by simp, by norm_num⟩

end Sopht
