import Verif.Sphere3D

/-!
# The flow past a freely rotating rod, as a function of the driver's arguments (C121)

`flow_past_rod_case` (examples/3d_examples/FlowPastFreelyRotatingRodCase/flow_past_freely_rotating_rod_case.py, below "FRR.py") without `restart_simulation`: what it computes from its
arguments, what it constructs, the loop and what it records.  How the rod moves (pyelastica) is left open: it may depend on all properties the driver gives the rod.  Which nodes the
forcing grid (sopht package) consists of, and how many, is left open too: at the start they lie on the rod.  Restarts are the subject of C84 and C99, the contents of files of C47 and
C81.
-/

namespace Sopht

/-! ## The driver -/

/-- The arguments (FRR.py:15-30): `non_dim_final_time`, `n_elem`, `grid_size`, `cauchy_number`, `mass_ratio`, `base_length`, `aspect_ratio`, `poisson_ratio`, `reynolds`,
`coupling_stiffness`, `coupling_damping`, `rod_start_incline_angle`, `rank_distribution`.  (`surface_grid_density_for_largest_element` is for the forcing grid, which is left open.) -/
structure SpinArgs where
  final : ℝ
  elems : ℕ
  gz : ℕ
  gy : ℕ
  gx : ℕ
  cauchy : ℝ
  mass : ℝ
  length : ℝ
  aspect : ℝ
  poisson : ℝ
  re : ℝ
  stiff : ℝ
  damp : ℝ
  incline : ℝ
  dist : Option (List ℕ)

/-- What pyelastica is told about the rod: the arguments of `CosseratRod.straight_rod` and of the damper (FRR.py:54-100).  One end can only turn about the first axis. -/
structure SpinSpec where
  elems : ℕ
  start : ℕ → ℝ
  dir : ℕ → ℝ
  length : ℝ
  radius : ℝ
  density : ℝ
  youngs : ℝ
  shear : ℝ
  damping : ℝ
  dampDt : ℝ

/-- pyelastica: for every rod its equations of motion with their time stepper, its state as constructed, and what of a state is saved. -/
structure SpinMech (σ Ω : Type) where
  body : SpinSpec → Stepper σ
  start : SpinSpec → σ
  saved : σ → Ω

namespace SpinArgs

/-- `rho_f` (FRR.py:40) -/
def rho (_ : SpinArgs) : ℝ := 1
/-- `U_free_stream` (FRR.py:41) -/
def speed (_ : SpinArgs) : ℝ := 1
/-- `x_range` (FRR.py:42) -/
noncomputable def xr (z : SpinArgs) : ℝ := 5 * z.length
/-- `y_range` (FRR.py:43) -/
noncomputable def yr (z : SpinArgs) : ℝ := z.gy / z.gx * z.xr
/-- `z_range` (FRR.py:44) -/
noncomputable def zr (z : SpinArgs) : ℝ := z.gz / z.gx * z.xr
/-- `velocity_free_stream` (FRR.py:45) -/
def stream (z : SpinArgs) (j : Fin 3) : ℝ := if j = 0 then z.speed else 0
/-- `base_diameter` (FRR.py:59) -/
noncomputable def diam (z : SpinArgs) : ℝ := z.length / z.aspect
/-- `base_radius` (FRR.py:60) -/
noncomputable def radius (z : SpinArgs) : ℝ := z.diam / 2
/-- `rho_s` (FRR.py:62) -/
def density (z : SpinArgs) : ℝ := z.mass * z.rho
/-- `moment_of_inertia` (FRR.py:63) -/
noncomputable def inertia (z : SpinArgs) : ℝ := Real.pi / 4 * z.radius ^ 4
/-- `youngs_modulus` (FRR.py:65-67) -/
noncomputable def youngs (z : SpinArgs) : ℝ := z.rho * z.speed ^ 2 * z.length ^ 3 * z.diam / (z.cauchy * z.inertia)
/-- `rod_dt` (FRR.py:93-94) -/
noncomputable def rodDt (z : SpinArgs) : ℝ := 0.01 * (z.length / z.elems)
/-- The rod (FRR.py:54-100). -/
noncomputable def spec (z : SpinArgs) : SpinSpec :=
  { elems := z.elems, start := fun k => if k = 0 then 0.08 * z.xr else if k = 1 then 0.502 * z.yr else 0.502 * z.zr,
    dir := fun k => if k = 0 then Real.sin z.incline else if k = 1 then 0 else -Real.cos z.incline,
    length := z.length, radius := z.radius, density := z.density, youngs := z.youngs, shear := z.youngs / (z.poisson + 1), damping := 1e-3, dampDt := z.rodDt }
/-- `kinematic_viscosity` (FRR.py:104) -/
noncomputable def nu (z : SpinArgs) : ℝ := z.speed * z.diam / z.re
/-- `timescale` (FRR.py:251) -/
noncomputable def timescale (z : SpinArgs) : ℝ := z.length / z.speed
/-- `final_time` (FRR.py:252) -/
noncomputable def tEnd (z : SpinArgs) : ℝ := z.final * z.timescale
/-- `foto_timer_limit` (FRR.py:253) -/
noncomputable def foto (z : SpinArgs) : ℝ := z.timescale / 5

/-- The arguments of the flow simulator (FRR.py:105-116), given the topology `Compute_dims` returns; ghost size and penalty zone are the defaults (F3D.py:35-38, 88). -/
def sim (z : SpinArgs) (pz py px : ℕ) : SimArgs3 := ⟨z.gz, z.gy, z.gx, pz, py, px, "navier_stokes_with_forcing", true, some (.int 5, "convolution"), true, 2, .int 2⟩

/-- The arguments of the interactor (FRR.py:121-135): master rank 0, defaults otherwise. -/
def body (z : SpinArgs) (N : ℕ) (lagDx : ℝ) (ord : List C3 → List C3) (junk : LagField ℝ) : Ib3 :=
  { N, m := (0, 0, 0), ord, junk, stiff := z.stiff, damp := z.damp, lagDx, shift := none, width := none, reset := false, auto := true }

end SpinArgs

section
variable {σ Ω : Type} {T : Cart3} [NeZero T.gz] [NeZero T.gy] [NeZero T.gx]

/-- Simulator and interactor as constructed (FRR.py:105-135) on `n` ranks: the free stream added to the velocity, the other fields zero, time zero, nodes `X`. -/
structure SpinStart (z : SpinArgs) (n pz py px : ℕ) (a : Ib3) (X : LagField ℝ) (S : CSt3 T Unit) : Prop where
  topo : Topology3 n z.dist (z.sim pz py px)
  cart : simCheck3 (z.sim pz py px) = .ok T
  sim : ∃ dbl0 conv0, S.sim = { simInit3 T z.xr 0 dbl0 conv0 with vel := fun j _ _ => 0 + z.stream j }
  ib : ibInit3 T 2 (simDx3 T z.xr) a X 0 = .ok (S.ib ())
  log : S.log = []

/-- The loop (FRR.py:256-316).  Every fifth of the time scale a log line with time, greatest vorticity, norm of the divergence of the vorticity and deviation, and the state of the rod
is saved.  (The model's line also has the total force, which this driver does not compute.) -/
noncomputable def flowSpinLoop (z : SpinArgs) (C : Cfg3) (K : Kern3) (tol : ℝ) (a : Ib3) (o : ℕ → ℕ → CScheds3) (ol : ℕ → CScheds3) (M : SpinMech σ Ω) :
    ℕ → (CSt3 T Unit × σ) × ℝ × List (RodLog Ω) → ((CSt3 T Unit × σ) × ℝ × List (RodLog Ω)) × Option PyErr :=
  rodCase3 C K tol (fun _ => a) o ol (M.body z.spec) () z.rodDt 0.5 (fun _ => z.stream) z.foto M.saved

/-- The loop ends after `N` iterations with the result `r`. -/
def FlowSpinRuns (z : SpinArgs) (C : Cfg3) (K : Kern3) (tol : ℝ) (a : Ib3) (o : ℕ → ℕ → CScheds3) (ol : ℕ → CScheds3) (M : SpinMech σ Ω) (S : CSt3 T Unit) (N : ℕ)
    (r : ((CSt3 T Unit × σ) × ℝ × List (RodLog Ω)) × Option PyErr) : Prop :=
  While (fun s => s.1.1.sim.time < z.tEnd) (flowSpinLoop z C K tol a o ol M) 0 ((S, M.start z.spec), 0, []) N r

end

/-! ## Specification: one global grid

A rod of length L and diameter L / aspect in a domain of length 5 L, in which the fluid moves with velocity 1 along x from the beginning; one end is 2 L / 5 behind the entrance, 0.502
of the width and of the height from the sides. -/

/-- The diameter. -/
noncomputable def spinD (z : SpinArgs) : ℝ := z.length / z.aspect

/-- Grid, viscosity, penalty zone, free stream, filter. -/
noncomputable def spinPars (z : SpinArgs) : Params3 := ⟨z.gz, z.gy, z.gx, 5 * z.length, spinD z / z.re, 2, true, some (5, "convolution")⟩

/-- Nodes on the rod (in cubes around the points of its axis would do). -/
def OnSpin (z : SpinArgs) (N : ℕ) (X : LagField ℝ) : Prop :=
  ∀ i < N, ∃ f : ℝ, 0 ≤ f ∧ f ≤ 1 ∧ |X 0 i - z.length * (0.4 + f * Real.sin z.incline)| ≤ spinD z / 2 ∧ |X 1 i - z.length * (2.51 * (z.gy / z.gx))| ≤ spinD z / 2 ∧
    |X 2 i - z.length * (2.51 * (z.gz / z.gx) - f * Real.cos z.incline)| ≤ spinD z / 2

/-- Flow and rod on one global grid after `n` iterations, from the uniform stream. Order of sets, buffers and the rank of the master do not matter there. -/
noncomputable def flowSpinRef {σ Ω : Type} (z : SpinArgs) (K : Kern3) (tol : ℝ) (N : ℕ) (lagDx : ℝ) (X : LagField ℝ) (M : SpinMech σ Ω) (n : ℕ) : RefC3 Unit × σ :=
  refRods3 (spinPars z) K 0.1 tol
    (fun _ => { N, m := (0, 0, 0), ord := id, junk := fun _ _ => 0, stiff := z.stiff, damp := z.damp, lagDx, shift := none, width := none, reset := false, auto := true })
    (M.body z.spec) () (0.01 * (z.length / z.elems)) 0.5 (fun _ j => if j = 0 then 1 else 0)
    (refStart3 (5 * z.length / z.gx) (fun _ => X) (fun _ => 0) 0 (fun _ _ _ => 0) (fun _ _ _ _ => 0) (fun j _ _ _ => if j = 0 then 1 else 0), M.start z.spec) n

/-- The line of a global state. -/
noncomputable def refSpinLine {σ Ω : Type} (z : SpinArgs) (K : Kern3) (N : ℕ) (M : SpinMech σ Ω) (q : RefC3 Unit × σ) : RodLog Ω :=
  { time := q.1.time, maxVort := maxCell3 z.gz z.gy z.gx q.1.F.om, body := M.saved q.2, divNorm := refDiv3 (spinPars z) K q.1.F.om, deviation := refDeviation 3 N (q.1.hist ()),
    force := fun k => if k < 3 then ∑ l ∈ Finset.range N, (q.1.hist ()).F k l else 0 }

theorem SpinArgs.diam_eq (z : SpinArgs) : z.diam = spinD z := rfl
theorem SpinArgs.nu_eq (z : SpinArgs) : z.nu = spinD z / z.re := by unfold SpinArgs.nu SpinArgs.speed; rw [z.diam_eq, one_mul]
theorem SpinArgs.timescale_eq (z : SpinArgs) : z.timescale = z.length := by simp [SpinArgs.timescale, SpinArgs.speed]
theorem SpinArgs.tEnd_eq (z : SpinArgs) : z.tEnd = z.final * z.length := by unfold SpinArgs.tEnd; rw [z.timescale_eq]
theorem SpinArgs.foto_eq (z : SpinArgs) : z.foto = z.length / 5 := by unfold SpinArgs.foto; rw [z.timescale_eq]
theorem SpinArgs.pars_eq (z : SpinArgs) (pz py px : ℕ) : (z.sim pz py px).pars z.xr z.nu = spinPars z := by rw [z.nu_eq]; rfl

/-- **C121** Nodes on the rod are within a radius of a point of its axis. -/
theorem onSpin_iff (z : SpinArgs) (N : ℕ) (X : LagField ℝ) :
    OnSpin z N X ↔ ∀ i < N, ∃ f : ℝ, 0 ≤ f ∧ f ≤ 1 ∧ ∀ k < 3, |X k i - (z.spec.start k + f * z.spec.length * z.spec.dir k)| ≤ z.spec.radius := by
  have e0 : ∀ f, z.spec.start 0 + f * z.spec.length * z.spec.dir 0 = z.length * (0.4 + f * Real.sin z.incline) := fun f => by
    simp only [SpinArgs.spec, if_true, SpinArgs.xr]; ring
  have e1 : ∀ f, z.spec.start 1 + f * z.spec.length * z.spec.dir 1 = z.length * (2.51 * (z.gy / z.gx)) := fun f => by
    simp only [SpinArgs.spec, SpinArgs.yr, SpinArgs.xr]; norm_num; ring
  have e2 : ∀ f, z.spec.start 2 + f * z.spec.length * z.spec.dir 2 = z.length * (2.51 * (z.gz / z.gx) - f * Real.cos z.incline) := fun f => by
    simp only [SpinArgs.spec, SpinArgs.zr, SpinArgs.xr]; norm_num; ring
  have er : z.spec.radius = spinD z / 2 := by change z.diam / 2 = _; rw [z.diam_eq]
  constructor
  · intro h i hi
    obtain ⟨f, f0, f1, a, b, c⟩ := h i hi
    refine ⟨f, f0, f1, fun k hk => ?_⟩
    rw [er]
    interval_cases k
    · rw [e0]; exact a
    · rw [e1]; exact b
    · rw [e2]; exact c
  · intro h i hi
    obtain ⟨f, f0, f1, q⟩ := h i hi
    have q0 := q 0 (by norm_num)
    have q1 := q 1 (by norm_num)
    have q2 := q 2 (by norm_num)
    rw [er] at q0 q1 q2
    rw [e0] at q0; rw [e1] at q1; rw [e2] at q2
    exact ⟨f, f0, f1, q0, q1, q2⟩

/-- **C121** The rod given to pyelastica has the dimensionless numbers asked for: Cauchy number, density ratio, ratio of length to diameter, Reynolds number (with the diameter).  Its direction is a unit
vector, Poisson's ratio and the number of elements are those asked for, and the damper gets the rod's time step. -/
theorem flowSpin_numbers (z : SpinArgs) (hre : z.re ≠ 0) (hca : z.cauchy ≠ 0) (hpo : z.poisson + 1 ≠ 0) (hl : z.length ≠ 0) (ha : z.aspect ≠ 0) :
    z.rho * z.speed ^ 2 * z.spec.length ^ 3 * (2 * z.spec.radius) / (z.spec.youngs * (Real.pi / 4 * z.spec.radius ^ 4)) = z.cauchy ∧ z.spec.density / z.rho = z.mass ∧
      z.spec.length / (2 * z.spec.radius) = z.aspect ∧ z.speed * (2 * z.spec.radius) / z.nu = z.re ∧ z.spec.dir 0 ^ 2 + z.spec.dir 1 ^ 2 + z.spec.dir 2 ^ 2 = 1  ∧
      z.spec.youngs = (1 + z.poisson) * z.spec.shear ∧ z.spec.elems = z.elems ∧ z.spec.damping = 1 / 1000 ∧ z.spec.dampDt = 1 / 100 * (z.spec.length / z.spec.elems) := by
  have hp := Real.pi_ne_zero
  have hd : z.diam ≠ 0 := div_ne_zero hl ha
  have hr : z.radius ≠ 0 := div_ne_zero hd two_ne_zero
  have hdr : 2 * z.radius = z.diam := by unfold SpinArgs.radius; ring
  have hYI : z.youngs * z.inertia = z.length ^ 3 * z.diam / z.cauchy := by
    have hI : z.inertia ≠ 0 := mul_ne_zero (div_ne_zero hp (by norm_num)) (pow_ne_zero 4 hr)
    unfold SpinArgs.youngs SpinArgs.rho SpinArgs.speed
    field_simp
  refine ⟨?_, ?_, ?_, ?_, ?_, ?_, rfl, ?_, ?_⟩
  · change (1 : ℝ) * 1 ^ 2 * z.length ^ 3 * (2 * z.radius) / (z.youngs * z.inertia) = z.cauchy
    rw [hYI, hdr]
    field_simp
  · change z.mass * 1 / 1 = z.mass
    ring
  · change z.length / (2 * z.radius) = z.aspect
    rw [hdr]
    unfold SpinArgs.diam
    field_simp
  · change (1 : ℝ) * (2 * z.radius) / (1 * z.diam / z.re) = z.re
    rw [hdr]
    field_simp
  · have e0 : z.spec.dir 0 = Real.sin z.incline := rfl
    have e1 : z.spec.dir 1 = 0 := rfl
    have e2 : z.spec.dir 2 = -Real.cos z.incline := rfl
    rw [e0, e1, e2]
    have := Real.sin_sq_add_cos_sq z.incline
    linarith
  · change z.youngs = (1 + z.poisson) * (z.youngs / (z.poisson + 1))
    field_simp
    ring
  · change (1e-3 : ℝ) = 1 / 1000
    norm_num
  · change 0.01 * (z.spec.length / z.spec.elems) = 1 / 100 * (z.spec.length / z.spec.elems)
    norm_num

/-- The rod leans downstream, and the grid is wide and high enough for it (the rod is `gx / 5` cells long and `gx / (5 aspect)` cells thick). -/
structure SpinArgs.Wide (z : SpinArgs) : Prop where
  length : 0 < z.length
  aspect : 0 < z.aspect
  sin : 0 ≤ Real.sin z.incline
  cos : 0 ≤ Real.cos z.incline
  x : z.gx / (10 * z.aspect) + 2.5 ≤ 0.08 * z.gx
  y : z.gx / (10 * z.aspect) + 2.5 < 0.498 * z.gy
  z0 : Real.cos z.incline * (z.gx / 5) + z.gx / (10 * z.aspect) + 2.5 ≤ 0.502 * z.gz
  z1 : z.gx / (10 * z.aspect) + 2.5 < 0.498 * z.gz

theorem SpinArgs.Wide.big {z : SpinArgs} (hw : z.Wide) : 32 ≤ z.gx ∧ 6 ≤ z.gy ∧ 6 ≤ z.gz := by
  have h := hw.aspect
  have r0 : (0 : ℝ) ≤ z.gx / (10 * z.aspect) := by positivity
  have h1 := hw.x
  have h2 := hw.y
  have h3 := hw.z1
  have a1 : (31 : ℝ) < z.gx := by linarith
  have a2 : (5 : ℝ) < z.gy := by linarith
  have a3 : (5 : ℝ) < z.gz := by linarith
  have b1 : 31 < z.gx := by exact_mod_cast a1
  have b2 : 5 < z.gy := by exact_mod_cast a2
  have b3 : 5 < z.gz := by exact_mod_cast a3
  omega

/-! ## The rod is inside at the start -/

theorem spin_inside {z : SpinArgs} (hw : z.Wide) {N : ℕ} {X : LagField ℝ} (hX : OnSpin z N X) (lagDx : ℝ) (ord : List C3 → List C3) (junk : LagField ℝ) :
    Inside3 z.gz z.gy z.gx 1 (5 * z.length / z.gx) (z.body N lagDx ord junk) X := by
  intro i hi G hG
  obtain ⟨f, f0, f1, q0, q1, q2⟩ := hX i hi
  obtain ⟨hgx, -, -⟩ := hw.big
  have gp : (0 : ℝ) < z.gx := by
    have : 0 < z.gx := by omega
    exact_mod_cast this
  have ha := hw.aspect
  have hl := hw.length
  have hdx : 0 < 5 * z.length / (z.gx : ℝ) := by positivity
  have hs : (z.body N lagDx ord junk).sh (5 * z.length / z.gx) = 5 * z.length / z.gx / 2 := rfl
  have hL : z.length = z.gx / 5 * (5 * z.length / (z.gx : ℝ)) := by field_simp
  have er : spinD z / 2 = z.gx / (10 * z.aspect) * (5 * z.length / (z.gx : ℝ)) := by unfold spinD; field_simp; ring
  have ey : z.length * (2.51 * ((z.gy : ℝ) / z.gx)) = 0.502 * (z.gy * (5 * z.length / (z.gx : ℝ))) := by ring
  have ez : z.length * (2.51 * ((z.gz : ℝ) / z.gx) - f * Real.cos z.incline) = 0.502 * (z.gz * (5 * z.length / (z.gx : ℝ))) - f * Real.cos z.incline * (z.gx / 5) * (5 * z.length / (z.gx : ℝ)) := by
    field_simp; ring
  have ex : z.length * (0.4 + f * Real.sin z.incline) = 0.08 * (z.gx * (5 * z.length / (z.gx : ℝ))) + f * Real.sin z.incline * (0.2 * (z.gx * (5 * z.length / (z.gx : ℝ)))) := by
    field_simp; ring
  rw [er, ex, abs_le] at q0
  rw [er, ey, abs_le] at q1
  rw [er, ez, abs_le] at q2
  have s0 : 0 ≤ f * Real.sin z.incline := mul_nonneg f0 hw.sin
  have s1 : f * Real.sin z.incline ≤ 1 := mul_le_one₀ f1 hw.sin (Real.sin_le_one _)
  have c0 : 0 ≤ f * Real.cos z.incline := mul_nonneg f0 hw.cos
  have c1 : f * Real.cos z.incline ≤ Real.cos z.incline := mul_le_of_le_one_left hw.cos f1
  have w0 := hw.x
  have w1 := hw.y
  have w2 := hw.z0
  have w3 := hw.z1
  generalize (z.gx : ℝ) / (10 * z.aspect) = rad at *
  generalize 5 * z.length / (z.gx : ℝ) = dx at *
  have gxd : 0 < z.gx * dx := by positivity
  have t0 : 0 ≤ f * Real.sin z.incline * (0.2 * (z.gx * dx)) := mul_nonneg s0 (by positivity)
  have t1 : f * Real.sin z.incline * (0.2 * (z.gx * dx)) ≤ 0.2 * (z.gx * dx) := mul_le_of_le_one_left (by positivity) s1
  have u0 : 0 ≤ f * Real.cos z.incline * (z.gx / 5) * dx := by positivity
  have u1 : f * Real.cos z.incline * (z.gx / 5) * dx ≤ Real.cos z.incline * (z.gx / 5) * dx := mul_le_mul_of_nonneg_right (mul_le_mul_of_nonneg_right c1 (by positivity)) hdx.le
  have v0 : rad * dx + 2.5 * dx ≤ 0.08 * (z.gx * dx) := by linarith [mul_le_mul_of_nonneg_right w0 hdx.le]
  have v1 : rad * dx + 2.5 * dx < 0.498 * (z.gy * dx) := by linarith [mul_lt_mul_of_pos_right w1 hdx]
  have v2 : Real.cos z.incline * (z.gx / 5) * dx + rad * dx + 2.5 * dx ≤ 0.502 * (z.gz * dx) := by linarith [mul_le_mul_of_nonneg_right w2 hdx.le]
  have v3 : rad * dx + 2.5 * dx < 0.498 * (z.gz * dx) := by linarith [mul_lt_mul_of_pos_right w3 hdx]
  unfold window3 at hG
  rw [hs, Finset.mem_product, Finset.mem_product] at hG
  obtain ⟨g0, g1, g2⟩ := hG
  obtain ⟨a1, a2⟩ := winCells_inside hdx (n := z.gz) (x := X 2 i) (by linarith) (by linarith) g0
  obtain ⟨b1, b2⟩ := winCells_inside hdx (n := z.gy) (x := X 1 i) (by linarith) (by linarith) g1
  obtain ⟨d1, d2⟩ := winCells_inside hdx (n := z.gx) (x := X 0 i) (by linarith) (by linarith) g2
  exact ⟨⟨a1, a2⟩, ⟨b1, b2⟩, d1, d2⟩

/-! ## Construction -/

section
variable {σ Ω : Type} {T : Cart3} [NeZero T.gz] [NeZero T.gy] [NeZero T.gx] {z : SpinArgs} {n pz py px : ℕ} {K : Kern3} {tol lagDx : ℝ} {N : ℕ} {ord : List C3 → List C3} {junk X : LagField ℝ}
  {o : ℕ → ℕ → CScheds3} {ol : ℕ → CScheds3} {M : SpinMech σ Ω}

omit [NeZero T.gz] [NeZero T.gy] [NeZero T.gx] in
theorem spin_fit (hT : simCheck3 (z.sim pz py px) = .ok T) (hE : EvenTopo3 T) (hnz : 2 ≤ T.nz) (hny : 2 ≤ T.ny) (hnx : 2 ≤ T.nx) : Fit3 (z.sim pz py px) T := by
  refine ⟨hT, (by intro h; cases h), fun _ => ⟨⟨hnz, hny, hnx⟩, ⟨hnz, hny, hnx⟩, ⟨2, rfl, by norm_num, hnz, hny, hnx⟩, hE, ?_⟩⟩
  intro o ty hf
  simp only [filterInUse, SpinArgs.sim, if_true, Option.getD_some, Option.some.injEq, Prod.mk.injEq, PyNum.int.injEq] at hf
  omega

/-- **C121** Simulator and interactor can be constructed. -/
theorem flowSpin_starts (hw : z.Wide) (htopo : Topology3 n z.dist (z.sim pz py px)) (hT : simCheck3 (z.sim pz py px) = .ok T)
    (hnz : 2 ≤ T.nz) (hny : 2 ≤ T.ny) (hnx : 2 ≤ T.nx) (hX : OnSpin z N X) : ∃ S : CSt3 T Unit, SpinStart z n pz py px (z.body N lagDx ord junk) X S := by
  obtain ⟨hc, -⟩ := simCheck3_cart hT
  obtain ⟨-, -, e2, -⟩ := construct3_ok hc
  have hgp : (0 : ℝ) < z.gx := by
    have := hw.big
    exact_mod_cast (by omega : 0 < z.gx)
  have hd : simDx3 T z.xr = 5 * z.length / z.gx := by unfold simDx3; rw [e2]; rfl
  have hl := hw.length
  obtain ⟨s, hs⟩ := (ibInit3_ok_iff hc (by omega) (by omega) (by omega) (dx := 5 * z.length / (z.gx : ℝ)) (by positivity) (g := 2) (k := 1) (spin_inside hw hX lagDx ord junk) 0).2 ⟨rfl, le_refl _⟩
  exact ⟨⟨{ simInit3 T z.xr 0 (fun _ _ => 0) (fun _ => 0) with vel := fun j _ _ => 0 + z.stream j }, fun _ => s, []⟩, htopo, hT, ⟨_, _, rfl⟩, by rw [hd]; exact hs, rfl⟩

/-- Until the final time the rod stays inside, and the ranks notice when its nodes change hands (both in the run on the global grid). -/
def SpinInside (T : Cart3) (z : SpinArgs) (K : Kern3) (tol : ℝ) (N : ℕ) (lagDx : ℝ) (ord : List C3 → List C3) (junk X : LagField ℝ) (M : SpinMech σ Ω) : Prop :=
  ∀ n, (flowSpinRef z K tol N lagDx X M n).1.time < z.final * z.length →
    RodStep3 T (spinPars z) K 0.1 tol (fun _ => z.body N lagDx ord junk) (M.body z.spec) () (0.01 * (z.length / z.elems)) 0.5 (flowSpinRef z K tol N lagDx X M n)

omit [NeZero T.gz] [NeZero T.gy] [NeZero T.gx] in
theorem flowSpinRef_eq (n : ℕ) : refRods3 ((z.sim pz py px).pars z.xr z.nu) K 0.1 tol (fun _ => z.body N lagDx ord junk) (M.body z.spec) () z.rodDt 0.5 (fun _ => z.stream)
    (refStart3 (z.xr / (z.sim pz py px).gx) (fun _ => X) (fun _ => 0) 0 (fun _ _ _ => 0) (fun _ _ _ _ => 0) (fun j _ _ _ => if j = 0 then 1 else 0), M.start z.spec) n = flowSpinRef z K tol N lagDx X M n := by
  rw [z.pars_eq]
  unfold flowSpinRef
  exact same_rods3 (A := fun _ : Unit => { N, m := (0, 0, 0), ord := id, junk := fun _ _ => 0, stiff := z.stiff, damp := z.damp, lagDx, shift := none, width := none, reset := false, auto := true })
    (A' := fun _ : Unit => z.body N lagDx ord junk) (fun _ => rfl) (spinPars z) _ n

theorem SpinStart.fit (hre : 0 < z.re) (hn : 0 < z.elems) (hw : z.Wide) (hE : EvenTopo3 T) (hnz : 2 ≤ T.nz) (hny : 2 ≤ T.ny) (hnx : 2 ≤ T.nx) (hX : OnSpin z N X)
    (hord : ∀ l, SlaveSet l (0, 0, 0) (ord l)) (htol : 0 < tol) (hK : K.Local) (hKd : ∀ a, CrossLocal3 1 (K.div a)) (hK0 : ∀ r, K.upd r (fun _ _ => 0) = 0)
    (ho : ∀ i n, (o i n).Done T 2) (hol : ∀ n, (ol n).Done T 2) (hin : SpinInside T z K tol N lagDx ord junk X M)
    {S : CSt3 T Unit} (hS : SpinStart z n pz py px (z.body N lagDx ord junk) X S) :
    RodFit3 (z.sim pz py px) z.xr z.nu 0.1 tol K (fun _ => z.body N lagDx ord junk) (fun _ => X) (fun _ => 0) 0 (fun _ _ _ => 0) (fun _ _ _ _ => 0) (fun j _ _ _ => if j = 0 then 1 else 0) S o ol ()
      (M.body z.spec) z.rodDt 0.5 (fun _ => z.stream) (M.start z.spec) z.tEnd := by
  have h1 := spin_inside hw hX lagDx ord junk
  have h0 : Inside3 z.gz z.gy z.gx 0 (z.xr / z.gx) (z.body N lagDx ord junk) X := by
    intro i hi G hG
    have q := h1 i hi G hG
    unfold Away3 at q ⊢
    push_cast at q ⊢; omega
  have hn0 : (0 : ℝ) < z.elems := by exact_mod_cast hn
  refine ⟨⟨spin_fit hS.cart hE hnz hny hnx, rfl, fun _ => hord, fun _ => h0, fun _ => hS.ib, ?_, hS.log⟩, rfl, ho, hol, ?_, ?_, by norm_num, htol, hK, hKd, hK0, ?_, by norm_num, ?_⟩
  · obtain ⟨dbl0, conv0, e⟩ := hS.sim
    refine ⟨dbl0, conv0, e.trans ?_⟩
    have : (fun (j : Fin 3) (_ _ : C3) => 0 + z.stream j) = fun j _ _ => if j = 0 then (1 : ℝ) else 0 := by
      funext j _ _
      rw [zero_add]; rfl
    unfold initFrom3
    rw [this]; rfl
  · have := hw.length
    unfold SpinArgs.xr; positivity
  · have := hw.length
    have := hw.aspect
    rw [z.nu_eq]; unfold spinD; positivity
  · have := hw.length
    unfold SpinArgs.rodDt; positivity
  · intro P m hm
    have e := flowSpinRef_eq (z := z) (pz := pz) (py := py) (px := px) (K := K) (tol := tol) (lagDx := lagDx) (N := N) (ord := ord) (junk := junk) (X := X) (M := M) m
    have eP : P = (z.sim pz py px).pars z.xr z.nu := rfl
    rw [eP, e] at hm ⊢
    rw [z.tEnd_eq] at hm
    rw [z.pars_eq]
    exact hin m hm

/-! ## The run -/

/-- **C121** The driver with any of its arguments: a grid wide enough for the rod, any decomposition the Poisson solver accepts with blocks of at least 2 cells a side; while velocities
stay bounded and the rod stays inside.  It ends, without exception and with one result only, in the first iteration that would begin at the final time or later; the lines it logs and
what it keeps for its files are those of flow and rod on one global grid, in the iterations when they are due; so are the rod at the end and the fields on all ranks. -/
theorem flowSpin_run (hre : 0 < z.re) (hn : 0 < z.elems) (hw : z.Wide) (hE : EvenTopo3 T) (hnz : 2 ≤ T.nz) (hny : 2 ≤ T.ny) (hnx : 2 ≤ T.nx) (hX : OnSpin z N X)
    (hord : ∀ l, SlaveSet l (0, 0, 0) (ord l)) (htol : 0 < tol) (hK : K.Local) (hKd : ∀ a, CrossLocal3 1 (K.div a)) (hK0 : ∀ r, K.upd r (fun _ _ => 0) = 0)
    {C : Cfg3} (hC : C = simCfg3 (z.sim pz py px) (5 * z.length) (spinD z / z.re) 0.1) (ho : ∀ i n, (o i n).Done T 2) (hol : ∀ n, (ol n).Done T 2)
    {S : CSt3 T Unit} (hS : SpinStart z n pz py px (z.body N lagDx ord junk) X S) (hin : SpinInside T z K tol N lagDx ord junk X M)
    {ref : ℕ → RefC3 Unit × σ} (href : ref = flowSpinRef z K tol N lagDx X M) {t : ℕ → ℝ} (ht : t = fun i => (ref i).1.time)
    {V : ℝ} (hV : ∀ n G, t n < z.final * z.length → Dom3 z.gz z.gy z.gx G → |(ref n).1.F.u 0 G| + |(ref n).1.F.u 1 G| + |(ref n).1.F.u 2 G| ≤ V) :
    ∃ I S' foto lines, (∀ I' r, FlowSpinRuns z C K tol (z.body N lagDx ord junk) o ol M S I' r ↔
        I' = I ∧ r = (((S', (ref I).2), foto, lines.map fun i => refSpinLine z K N M (ref i)), none)) ∧
      Snapshots true (z.length / 5) t I lines ∧ (∀ i < I, t i < z.final * z.length) ∧ z.final * z.length ≤ t I ∧ I ≤ ⌈z.final * z.length / leastDt 6 0.1 tol (5 * z.length / z.gx) (spinD z / z.re + tol) 0.5 V⌉₊ ∧
      S'.sim.time = t I ∧ (S'.ib ()).v.time = t I ∧ ∀ c p, Valid3 T c → Inner3 T ((2 : ℕ) : ℤ) p → ∀ j,
        S'.sim.om j c p = (ref I).1.F.om j (globalIx3 T ((2 : ℕ) : ℤ) c p) ∧ S'.sim.vel j c p = (ref I).1.F.u j (globalIx3 T ((2 : ℕ) : ℤ) c p) := by
  subst hC ht href
  have h := hS.fit hre hn hw hE hnz hny hnx hX hord htol hK hKd hK0 ho hol hin
  have E : refRods3 ((z.sim pz py px).pars z.xr z.nu) K 0.1 tol (fun _ => z.body N lagDx ord junk) (M.body z.spec) () z.rodDt 0.5 (fun _ => z.stream)
      (refStart3 (z.xr / (z.sim pz py px).gx) (fun _ => X) (fun _ => 0) 0 (fun _ _ _ => 0) (fun _ _ _ _ => 0) (fun j _ _ _ => if j = 0 then 1 else 0), M.start z.spec) = flowSpinRef z K tol N lagDx X M :=
    funext (flowSpinRef_eq (z := z) (pz := pz) (py := py) (px := px) (K := K) (tol := tol) (lagDx := lagDx) (N := N) (ord := ord) (junk := junk) (X := X) (M := M))
  have q := rodCase3_report h z.foto M.saved (V := V) (by rw [E, z.tEnd_eq]; exact hV)
  dsimp only at q
  rw [E] at q
  obtain ⟨I, S', foto, lines, q1, q2, q3, q5, q6, q7, q8, q9, q10⟩ := q
  have hshot : ∀ n, refLog3 ((z.sim pz py px).pars z.xr z.nu) K (fun _ => z.body N lagDx ord junk) () M.saved (flowSpinRef z K tol N lagDx X M n) =
      refSpinLine z K N M (flowSpinRef z K tol N lagDx X M n) := fun _ => by
    rw [z.pars_eq]
    unfold refLog3 refSpinLine
    congr 1
    funext k
    by_cases hk : k < 3
    · rw [if_pos hk]
      exact Finset.sum_congr rfl fun i hi => if_pos ⟨hk, Finset.mem_range.1 hi⟩
    · rw [if_neg hk]
      exact Finset.sum_eq_zero fun i _ => if_neg fun h => hk h.1
  simp only [hshot] at q1 q2
  rw [z.tEnd_eq] at q6 q7
  rw [z.foto_eq] at q3
  rw [z.tEnd_eq, z.nu_eq, sub_zero] at q5
  rw [sub_zero, sub_zero] at q9
  refine ⟨I, S', foto, lines, fun I' r => ⟨?_, ?_⟩, q3, q6, q7, q5, q8, q9, q10⟩
  · intro hr
    unfold FlowSpinRuns at hr
    rw [← z.nu_eq] at hr
    exact q2 I' r hr
  · rintro ⟨rfl, rfl⟩
    unfold FlowSpinRuns
    rw [← z.nu_eq]
    exact q1

/-- **C121** On two decompositions the driver reports the same: as many iterations, the same lines, the same rod at the end, the same fields in the same cells. -/
theorem flowSpin_same {T' : Cart3} [NeZero T'.gz] [NeZero T'.gy] [NeZero T'.gx] {n' pz' py' px' : ℕ} {ord' : List C3 → List C3} {junk' : LagField ℝ} {o' : ℕ → ℕ → CScheds3} {ol' : ℕ → CScheds3}
    (hre : 0 < z.re) (hn : 0 < z.elems) (hw : z.Wide) (hX : OnSpin z N X) (htol : 0 < tol) (hK : K.Local) (hKd : ∀ a, CrossLocal3 1 (K.div a)) (hK0 : ∀ r, K.upd r (fun _ _ => 0) = 0)
    (hE : EvenTopo3 T) (hnz : 2 ≤ T.nz) (hny : 2 ≤ T.ny) (hnx : 2 ≤ T.nx) (hord : ∀ l, SlaveSet l (0, 0, 0) (ord l))
    (hE' : EvenTopo3 T') (hnz' : 2 ≤ T'.nz) (hny' : 2 ≤ T'.ny) (hnx' : 2 ≤ T'.nx) (hord' : ∀ l, SlaveSet l (0, 0, 0) (ord' l))
    (ho : ∀ i n, (o i n).Done T 2) (hol : ∀ n, (ol n).Done T 2) (ho' : ∀ i n, (o' i n).Done T' 2) (hol' : ∀ n, (ol' n).Done T' 2)
    {S : CSt3 T Unit} (hS : SpinStart z n pz py px (z.body N lagDx ord junk) X S) {S' : CSt3 T' Unit} (hS' : SpinStart z n' pz' py' px' (z.body N lagDx ord' junk') X S')
    (hin : SpinInside T z K tol N lagDx ord junk X M) (hin' : SpinInside T' z K tol N lagDx ord' junk' X M)
    {V : ℝ} (hV : ∀ n G, (flowSpinRef z K tol N lagDx X M n).1.time < z.final * z.length → Dom3 z.gz z.gy z.gx G →
      |(flowSpinRef z K tol N lagDx X M n).1.F.u 0 G| + |(flowSpinRef z K tol N lagDx X M n).1.F.u 1 G| + |(flowSpinRef z K tol N lagDx X M n).1.F.u 2 G| ≤ V) :
    ∃ I R R', (∀ I1 r, FlowSpinRuns z (simCfg3 (z.sim pz py px) (5 * z.length) (spinD z / z.re) 0.1) K tol (z.body N lagDx ord junk) o ol M S I1 r ↔ I1 = I ∧ r = R) ∧
      (∀ I1 r, FlowSpinRuns z (simCfg3 (z.sim pz' py' px') (5 * z.length) (spinD z / z.re) 0.1) K tol (z.body N lagDx ord' junk') o' ol' M S' I1 r ↔ I1 = I ∧ r = R') ∧
      R.2 = none ∧ R'.2 = none ∧ R.1.2.2 = R'.1.2.2 ∧ R.1.1.2 = R'.1.1.2 ∧ R.1.1.1.sim.time = R'.1.1.1.sim.time ∧
      ∀ c p c' p', Valid3 T c → Inner3 T ((2 : ℕ) : ℤ) p → Valid3 T' c' → Inner3 T' ((2 : ℕ) : ℤ) p' → globalIx3 T ((2 : ℕ) : ℤ) c p = globalIx3 T' ((2 : ℕ) : ℤ) c' p' →
        ∀ j, R.1.1.1.sim.om j c p = R'.1.1.1.sim.om j c' p' ∧ R.1.1.1.sim.vel j c p = R'.1.1.1.sim.vel j c' p' := by
  obtain ⟨I, S1, f, l, a1, a2, a4, a5, -, a6, -, a7⟩ := flowSpin_run hre hn hw hE hnz hny hnx hX hord htol hK hKd hK0 rfl ho hol hS hin rfl rfl hV
  obtain ⟨I', S2, f', l', b1, b2, b4, b5, -, b6, -, b7⟩ := flowSpin_run hre hn hw hE' hnz' hny' hnx' hX hord' htol hK hKd hK0 rfl ho' hol' hS' hin' rfl rfl hV
  have e : I = I' := by
    rcases lt_trichotomy I I' with h | h | h
    · exact absurd (b4 I h) (not_lt.2 a5)
    · exact h
    · exact absurd (a4 I' h) (not_lt.2 b5)
  subst e
  obtain rfl := a2.unique b2
  refine ⟨I, _, _, a1, b1, rfl, rfl, rfl, rfl, a6.trans b6.symm, fun c p c' p' hc hp hc' hp' hg j => ?_⟩
  obtain ⟨u1, u2⟩ := a7 c p hc hp j
  obtain ⟨v1, v2⟩ := b7 c' p' hc' hp' j
  exact ⟨u1.trans ((congrArg _ hg).trans v1.symm), u2.trans ((congrArg _ hg).trans v2.symm)⟩

/-- **C121** Without `rank_distribution`: whatever topology without a cut along x MPI chooses, if it divides the grid into blocks of at least 2 cells a side, the driver starts. -/
theorem flowSpin_default (hd : z.dist = none) (hw : z.Wide) (hn : pz * py = n) (hpp : py ≤ pz) (hz : pz ∣ z.gz) (hy : py ∣ z.gy) (h2z : 2 * pz ≤ z.gz) (h2y : 2 * py ≤ z.gy) :
    ∃ T : Cart3, ∃ (_ : NeZero T.gz) (_ : NeZero T.gy) (_ : NeZero T.gx), T.pz = pz ∧ T.py = py ∧ T.px = 1 ∧ simCheck3 (z.sim pz py 1) = .ok T ∧ 2 ≤ T.nz ∧ 2 ≤ T.ny ∧ 2 ≤ T.nx ∧
      ∀ N X, OnSpin z N X → ∃ S : CSt3 T Unit, SpinStart z n pz py 1 (z.body N lagDx ord junk) X S := by
  have ht : Topology3 n z.dist (z.sim pz py 1) := by rw [hd]; exact (topology3_default n _).2 ⟨rfl, hn, hpp⟩
  obtain ⟨T, hT⟩ := (simCheck3_ok_iff (z.sim pz py 1)).2 ⟨⟨Nat.mod_eq_zero_of_dvd hz, Nat.mod_eq_zero_of_dvd hy, Nat.mod_one _⟩,
    Or.inr ⟨Or.inr rfl, by change 1 ≤ 2; norm_num, Or.inr (Or.inr rfl), ⟨2, rfl⟩, by
      intro _ o ty hf
      simp only [filterInUse, SpinArgs.sim, if_true, Option.getD_some, Option.some.injEq, Prod.mk.injEq] at hf
      exact ⟨⟨5, hf.1.symm⟩, Or.inr hf.2.symm⟩⟩⟩
  obtain ⟨hc, -⟩ := simCheck3_cart hT
  obtain ⟨e0, e1, e2, e3, e4, e5, -, e6, e7, e8⟩ := construct3_ok hc
  have e0' : T.gz = z.gz := e0
  have e1' : T.gy = z.gy := e1
  have e2' : T.gx = z.gx := e2
  have e3' : T.pz = pz := e3
  have e4' : T.py = py := e4
  have e5' : T.px = 1 := e5
  obtain ⟨w2, w1, w3⟩ := hw.big
  have hnz : 2 ≤ T.nz := by
    rw [e3', e0'] at e6
    by_contra hlt
    have : pz * T.nz ≤ pz * 1 := Nat.mul_le_mul_left pz (by omega)
    omega
  have hny : 2 ≤ T.ny := by
    rw [e4', e1'] at e7
    by_contra hlt
    have : py * T.ny ≤ py * 1 := Nat.mul_le_mul_left py (by omega)
    omega
  have hnx : 2 ≤ T.nx := by rw [e5', e2', one_mul] at e8; omega
  have i0 : NeZero T.gz := ⟨by omega⟩
  have i1 : NeZero T.gy := ⟨by omega⟩
  have i2 : NeZero T.gx := ⟨by omega⟩
  exact ⟨T, i0, i1, i2, e3', e4', e5', hT, hnz, hny, hnx, fun N X hX => flowSpin_starts hw ht hT hnz hny hnx hX⟩

/-- **C121** The files of the flow (`"%0.5d" % (flow_sim.time * 100)`, FRR.py:272) have different numbers, which grow, for a rod of length at least 1 / 20: no file is overwritten. -/
theorem flowSpin_files {l : ℝ} (hl : 1 / 20 ≤ l) {t : ℕ → ℝ} {I : ℕ} {lines : List ℕ} (h : Snapshots true (l / 5) t I lines) : (lines.map fun i => ⌊t i * 100⌋).Pairwise (· < ·) := by
  rw [List.pairwise_map, ← List.isChain_iff_pairwise]
  refine h.next.imp fun i j ⟨_, hd, _⟩ => ?_
  have hd' : l / 5 < t j - t i := hd
  rw [Int.lt_iff_add_one_le, Int.le_floor]
  have := Int.floor_le (t i * 100)
  push_cast
  linarith

/-! ## Examples -/

/-- nodes on the axis are on the rod -/
example (z : SpinArgs) (hl : 0 ≤ z.length) (ha : 0 ≤ z.aspect) (m : ℕ) (hm : 0 < m) : OnSpin z m fun k i => z.spec.start k + (i / m : ℝ) * z.spec.length * z.spec.dir k := by
  refine (onSpin_iff _ _ _).2 fun i hi => ⟨i / m, by positivity, ?_, fun k _ => ?_⟩
  · rw [div_le_one (by exact_mod_cast hm)]
    exact_mod_cast hi.le
  · rw [sub_self, abs_zero]
    change 0 ≤ z.length / z.aspect / 2
    positivity

/-- the driver as called (FRR.py:332-364: grid 32 × 32 × 128, rod along x), for any Cauchy and Reynolds number, on 4 ranks -/
example (cauchy re : ℝ) :
    ∃ T : Cart3, ∃ (_ : NeZero T.gz) (_ : NeZero T.gy) (_ : NeZero T.gx), EvenTopo3 T ∧
      ∀ N X, OnSpin ⟨10, 16, 32, 32, 128, cauchy, 1000, 1, 20, 0.5, re, -2e4, -1e1, Real.pi / 2, none⟩ N X → ∃ S : CSt3 T Unit,
        SpinStart ⟨10, 16, 32, 32, 128, cauchy, 1000, 1, 20, 0.5, re, -2e4, -1e1, Real.pi / 2, none⟩ 4 2 2 1
          (SpinArgs.body ⟨10, 16, 32, 32, 128, cauchy, 1000, 1, 20, 0.5, re, -2e4, -1e1, Real.pi / 2, none⟩ N 0.01 (fun l => l.dedup.filter (· ≠ (0, 0, 0))) fun _ _ => 7) X S := by
  obtain ⟨T, i0, i1, i2, e3, e4, e5, hT, -, -, -, h⟩ := flowSpin_default (z := ⟨10, 16, 32, 32, 128, cauchy, 1000, 1, 20, 0.5, re, -2e4, -1e1, Real.pi / 2, none⟩) (n := 4) (pz := 2) (py := 2)
    (lagDx := 0.01) (ord := fun l => l.dedup.filter (· ≠ (0, 0, 0))) (junk := fun _ _ => 7) rfl
    ⟨by norm_num, by norm_num, by simp, by simp, by norm_num, by norm_num, by simp only [Real.cos_pi_div_two]; norm_num, by norm_num⟩
    (by norm_num) (by norm_num) (by norm_num) (by norm_num) (by norm_num) (by norm_num)
  exact ⟨T, i0, i1, i2, by unfold EvenTopo3; omega, fun N X hX => h N X hX⟩

end

end Sopht
