import Verif.Sphere3D

/-!
# The flow past a rod in 3D, as a function of the driver's arguments (C120)

`flow_past_rod_case` (examples/3d_examples/FlowPastRodCase/flow_past_rod_case.py, below "FPR3.py"): what it computes from its arguments, what it constructs, the loop and what it
records.  How the rod moves (pyelastica) is left open: it may depend on all properties the driver gives the rod.  Which nodes the forcing grid (sopht package) consists of, and how
many, is left open too: at the start they lie on the rod.  Files and the formatting of output are left out.
-/

namespace Sopht

/-! ## The driver -/

/-- The arguments (FPR3.py:12-29): `non_dim_final_time`, `n_elem`, `grid_size`, `cauchy_number`, `mass_ratio`, `froude_number`, `stretch_bending_ratio`, `poisson_ratio`, `reynolds`,
`coupling_stiffness`, `coupling_damping`, `rod_start_incline_angle`, `rank_distribution`.  (`surface_grid_density_for_largest_element` is for the forcing grid, which is left open.) -/
structure RodArgs3 where
  final : ℝ
  elems : ℕ
  gz : ℕ
  gy : ℕ
  gx : ℕ
  cauchy : ℝ
  mass : ℝ
  froude : ℝ
  stretch : ℝ
  poisson : ℝ
  re : ℝ
  stiff : ℝ
  damp : ℝ
  incline : ℝ
  dist : Option (List ℕ)

/-- What pyelastica is told about the rod: the arguments of `CosseratRod.straight_rod`, the factor for the stretching stiffness, the gravitational acceleration (in -z direction) and
the arguments of the damper (FPR3.py:55-110).  One end is clamped. -/
structure RodSpec3 where
  elems : ℕ
  start : ℕ → ℝ
  dir : ℕ → ℝ
  length : ℝ
  radius : ℝ
  density : ℝ
  youngs : ℝ
  shear : ℝ
  stretch : ℝ
  gravity : ℝ
  damping : ℝ
  dampDt : ℝ

/-- pyelastica: for every rod its equations of motion with their time stepper, its state as constructed, and the vector from its first to its last node. -/
structure Mech3 (σ : Type) where
  body : RodSpec3 → Stepper σ
  start : RodSpec3 → σ
  span : σ → ℕ → ℝ

namespace RodArgs3

/-- `rho_f` (FPR3.py:36) -/
def rho (_ : RodArgs3) : ℝ := 1
/-- `U_free_stream` (FPR3.py:37) -/
def speed (_ : RodArgs3) : ℝ := 1
/-- `base_length` (FPR3.py:38) -/
def length (_ : RodArgs3) : ℝ := 1
/-- `x_range` (FPR3.py:39) -/
noncomputable def xr (z : RodArgs3) : ℝ := 1.8 * z.length
/-- `y_range` (FPR3.py:40) -/
noncomputable def yr (z : RodArgs3) : ℝ := z.gy / z.gx * z.xr
/-- `z_range` (FPR3.py:41) -/
noncomputable def zr (z : RodArgs3) : ℝ := z.gz / z.gx * z.xr
/-- `velocity_free_stream` (FPR3.py:42) -/
def stream (z : RodArgs3) (j : Fin 3) : ℝ := if j = 0 then z.speed else 0
/-- `base_diameter` (FPR3.py:56) -/
noncomputable def diam (z : RodArgs3) : ℝ := z.yr / 5
/-- `base_radius` (FPR3.py:57) -/
noncomputable def radius (z : RodArgs3) : ℝ := z.diam / 2
/-- `base_area` (FPR3.py:58) -/
noncomputable def area (z : RodArgs3) : ℝ := Real.pi * z.radius ^ 2
/-- `rho_s` (FPR3.py:60) -/
def density (z : RodArgs3) : ℝ := z.mass * z.rho
/-- `moment_of_inertia` (FPR3.py:61) -/
noncomputable def inertia (z : RodArgs3) : ℝ := Real.pi / 4 * z.radius ^ 4
/-- `youngs_modulus` (FPR3.py:63-65) -/
noncomputable def youngs (z : RodArgs3) : ℝ := z.rho * z.speed ^ 2 * z.length ^ 3 * z.diam / (z.cauchy * z.inertia)
/-- `gravitational_acc` (FPR3.py:67) -/
noncomputable def gravity (z : RodArgs3) : ℝ := z.froude * z.speed ^ 2 / z.diam
/-- `Es_Eb` (FPR3.py:69) -/
noncomputable def esEb (z : RodArgs3) : ℝ := z.stretch * z.inertia / (z.area * z.length ^ 2)
/-- `rod_dt` (FPR3.py:93-94) -/
noncomputable def rodDt (z : RodArgs3) : ℝ := 0.01 * (z.length / z.elems)
/-- The rod (FPR3.py:50-102). -/
noncomputable def spec (z : RodArgs3) : RodSpec3 :=
  { elems := z.elems, start := fun k => if k = 0 then 0.2 * z.xr else if k = 1 then 0.5 * z.yr else 0.75 * z.zr,
    dir := fun k => if k = 0 then Real.sin z.incline else if k = 1 then 0 else -Real.cos z.incline,
    length := z.length, radius := z.radius, density := z.density, youngs := z.youngs, shear := z.youngs / (z.poisson + 1), stretch := z.esEb, gravity := z.gravity, damping := 1e-3,
    dampDt := z.rodDt }
/-- `kinematic_viscosity` (FPR3.py:105) -/
noncomputable def nu (z : RodArgs3) : ℝ := z.speed * z.diam / z.re
/-- `timescale` (FPR3.py:203) -/
noncomputable def timescale (z : RodArgs3) : ℝ := z.length / z.speed
/-- `final_time` (FPR3.py:204) -/
noncomputable def tEnd (z : RodArgs3) : ℝ := z.final * z.timescale

/-- The arguments of the flow simulator (FPR3.py:106-116), given the topology `Compute_dims` returns; ghost size and penalty zone are the defaults (F3D.py:35-38, 88). -/
def sim (z : RodArgs3) (pz py px : ℕ) : SimArgs3 := ⟨z.gz, z.gy, z.gx, pz, py, px, "navier_stokes_with_forcing", true, some (.int 1, "multiplicative"), true, 2, .int 2⟩

/-- The arguments of the interactor (FPR3.py:121-134): master rank 0, defaults otherwise. -/
def body (z : RodArgs3) (N : ℕ) (lagDx : ℝ) (ord : List C3 → List C3) (junk : LagField ℝ) : Ib3 :=
  { N, m := (0, 0, 0), ord, junk, stiff := z.stiff, damp := z.damp, lagDx, shift := none, width := none, reset := false, auto := true }

end RodArgs3

section
variable {σ : Type} {T : Cart3} [NeZero T.gz] [NeZero T.gy] [NeZero T.gx]

/-- Simulator and interactor as constructed (FPR3.py:106-134) on `n` ranks: all fields zero, time zero, nodes `X`. -/
structure RodStart3 (z : RodArgs3) (n pz py px : ℕ) (a : Ib3) (X : LagField ℝ) (S : CSt3 T Unit) : Prop where
  topo : Topology3 n z.dist (z.sim pz py px)
  cart : simCheck3 (z.sim pz py px) = .ok T
  sim : ∃ dbl0 conv0, S.sim = simInit3 T z.xr 0 dbl0 conv0
  ib : ibInit3 T 2 (simDx3 T z.xr) a X 0 = .ok (S.ib ())
  log : S.log = []

/-- The loop (FPR3.py:225-283).  Every thirtieth of a time unit a log line with time, greatest vorticity, angle of the rod (computed from its span), norm of the divergence of the
vorticity, deviation and total force; time, angle and force are also kept for the files at the end. -/
noncomputable def flowRodLoop3 (z : RodArgs3) (C : Cfg3) (K : Kern3) (tol : ℝ) (a : Ib3) (o : ℕ → ℕ → CScheds3) (ol : ℕ → CScheds3) (M : Mech3 σ) :
    ℕ → (CSt3 T Unit × σ) × ℝ × List (RodLog (ℕ → ℝ)) → ((CSt3 T Unit × σ) × ℝ × List (RodLog (ℕ → ℝ))) × Option PyErr :=
  rodCase3 C K tol (fun _ => a) o ol (M.body z.spec) () z.rodDt 0.5 (fun _ => z.stream) (1 / 30) M.span

/-- The loop ends after `N` iterations with the result `r`. -/
def FlowRodRuns3 (z : RodArgs3) (C : Cfg3) (K : Kern3) (tol : ℝ) (a : Ib3) (o : ℕ → ℕ → CScheds3) (ol : ℕ → CScheds3) (M : Mech3 σ) (S : CSt3 T Unit) (N : ℕ)
    (r : ((CSt3 T Unit × σ) × ℝ × List (RodLog (ℕ → ℝ))) × Option PyErr) : Prop :=
  While (fun s => s.1.1.sim.time < z.tEnd) (flowRodLoop3 z C K tol a o ol M) 0 ((S, M.start z.spec), 0, []) N r

end

/-! ## Specification: one global grid

A rod of length 1 in a domain of length 1.8 and a stream of velocity 1 along x.  Its diameter is a fifth of the domain's width; it hangs from a point a fifth of the length behind the
entrance, in the middle of the width, at three quarters of the height. -/

/-- The diameter. -/
noncomputable def rodD3 (z : RodArgs3) : ℝ := 0.36 * (z.gy / z.gx)

/-- Grid, viscosity, penalty zone, free stream, filter. -/
noncomputable def rodPars3 (z : RodArgs3) : Params3 := ⟨z.gz, z.gy, z.gx, 1.8, rodD3 z / z.re, 2, true, some (1, "multiplicative")⟩

/-- Nodes on the rod (in cubes around the points of its axis would do). -/
def OnRod3 (z : RodArgs3) (N : ℕ) (X : LagField ℝ) : Prop :=
  ∀ i < N, ∃ f : ℝ, 0 ≤ f ∧ f ≤ 1 ∧ |X 0 i - (0.36 + f * Real.sin z.incline)| ≤ rodD3 z / 2 ∧ |X 1 i - 0.9 * (z.gy / z.gx)| ≤ rodD3 z / 2 ∧
    |X 2 i - (1.35 * (z.gz / z.gx) - f * Real.cos z.incline)| ≤ rodD3 z / 2

/-- Flow and rod on one global grid after `n` iterations, from rest. Order of sets, buffers and the rank of the master do not matter there. -/
noncomputable def flowRodRef3 {σ : Type} (z : RodArgs3) (K : Kern3) (tol : ℝ) (N : ℕ) (lagDx : ℝ) (X : LagField ℝ) (M : Mech3 σ) (n : ℕ) : RefC3 Unit × σ :=
  refRods3 (rodPars3 z) K 0.1 tol
    (fun _ => { N, m := (0, 0, 0), ord := id, junk := fun _ _ => 0, stiff := z.stiff, damp := z.damp, lagDx, shift := none, width := none, reset := false, auto := true })
    (M.body z.spec) () (0.01 / z.elems) 0.5 (fun _ j => if j = 0 then 1 else 0)
    (refStart3 (1.8 / z.gx) (fun _ => X) (fun _ => 0) 0 (fun _ _ _ => 0) (fun _ _ _ _ => 0) (fun _ _ _ _ => 0), M.start z.spec) n

/-- The line of a global state. -/
noncomputable def refRodLine3 {σ : Type} (z : RodArgs3) (K : Kern3) (N : ℕ) (M : Mech3 σ) (q : RefC3 Unit × σ) : RodLog (ℕ → ℝ) :=
  { time := q.1.time, maxVort := maxCell3 z.gz z.gy z.gx q.1.F.om, body := M.span q.2, divNorm := refDiv3 (rodPars3 z) K q.1.F.om, deviation := refDeviation 3 N (q.1.hist ()),
    force := fun k => if k < 3 then ∑ l ∈ Finset.range N, (q.1.hist ()).F k l else 0 }

theorem RodArgs3.xr_eq (z : RodArgs3) : z.xr = 1.8 := by simp [RodArgs3.xr, RodArgs3.length]
theorem RodArgs3.diam_eq (z : RodArgs3) : z.diam = rodD3 z := by unfold RodArgs3.diam RodArgs3.yr rodD3; rw [z.xr_eq]; ring
theorem RodArgs3.nu_eq (z : RodArgs3) : z.nu = rodD3 z / z.re := by unfold RodArgs3.nu RodArgs3.speed; rw [z.diam_eq, one_mul]
theorem RodArgs3.timescale_eq (z : RodArgs3) : z.timescale = 1 := by simp [RodArgs3.timescale, RodArgs3.length, RodArgs3.speed]
theorem RodArgs3.tEnd_eq (z : RodArgs3) : z.tEnd = z.final := by unfold RodArgs3.tEnd; rw [z.timescale_eq, mul_one]
theorem RodArgs3.rodDt_eq (z : RodArgs3) : z.rodDt = 0.01 / z.elems := by unfold RodArgs3.rodDt RodArgs3.length; ring
theorem RodArgs3.pars_eq (z : RodArgs3) (pz py px : ℕ) : (z.sim pz py px).pars z.xr z.nu = rodPars3 z := by rw [z.xr_eq, z.nu_eq]; rfl

/-- **C120** Nodes on the rod are within a radius of a point of its axis. -/
theorem onRod3_iff (z : RodArgs3) (N : ℕ) (X : LagField ℝ) :
    OnRod3 z N X ↔ ∀ i < N, ∃ f : ℝ, 0 ≤ f ∧ f ≤ 1 ∧ ∀ k < 3, |X k i - (z.spec.start k + f * z.spec.length * z.spec.dir k)| ≤ z.spec.radius := by
  have e0 : ∀ f, z.spec.start 0 + f * z.spec.length * z.spec.dir 0 = 0.36 + f * Real.sin z.incline := fun f => by
    simp only [RodArgs3.spec, if_true, z.xr_eq, RodArgs3.length]; ring
  have e1 : ∀ f, z.spec.start 1 + f * z.spec.length * z.spec.dir 1 = 0.9 * (z.gy / z.gx) := fun f => by
    simp only [RodArgs3.spec, RodArgs3.yr, z.xr_eq, RodArgs3.length]; norm_num; ring
  have e2 : ∀ f, z.spec.start 2 + f * z.spec.length * z.spec.dir 2 = 1.35 * (z.gz / z.gx) - f * Real.cos z.incline := fun f => by
    simp only [RodArgs3.spec, RodArgs3.zr, z.xr_eq, RodArgs3.length]; norm_num; ring
  have er : z.spec.radius = rodD3 z / 2 := by change z.diam / 2 = _; rw [z.diam_eq]
  constructor
  · intro h i hi
    obtain ⟨f, f0, f1, a, b, c⟩ := h i hi
    refine ⟨f, f0, f1, fun k hk => ?_⟩
    rw [er]
    interval_cases k
    · rw [e0]; exact a
    · rw [e1]; exact b
    · rw [e2]; exact c
  · intro h i hi
    obtain ⟨f, f0, f1, q⟩ := h i hi
    have q0 := q 0 (by norm_num)
    have q1 := q 1 (by norm_num)
    have q2 := q 2 (by norm_num)
    rw [er] at q0 q1 q2
    rw [e0] at q0; rw [e1] at q1; rw [e2] at q2
    exact ⟨f, f0, f1, q0, q1, q2⟩

/-- **C120** The rod given to pyelastica has the dimensionless numbers asked for: Cauchy number, density ratio, Froude number (with the diameter), stretching relative to bending
stiffness, Reynolds number (with the diameter).  Its direction is a unit
vector, Poisson's ratio and the number of elements are those asked for, and the damper gets the rod's time step. -/
theorem flowRod3_numbers (z : RodArgs3) (hre : z.re ≠ 0) (hca : z.cauchy ≠ 0) (hpo : z.poisson + 1 ≠ 0) (hgy : z.gy ≠ 0) (hgx : z.gx ≠ 0) :
    z.rho * z.speed ^ 2 * z.spec.length ^ 3 * (2 * z.spec.radius) / (z.spec.youngs * (Real.pi / 4 * z.spec.radius ^ 4)) = z.cauchy ∧ z.spec.density / z.rho = z.mass ∧
      z.spec.gravity * (2 * z.spec.radius) / z.speed ^ 2 = z.froude ∧
      z.spec.stretch * (z.spec.youngs * (Real.pi * z.spec.radius ^ 2)) * z.spec.length ^ 2 / (z.spec.youngs * (Real.pi / 4 * z.spec.radius ^ 4)) = z.stretch ∧
      z.speed * (2 * z.spec.radius) / z.nu = z.re ∧ z.spec.dir 0 ^ 2 + z.spec.dir 1 ^ 2 + z.spec.dir 2 ^ 2 = 1  ∧
      z.spec.youngs = (1 + z.poisson) * z.spec.shear ∧ z.spec.elems = z.elems ∧ z.spec.damping = 1 / 1000 ∧ z.spec.dampDt = 1 / 100 * (z.spec.length / z.spec.elems) := by
  have hp := Real.pi_ne_zero
  have hy : (z.gy : ℝ) ≠ 0 := by exact_mod_cast hgy
  have hx : (z.gx : ℝ) ≠ 0 := by exact_mod_cast hgx
  have hd : z.diam ≠ 0 := by
    rw [z.diam_eq]
    unfold rodD3
    exact mul_ne_zero (by norm_num) (div_ne_zero hy hx)
  have hr : z.radius ≠ 0 := div_ne_zero hd two_ne_zero
  have hdr : 2 * z.radius = z.diam := by unfold RodArgs3.radius; ring
  have hYI : z.youngs * z.inertia = z.diam / z.cauchy := by
    have hI : z.inertia ≠ 0 := mul_ne_zero (div_ne_zero hp (by norm_num)) (pow_ne_zero 4 hr)
    unfold RodArgs3.youngs RodArgs3.rho RodArgs3.speed RodArgs3.length
    field_simp
  have hY : z.youngs ≠ 0 := by
    intro h
    rw [h, zero_mul] at hYI
    exact div_ne_zero hd hca hYI.symm
  refine ⟨?_, ?_, ?_, ?_, ?_, ?_, ?_, rfl, ?_, ?_⟩
  · change (1 : ℝ) * 1 ^ 2 * 1 ^ 3 * (2 * z.radius) / (z.youngs * z.inertia) = z.cauchy
    rw [hYI, hdr]
    field_simp
  · change z.mass * 1 / 1 = z.mass
    ring
  · change z.froude * 1 ^ 2 / z.diam * (2 * z.radius) / 1 ^ 2 = z.froude
    rw [hdr]
    field_simp
  · change z.stretch * (Real.pi / 4 * z.radius ^ 4) / (Real.pi * z.radius ^ 2 * 1 ^ 2) * (z.youngs * (Real.pi * z.radius ^ 2)) * 1 ^ 2 / (z.youngs * (Real.pi / 4 * z.radius ^ 4)) = z.stretch
    field_simp
  · change (1 : ℝ) * (2 * z.radius) / (1 * z.diam / z.re) = z.re
    rw [hdr]
    field_simp
  · have e0 : z.spec.dir 0 = Real.sin z.incline := rfl
    have e1 : z.spec.dir 1 = 0 := rfl
    have e2 : z.spec.dir 2 = -Real.cos z.incline := rfl
    rw [e0, e1, e2]
    have := Real.sin_sq_add_cos_sq z.incline
    linarith
  · change z.youngs = (1 + z.poisson) * (z.youngs / (z.poisson + 1))
    field_simp
    ring
  · change (1e-3 : ℝ) = 1 / 1000
    norm_num
  · change 0.01 * (z.spec.length / z.spec.elems) = 1 / 100 * (z.spec.length / z.spec.elems)
    norm_num

/-- The rod leans downstream, and the grid is wide and high enough for it. -/
structure RodArgs3.Wide (z : RodArgs3) : Prop where
  sin : 0 ≤ Real.sin z.incline
  cos : 0 ≤ Real.cos z.incline
  y : 7 ≤ z.gy
  x0 : z.gy + 25 ≤ 2 * z.gx
  x1 : 18 * z.gy + 450 < 44 * z.gx
  z0 : Real.cos z.incline * (z.gx / 1.8) + 0.1 * z.gy + 2.5 ≤ 0.75 * z.gz
  z1 : 4 * z.gy + 100 < 10 * z.gz

/-! ## The rod is inside at the start -/

theorem rod3_inside {z : RodArgs3} (hw : z.Wide) {N : ℕ} {X : LagField ℝ} (hX : OnRod3 z N X) (lagDx : ℝ) (ord : List C3 → List C3) (junk : LagField ℝ) :
    Inside3 z.gz z.gy z.gx 1 (1.8 / z.gx) (z.body N lagDx ord junk) X := by
  intro i hi G hG
  obtain ⟨f, f0, f1, q0, q1, q2⟩ := hX i hi
  have hgx : 0 < z.gx := by have := hw.x0; omega
  have gp : (0 : ℝ) < z.gx := by exact_mod_cast hgx
  have hdx : 0 < 1.8 / (z.gx : ℝ) := by positivity
  have hs : (z.body N lagDx ord junk).sh (1.8 / z.gx) = 1.8 / z.gx / 2 := rfl
  have hd : z.gx * (1.8 / (z.gx : ℝ)) = 1.8 := by field_simp
  have er : rodD3 z / 2 = 0.1 * (z.gy * (1.8 / (z.gx : ℝ))) := by unfold rodD3; ring
  have ey : 0.9 * ((z.gy : ℝ) / z.gx) = 0.5 * (z.gy * (1.8 / (z.gx : ℝ))) := by ring
  have ez : 1.35 * ((z.gz : ℝ) / z.gx) = 0.75 * (z.gz * (1.8 / (z.gx : ℝ))) := by ring
  rw [er, abs_le] at q0
  rw [er, ey, abs_le] at q1
  rw [er, ez, abs_le] at q2
  have s0 : 0 ≤ f * Real.sin z.incline := mul_nonneg f0 hw.sin
  have s1 : f * Real.sin z.incline ≤ 1 := mul_le_one₀ f1 hw.sin (Real.sin_le_one _)
  have c0 : 0 ≤ f * Real.cos z.incline := mul_nonneg f0 hw.cos
  have c1 : f * Real.cos z.incline ≤ Real.cos z.incline := mul_le_of_le_one_left hw.cos f1
  have y7 : (7 : ℝ) * (1.8 / z.gx) ≤ z.gy * (1.8 / z.gx) := mul_le_mul_of_nonneg_right (by exact_mod_cast hw.y) hdx.le
  have w0 : (z.gy : ℝ) * (1.8 / z.gx) + 25 * (1.8 / z.gx) ≤ 2 * (z.gx * (1.8 / z.gx)) := by
    have q : ((z.gy : ℝ) + 25) * (1.8 / z.gx) ≤ 2 * z.gx * (1.8 / z.gx) := mul_le_mul_of_nonneg_right (by exact_mod_cast hw.x0) hdx.le
    linarith
  have w1 : 18 * ((z.gy : ℝ) * (1.8 / z.gx)) + 450 * (1.8 / z.gx) < 44 * (z.gx * (1.8 / z.gx)) := by
    have q : (18 * (z.gy : ℝ) + 450) * (1.8 / z.gx) < 44 * z.gx * (1.8 / z.gx) := mul_lt_mul_of_pos_right (by exact_mod_cast hw.x1) hdx
    linarith
  have w2 : Real.cos z.incline + 0.1 * (z.gy * (1.8 / (z.gx : ℝ))) + 2.5 * (1.8 / z.gx) ≤ 0.75 * (z.gz * (1.8 / z.gx)) := by
    have q := mul_le_mul_of_nonneg_right hw.z0 hdx.le
    have e : Real.cos z.incline * (z.gx / 1.8) * (1.8 / z.gx) = Real.cos z.incline := by field_simp
    rw [add_mul, add_mul, e] at q
    linarith
  have w3 : 4 * ((z.gy : ℝ) * (1.8 / z.gx)) + 100 * (1.8 / z.gx) < 10 * (z.gz * (1.8 / z.gx)) := by
    have q : (4 * (z.gy : ℝ) + 100) * (1.8 / z.gx) < 10 * z.gz * (1.8 / z.gx) := mul_lt_mul_of_pos_right (by exact_mod_cast hw.z1) hdx
    linarith
  generalize 1.8 / (z.gx : ℝ) = dx at *
  unfold window3 at hG
  rw [hs, Finset.mem_product, Finset.mem_product] at hG
  obtain ⟨g0, g1, g2⟩ := hG
  obtain ⟨a1, a2⟩ := winCells_inside hdx (n := z.gz) (x := X 2 i) (by linarith) (by linarith) g0
  obtain ⟨b1, b2⟩ := winCells_inside hdx (n := z.gy) (x := X 1 i) (by linarith) (by linarith) g1
  obtain ⟨d1, d2⟩ := winCells_inside hdx (n := z.gx) (x := X 0 i) (by linarith) (by linarith) g2
  exact ⟨⟨a1, a2⟩, ⟨b1, b2⟩, d1, d2⟩

/-! ## Construction -/

section
variable {σ : Type} {T : Cart3} [NeZero T.gz] [NeZero T.gy] [NeZero T.gx] {z : RodArgs3} {n pz py px : ℕ} {K : Kern3} {tol lagDx : ℝ} {N : ℕ} {ord : List C3 → List C3} {junk X : LagField ℝ}
  {o : ℕ → ℕ → CScheds3} {ol : ℕ → CScheds3} {M : Mech3 σ}

omit [NeZero T.gz] [NeZero T.gy] [NeZero T.gx] in
theorem rod3_fit (hT : simCheck3 (z.sim pz py px) = .ok T) (hE : EvenTopo3 T) (hnz : 2 ≤ T.nz) (hny : 2 ≤ T.ny) (hnx : 2 ≤ T.nx) : Fit3 (z.sim pz py px) T := by
  refine ⟨hT, (by intro h; cases h), fun _ => ⟨⟨hnz, hny, hnx⟩, ⟨hnz, hny, hnx⟩, ⟨2, rfl, by norm_num, hnz, hny, hnx⟩, hE, ?_⟩⟩
  intro o ty hf
  simp only [filterInUse, RodArgs3.sim, if_true, Option.getD_some, Option.some.injEq, Prod.mk.injEq, PyNum.int.injEq] at hf
  omega

/-- **C120** Simulator and interactor can be constructed. -/
theorem flowRod3_starts (hw : z.Wide) (htopo : Topology3 n z.dist (z.sim pz py px)) (hT : simCheck3 (z.sim pz py px) = .ok T)
    (hnz : 2 ≤ T.nz) (hny : 2 ≤ T.ny) (hnx : 2 ≤ T.nx) (hX : OnRod3 z N X) : ∃ S : CSt3 T Unit, RodStart3 z n pz py px (z.body N lagDx ord junk) X S := by
  obtain ⟨hc, -⟩ := simCheck3_cart hT
  obtain ⟨-, -, e2, -⟩ := construct3_ok hc
  have hgp : (0 : ℝ) < z.gx := by
    have := hw.x0
    exact_mod_cast (by omega : 0 < z.gx)
  have hd : simDx3 T z.xr = 1.8 / z.gx := by unfold simDx3; rw [e2, z.xr_eq]; rfl
  obtain ⟨s, hs⟩ := (ibInit3_ok_iff hc (by omega) (by omega) (by omega) (dx := 1.8 / (z.gx : ℝ)) (by positivity) (g := 2) (k := 1) (rod3_inside hw hX lagDx ord junk) 0).2 ⟨rfl, le_refl _⟩
  exact ⟨⟨simInit3 T z.xr 0 (fun _ _ => 0) (fun _ => 0), fun _ => s, []⟩, htopo, hT, ⟨_, _, rfl⟩, by rw [hd]; exact hs, rfl⟩

/-- Until the final time the rod stays inside, and the ranks notice when its nodes change hands (both in the run on the global grid). -/
def StaysInside3 (T : Cart3) (z : RodArgs3) (K : Kern3) (tol : ℝ) (N : ℕ) (lagDx : ℝ) (ord : List C3 → List C3) (junk X : LagField ℝ) (M : Mech3 σ) : Prop :=
  ∀ n, (flowRodRef3 z K tol N lagDx X M n).1.time < z.final →
    RodStep3 T (rodPars3 z) K 0.1 tol (fun _ => z.body N lagDx ord junk) (M.body z.spec) () (0.01 / z.elems) 0.5 (flowRodRef3 z K tol N lagDx X M n)

omit [NeZero T.gz] [NeZero T.gy] [NeZero T.gx] in
theorem flowRodRef3_eq (n : ℕ) : refRods3 ((z.sim pz py px).pars z.xr z.nu) K 0.1 tol (fun _ => z.body N lagDx ord junk) (M.body z.spec) () z.rodDt 0.5 (fun _ => z.stream)
    (refStart3 (z.xr / (z.sim pz py px).gx) (fun _ => X) (fun _ => 0) 0 (fun _ _ _ => 0) (fun _ _ _ _ => 0) (fun _ _ _ _ => 0), M.start z.spec) n = flowRodRef3 z K tol N lagDx X M n := by
  rw [z.pars_eq, z.xr_eq, z.rodDt_eq]
  unfold flowRodRef3
  exact same_rods3 (A := fun _ : Unit => { N, m := (0, 0, 0), ord := id, junk := fun _ _ => 0, stiff := z.stiff, damp := z.damp, lagDx, shift := none, width := none, reset := false, auto := true })
    (A' := fun _ : Unit => z.body N lagDx ord junk) (fun _ => rfl) (rodPars3 z) _ n

theorem RodStart3.fit (hre : 0 < z.re) (hn : 0 < z.elems) (hw : z.Wide) (hE : EvenTopo3 T) (hnz : 2 ≤ T.nz) (hny : 2 ≤ T.ny) (hnx : 2 ≤ T.nx) (hX : OnRod3 z N X)
    (hord : ∀ l, SlaveSet l (0, 0, 0) (ord l)) (htol : 0 < tol) (hK : K.Local) (hKd : ∀ a, CrossLocal3 1 (K.div a)) (hK0 : ∀ r, K.upd r (fun _ _ => 0) = 0)
    (ho : ∀ i n, (o i n).Done T 2) (hol : ∀ n, (ol n).Done T 2) (hin : StaysInside3 T z K tol N lagDx ord junk X M)
    {S : CSt3 T Unit} (hS : RodStart3 z n pz py px (z.body N lagDx ord junk) X S) :
    RodFit3 (z.sim pz py px) z.xr z.nu 0.1 tol K (fun _ => z.body N lagDx ord junk) (fun _ => X) (fun _ => 0) 0 (fun _ _ _ => 0) (fun _ _ _ _ => 0) (fun _ _ _ _ => 0) S o ol ()
      (M.body z.spec) z.rodDt 0.5 (fun _ => z.stream) (M.start z.spec) z.tEnd := by
  have h1 := rod3_inside hw hX lagDx ord junk
  have h0 : Inside3 z.gz z.gy z.gx 0 (z.xr / z.gx) (z.body N lagDx ord junk) X := by
    rw [z.xr_eq]
    intro i hi G hG
    have q := h1 i hi G hG
    unfold Away3 at q ⊢
    push_cast at q ⊢; omega
  have hn0 : (0 : ℝ) < z.elems := by exact_mod_cast hn
  refine ⟨⟨rod3_fit hS.cart hE hnz hny hnx, rfl, fun _ => hord, fun _ => h0, fun _ => hS.ib, ?_, hS.log⟩, rfl, ho, hol, ?_, ?_, by norm_num, htol, hK, hKd, hK0, ?_, by norm_num, ?_⟩
  · obtain ⟨dbl0, conv0, e⟩ := hS.sim
    exact ⟨dbl0, conv0, e⟩
  · rw [z.xr_eq]; norm_num
  · rw [z.nu_eq]; unfold rodD3; positivity
  · rw [z.rodDt_eq]; positivity
  · intro P m hm
    have e := flowRodRef3_eq (z := z) (pz := pz) (py := py) (px := px) (K := K) (tol := tol) (lagDx := lagDx) (N := N) (ord := ord) (junk := junk) (X := X) (M := M) m
    have eP : P = (z.sim pz py px).pars z.xr z.nu := rfl
    rw [eP, e] at hm ⊢
    rw [z.tEnd_eq] at hm
    rw [z.pars_eq, z.rodDt_eq]
    exact hin m hm

/-! ## The run -/

/-- **C120** The driver with any of its arguments: a grid wide enough for the rod, any decomposition the Poisson solver accepts with blocks of at least 2 cells a side; while velocities
stay bounded and the rod stays inside.  It ends, without exception and with one result only, in the first iteration that would begin at the final time or later; the lines it logs and
what it keeps for its files are those of flow and rod on one global grid, in the iterations when they are due; so are the rod at the end and the fields on all ranks. -/
theorem flowRod3_run (hre : 0 < z.re) (hn : 0 < z.elems) (hw : z.Wide) (hE : EvenTopo3 T) (hnz : 2 ≤ T.nz) (hny : 2 ≤ T.ny) (hnx : 2 ≤ T.nx) (hX : OnRod3 z N X)
    (hord : ∀ l, SlaveSet l (0, 0, 0) (ord l)) (htol : 0 < tol) (hK : K.Local) (hKd : ∀ a, CrossLocal3 1 (K.div a)) (hK0 : ∀ r, K.upd r (fun _ _ => 0) = 0)
    {C : Cfg3} (hC : C = simCfg3 (z.sim pz py px) 1.8 (rodD3 z / z.re) 0.1) (ho : ∀ i n, (o i n).Done T 2) (hol : ∀ n, (ol n).Done T 2)
    {S : CSt3 T Unit} (hS : RodStart3 z n pz py px (z.body N lagDx ord junk) X S) (hin : StaysInside3 T z K tol N lagDx ord junk X M)
    {ref : ℕ → RefC3 Unit × σ} (href : ref = flowRodRef3 z K tol N lagDx X M) {t : ℕ → ℝ} (ht : t = fun i => (ref i).1.time)
    {V : ℝ} (hV : ∀ n G, t n < z.final → Dom3 z.gz z.gy z.gx G → |(ref n).1.F.u 0 G| + |(ref n).1.F.u 1 G| + |(ref n).1.F.u 2 G| ≤ V) :
    ∃ I S' foto lines, (∀ I' r, FlowRodRuns3 z C K tol (z.body N lagDx ord junk) o ol M S I' r ↔
        I' = I ∧ r = (((S', (ref I).2), foto, lines.map fun i => refRodLine3 z K N M (ref i)), none)) ∧
      Snapshots true (1 / 30) t I lines ∧ (∀ i < I, t i < z.final) ∧ z.final ≤ t I ∧ I ≤ ⌈z.final / leastDt 6 0.1 tol (1.8 / z.gx) (rodD3 z / z.re + tol) 0.5 V⌉₊ ∧
      S'.sim.time = t I ∧ (S'.ib ()).v.time = t I ∧ ∀ c p, Valid3 T c → Inner3 T ((2 : ℕ) : ℤ) p → ∀ j,
        S'.sim.om j c p = (ref I).1.F.om j (globalIx3 T ((2 : ℕ) : ℤ) c p) ∧ S'.sim.vel j c p = (ref I).1.F.u j (globalIx3 T ((2 : ℕ) : ℤ) c p) := by
  subst hC ht href
  have h := hS.fit hre hn hw hE hnz hny hnx hX hord htol hK hKd hK0 ho hol hin
  have E : refRods3 ((z.sim pz py px).pars z.xr z.nu) K 0.1 tol (fun _ => z.body N lagDx ord junk) (M.body z.spec) () z.rodDt 0.5 (fun _ => z.stream)
      (refStart3 (z.xr / (z.sim pz py px).gx) (fun _ => X) (fun _ => 0) 0 (fun _ _ _ => 0) (fun _ _ _ _ => 0) (fun _ _ _ _ => 0), M.start z.spec) = flowRodRef3 z K tol N lagDx X M :=
    funext (flowRodRef3_eq (z := z) (pz := pz) (py := py) (px := px) (K := K) (tol := tol) (lagDx := lagDx) (N := N) (ord := ord) (junk := junk) (X := X) (M := M))
  have q := rodCase3_report h (1 / 30) M.span (V := V) (by rw [E, z.tEnd_eq]; exact hV)
  dsimp only at q
  rw [E] at q
  obtain ⟨I, S', foto, lines, q1, q2, q3, q5, q6, q7, q8, q9, q10⟩ := q
  have hshot : ∀ n, refLog3 ((z.sim pz py px).pars z.xr z.nu) K (fun _ => z.body N lagDx ord junk) () M.span (flowRodRef3 z K tol N lagDx X M n) =
      refRodLine3 z K N M (flowRodRef3 z K tol N lagDx X M n) := fun _ => by
    rw [z.pars_eq]
    unfold refLog3 refRodLine3
    congr 1
    funext k
    by_cases hk : k < 3
    · rw [if_pos hk]
      exact Finset.sum_congr rfl fun i hi => if_pos ⟨hk, Finset.mem_range.1 hi⟩
    · rw [if_neg hk]
      exact Finset.sum_eq_zero fun i _ => if_neg fun h => hk h.1
  simp only [hshot] at q1 q2
  rw [z.tEnd_eq] at q6 q7
  rw [z.tEnd_eq, z.xr_eq, z.nu_eq, sub_zero] at q5
  rw [sub_zero, sub_zero] at q9
  refine ⟨I, S', foto, lines, fun I' r => ⟨?_, ?_⟩, q3, q6, q7, q5, q8, q9, q10⟩
  · intro hr
    unfold FlowRodRuns3 at hr
    rw [← z.xr_eq, ← z.nu_eq] at hr
    exact q2 I' r hr
  · rintro ⟨rfl, rfl⟩
    unfold FlowRodRuns3
    rw [← z.xr_eq, ← z.nu_eq]
    exact q1

/-- **C120** On two decompositions the driver reports the same: as many iterations, the same lines, the same rod at the end, the same fields in the same cells. -/
theorem flowRod3_same {T' : Cart3} [NeZero T'.gz] [NeZero T'.gy] [NeZero T'.gx] {n' pz' py' px' : ℕ} {ord' : List C3 → List C3} {junk' : LagField ℝ} {o' : ℕ → ℕ → CScheds3} {ol' : ℕ → CScheds3}
    (hre : 0 < z.re) (hn : 0 < z.elems) (hw : z.Wide) (hX : OnRod3 z N X) (htol : 0 < tol) (hK : K.Local) (hKd : ∀ a, CrossLocal3 1 (K.div a)) (hK0 : ∀ r, K.upd r (fun _ _ => 0) = 0)
    (hE : EvenTopo3 T) (hnz : 2 ≤ T.nz) (hny : 2 ≤ T.ny) (hnx : 2 ≤ T.nx) (hord : ∀ l, SlaveSet l (0, 0, 0) (ord l))
    (hE' : EvenTopo3 T') (hnz' : 2 ≤ T'.nz) (hny' : 2 ≤ T'.ny) (hnx' : 2 ≤ T'.nx) (hord' : ∀ l, SlaveSet l (0, 0, 0) (ord' l))
    (ho : ∀ i n, (o i n).Done T 2) (hol : ∀ n, (ol n).Done T 2) (ho' : ∀ i n, (o' i n).Done T' 2) (hol' : ∀ n, (ol' n).Done T' 2)
    {S : CSt3 T Unit} (hS : RodStart3 z n pz py px (z.body N lagDx ord junk) X S) {S' : CSt3 T' Unit} (hS' : RodStart3 z n' pz' py' px' (z.body N lagDx ord' junk') X S')
    (hin : StaysInside3 T z K tol N lagDx ord junk X M) (hin' : StaysInside3 T' z K tol N lagDx ord' junk' X M)
    {V : ℝ} (hV : ∀ n G, (flowRodRef3 z K tol N lagDx X M n).1.time < z.final → Dom3 z.gz z.gy z.gx G →
      |(flowRodRef3 z K tol N lagDx X M n).1.F.u 0 G| + |(flowRodRef3 z K tol N lagDx X M n).1.F.u 1 G| + |(flowRodRef3 z K tol N lagDx X M n).1.F.u 2 G| ≤ V) :
    ∃ I R R', (∀ I1 r, FlowRodRuns3 z (simCfg3 (z.sim pz py px) 1.8 (rodD3 z / z.re) 0.1) K tol (z.body N lagDx ord junk) o ol M S I1 r ↔ I1 = I ∧ r = R) ∧
      (∀ I1 r, FlowRodRuns3 z (simCfg3 (z.sim pz' py' px') 1.8 (rodD3 z / z.re) 0.1) K tol (z.body N lagDx ord' junk') o' ol' M S' I1 r ↔ I1 = I ∧ r = R') ∧
      R.2 = none ∧ R'.2 = none ∧ R.1.2.2 = R'.1.2.2 ∧ R.1.1.2 = R'.1.1.2 ∧ R.1.1.1.sim.time = R'.1.1.1.sim.time ∧
      ∀ c p c' p', Valid3 T c → Inner3 T ((2 : ℕ) : ℤ) p → Valid3 T' c' → Inner3 T' ((2 : ℕ) : ℤ) p' → globalIx3 T ((2 : ℕ) : ℤ) c p = globalIx3 T' ((2 : ℕ) : ℤ) c' p' →
        ∀ j, R.1.1.1.sim.om j c p = R'.1.1.1.sim.om j c' p' ∧ R.1.1.1.sim.vel j c p = R'.1.1.1.sim.vel j c' p' := by
  obtain ⟨I, S1, f, l, a1, a2, a4, a5, -, a6, -, a7⟩ := flowRod3_run hre hn hw hE hnz hny hnx hX hord htol hK hKd hK0 rfl ho hol hS hin rfl rfl hV
  obtain ⟨I', S2, f', l', b1, b2, b4, b5, -, b6, -, b7⟩ := flowRod3_run hre hn hw hE' hnz' hny' hnx' hX hord' htol hK hKd hK0 rfl ho' hol' hS' hin' rfl rfl hV
  have e : I = I' := by
    rcases lt_trichotomy I I' with h | h | h
    · exact absurd (b4 I h) (not_lt.2 a5)
    · exact h
    · exact absurd (a4 I' h) (not_lt.2 b5)
  subst e
  obtain rfl := a2.unique b2
  refine ⟨I, _, _, a1, b1, rfl, rfl, rfl, rfl, a6.trans b6.symm, fun c p c' p' hc hp hc' hp' hg j => ?_⟩
  obtain ⟨u1, u2⟩ := a7 c p hc hp j
  obtain ⟨v1, v2⟩ := b7 c' p' hc' hp' j
  exact ⟨u1.trans ((congrArg _ hg).trans v1.symm), u2.trans ((congrArg _ hg).trans v2.symm)⟩

/-- **C120** Without `rank_distribution`: whatever topology without a cut along x MPI chooses, if it divides the grid into blocks of at least 2 cells a side, the driver starts. -/
theorem flowRod3_default (hd : z.dist = none) (hw : z.Wide) (hn : pz * py = n) (hpp : py ≤ pz) (hz : pz ∣ z.gz) (hy : py ∣ z.gy) (h2z : 2 * pz ≤ z.gz) (h2y : 2 * py ≤ z.gy) :
    ∃ T : Cart3, ∃ (_ : NeZero T.gz) (_ : NeZero T.gy) (_ : NeZero T.gx), T.pz = pz ∧ T.py = py ∧ T.px = 1 ∧ simCheck3 (z.sim pz py 1) = .ok T ∧ 2 ≤ T.nz ∧ 2 ≤ T.ny ∧ 2 ≤ T.nx ∧
      ∀ N X, OnRod3 z N X → ∃ S : CSt3 T Unit, RodStart3 z n pz py 1 (z.body N lagDx ord junk) X S := by
  have ht : Topology3 n z.dist (z.sim pz py 1) := by rw [hd]; exact (topology3_default n _).2 ⟨rfl, hn, hpp⟩
  obtain ⟨T, hT⟩ := (simCheck3_ok_iff (z.sim pz py 1)).2 ⟨⟨Nat.mod_eq_zero_of_dvd hz, Nat.mod_eq_zero_of_dvd hy, Nat.mod_one _⟩,
    Or.inr ⟨Or.inr rfl, by change 1 ≤ 2; norm_num, Or.inr (Or.inr rfl), ⟨2, rfl⟩, by
      intro _ o ty hf
      simp only [filterInUse, RodArgs3.sim, if_true, Option.getD_some, Option.some.injEq, Prod.mk.injEq] at hf
      exact ⟨⟨1, hf.1.symm⟩, Or.inl hf.2.symm⟩⟩⟩
  obtain ⟨hc, -⟩ := simCheck3_cart hT
  obtain ⟨e0, e1, e2, e3, e4, e5, -, e6, e7, e8⟩ := construct3_ok hc
  have e0' : T.gz = z.gz := e0
  have e1' : T.gy = z.gy := e1
  have e2' : T.gx = z.gx := e2
  have e3' : T.pz = pz := e3
  have e4' : T.py = py := e4
  have e5' : T.px = 1 := e5
  have w1 := hw.y
  have w2 := hw.x0
  have w3 := hw.z1
  have hnz : 2 ≤ T.nz := by
    rw [e3', e0'] at e6
    by_contra hlt
    have : pz * T.nz ≤ pz * 1 := Nat.mul_le_mul_left pz (by omega)
    omega
  have hny : 2 ≤ T.ny := by
    rw [e4', e1'] at e7
    by_contra hlt
    have : py * T.ny ≤ py * 1 := Nat.mul_le_mul_left py (by omega)
    omega
  have hnx : 2 ≤ T.nx := by rw [e5', e2', one_mul] at e8; omega
  have i0 : NeZero T.gz := ⟨by omega⟩
  have i1 : NeZero T.gy := ⟨by omega⟩
  have i2 : NeZero T.gx := ⟨by omega⟩
  exact ⟨T, i0, i1, i2, e3', e4', e5', hT, hnz, hny, hnx, fun N X hX => flowRod3_starts hw ht hT hnz hny hnx hX⟩

/-! ## Examples -/

/-- nodes on the axis are on the rod -/
example (z : RodArgs3) (m : ℕ) (hm : 0 < m) : OnRod3 z m fun k i => z.spec.start k + (i / m : ℝ) * z.spec.length * z.spec.dir k := by
  refine (onRod3_iff _ _ _).2 fun i hi => ⟨i / m, by positivity, ?_, fun k _ => ?_⟩
  · rw [div_le_one (by exact_mod_cast hm)]
    exact_mod_cast hi.le
  · rw [sub_self, abs_zero]
    change 0 ≤ z.diam / 2
    rw [z.diam_eq]
    unfold rodD3
    positivity

/-- the driver as called (FPR3.py:301-312: grid 128 × 32 × 128), for any numbers and inclination of the rod between hanging and lying, on 4 ranks -/
example (cauchy mass froude stretch poisson re incline : ℝ) (h0 : 0 ≤ incline) (h1 : incline ≤ Real.pi / 2) :
    ∃ T : Cart3, ∃ (_ : NeZero T.gz) (_ : NeZero T.gy) (_ : NeZero T.gx), EvenTopo3 T ∧
      ∀ N X, OnRod3 ⟨3.5, 40, 128, 32, 128, cauchy, mass, froude, stretch, poisson, re, -2e5, -1e2, incline, none⟩ N X → ∃ S : CSt3 T Unit,
        RodStart3 ⟨3.5, 40, 128, 32, 128, cauchy, mass, froude, stretch, poisson, re, -2e5, -1e2, incline, none⟩ 4 2 2 1
          (RodArgs3.body ⟨3.5, 40, 128, 32, 128, cauchy, mass, froude, stretch, poisson, re, -2e5, -1e2, incline, none⟩ N 0.01 (fun l => l.dedup.filter (· ≠ (0, 0, 0))) fun _ _ => 7) X S := by
  have hs : 0 ≤ Real.sin incline := Real.sin_nonneg_of_nonneg_of_le_pi h0 (by linarith [Real.pi_pos])
  have hc : 0 ≤ Real.cos incline := Real.cos_nonneg_of_neg_pi_div_two_le_of_le (by linarith [Real.pi_pos]) h1
  have hc1 := Real.cos_le_one incline
  obtain ⟨T, i0, i1, i2, e3, e4, e5, hT, -, -, -, h⟩ := flowRod3_default (z := ⟨3.5, 40, 128, 32, 128, cauchy, mass, froude, stretch, poisson, re, -2e5, -1e2, incline, none⟩) (n := 4) (pz := 2) (py := 2)
    (lagDx := 0.01) (ord := fun l => l.dedup.filter (· ≠ (0, 0, 0))) (junk := fun _ _ => 7) rfl
    ⟨hs, hc, by norm_num, by norm_num, by norm_num, by push_cast; change Real.cos incline * (128 / 1.8) + 0.1 * 32 + 2.5 ≤ 0.75 * 128; linarith, by norm_num⟩
    (by norm_num) (by norm_num) (by norm_num) (by norm_num) (by norm_num) (by norm_num)
  exact ⟨T, i0, i1, i2, by unfold EvenTopo3; omega, fun N X hX => h N X hX⟩

end

end Sopht
