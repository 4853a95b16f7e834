import Verif.Cylinder2D

/-!
# The flow past a rod, as a function of the driver's arguments (C119)

`flow_past_rod_case` (examples/2d_examples/FlowPastRodCase/flow_past_rod.py, below "FPR.py"): what it computes from its arguments, what it constructs, the loop and what it records.
How the rod moves (pyelastica) is left open: it may depend on all properties the driver gives the rod.  Plots, videos and the formatting of files are left out.
-/

namespace Sopht

/-! ## The driver -/

/-- The arguments (FPR.py:17-30): `nondim_final_time`, `grid_size`, `reynolds`, `nondim_bending_stiffness`, `nondim_mass_ratio`, `froude`, `rod_start_incline_angle`,
`coupling_stiffness`, `coupling_damping`, `rank_distribution`. -/
structure RodArgs where
  final : ℝ
  gy : ℕ
  gx : ℕ
  re : ℝ
  bend : ℝ
  mass : ℝ
  froude : ℝ
  incline : ℝ
  stiff : ℝ
  damp : ℝ
  dist : Option (List ℕ)

/-- What pyelastica is told about the rod: the arguments of `CosseratRod.straight_rod` (z components, which are constants, left out), the gravitational acceleration (in x direction)
and the arguments of the damper (FPR.py:80-110).  One end is clamped. -/
structure RodSpec where
  elems : ℕ
  start : Fin 2 → ℝ
  dir : Fin 2 → ℝ
  length : ℝ
  radius : ℝ
  density : ℝ
  youngs : ℝ
  shear : ℝ
  gravity : ℝ
  damping : ℝ
  dampDt : ℝ

/-- pyelastica: for every rod its equations of motion with their time stepper, its state as constructed, and the place of its tip. -/
structure Mech (σ : Type) where
  body : RodSpec → Stepper σ
  start : RodSpec → σ
  tip : σ → Fin 2 → ℝ

namespace RodArgs

/-- `velocity_free_stream` (FPR.py:36) -/
def speed (_ : RodArgs) : ℝ := 1
/-- `rho_f` (FPR.py:37) -/
def rho (_ : RodArgs) : ℝ := 1
/-- `base_length` (FPR.py:38) -/
def length (_ : RodArgs) : ℝ := 1
/-- `x_range` (FPR.py:39) -/
def xr (z : RodArgs) : ℝ := 6 * z.length
/-- `y_range` (FPR.py:40) -/
noncomputable def yr (z : RodArgs) : ℝ := z.gy / z.gx * z.xr
/-- `n_elem` (FPR.py:49) -/
def elems (z : RodArgs) : ℕ := z.gx / 8
/-- `base_radius` (FPR.py:55) -/
noncomputable def radius (_ : RodArgs) : ℝ := 0.01
/-- `base_area` (FPR.py:56) -/
noncomputable def area (z : RodArgs) : ℝ := Real.pi * z.radius ^ 2
/-- `z_axis_width` (FPR.py:57) -/
def depth (_ : RodArgs) : ℝ := 1
/-- `density` (FPR.py:58-60) -/
noncomputable def density (z : RodArgs) : ℝ := z.mass * z.rho * z.length * z.depth / z.area
/-- `moment_of_inertia` (FPR.py:61) -/
noncomputable def inertia (z : RodArgs) : ℝ := Real.pi / 4 * z.radius ^ 4
/-- `youngs_modulus` (FPR.py:64-68) -/
noncomputable def youngs (z : RodArgs) : ℝ := z.bend * (z.rho * z.speed ^ 2 * z.length ^ 3 * z.depth) / z.inertia
/-- `gravitational_acc` (FPR.py:71) -/
noncomputable def gravity (z : RodArgs) : ℝ := z.froude * z.speed ^ 2 / z.length
/-- `rod_dt` (FPR.py:96-97) -/
noncomputable def rodDt (z : RodArgs) : ℝ := 0.01 * (z.length / z.elems)
/-- The rod (FPR.py:50-104). -/
noncomputable def spec (z : RodArgs) : RodSpec :=
  { elems := z.elems, start := fun k => if k = 0 then z.length else 0.501 * z.yr, dir := fun k => if k = 0 then Real.cos z.incline else Real.sin z.incline,
    length := z.length, radius := z.radius, density := z.density, youngs := z.youngs, shear := z.youngs / (0.5 + 1), gravity := z.gravity, damping := 0.5e-3, dampDt := z.rodDt }
/-- `nu` (FPR.py:112) -/
noncomputable def nu (z : RodArgs) : ℝ := z.length * z.speed / z.re
/-- `timescale` (FPR.py:189) -/
noncomputable def timescale (z : RodArgs) : ℝ := z.length / z.speed
/-- `final_time` (FPR.py:190) -/
noncomputable def tEnd (z : RodArgs) : ℝ := z.final * z.timescale
/-- `free_stream_velocity` at time `t` (FPR.py:194-195, 287-295) -/
noncomputable def stream (z : RodArgs) (t : ℝ) (j : Fin 2) : ℝ :=
  if j = 0 then z.speed * (1 - Real.exp (-t / z.timescale)) else 0.5 * z.speed * Real.exp (-t / z.timescale)

/-- The arguments of the flow simulator (FPR.py:113-122), given the topology `Compute_dims` returns; ghost size and penalty zone are the defaults (F2D.py:35, 83-87). -/
def sim (z : RodArgs) (py px : ℕ) : SimArgs2 := ⟨z.gy, z.gx, py, px, "navier_stokes_with_forcing", true, 2, .int 2⟩

/-- The arguments of the interactor (FPR.py:127-139): a node for each element, master rank 0, defaults otherwise. -/
def body (z : RodArgs) (lagDx : ℝ) (ord : List C2 → List C2) (junk : LagField ℝ) : Ib2 :=
  { N := z.elems, m := (0, 0), ord, junk, stiff := z.stiff, damp := z.damp, lagDx, shift := none, width := none, reset := false, auto := true }

end RodArgs

section
variable {σ : Type} {T : Cart2} [NeZero T.gy] [NeZero T.gx]

/-- Simulator and interactor as constructed (FPR.py:113-139) on `n` ranks: all fields zero, time zero, nodes `X`. -/
structure RodStart2 (z : RodArgs) (n py px : ℕ) (a : Ib2) (X : LagField ℝ) (S : CSt2 T Unit) : Prop where
  topo : Topology2 n z.dist (z.sim py px)
  cart : simCheck2 (z.sim py px) = .ok T
  sim : ∃ dbl0 conv0, S.sim = simInit2 T z.xr 0 dbl0 conv0
  ib : ibInit2 T 2 (simDx2 T z.xr) a X 0 = .ok (S.ib ())
  log : S.log = []

/-- The loop (FPR.py:210-300).  Plots and log lines every `final_time / 60`, with time, greatest vorticity, deviation and nodes (the percentage in the log is computed from the time);
every tenth of the time scale (which is 1) the time and the deflection of the tip, on the master rank. -/
noncomputable def flowRodLoop (z : RodArgs) (C : Cfg2) (K : Kern2) (tol : ℝ) (a : Ib2) (o : ℕ → ℕ → CScheds2) (M : Mech σ) :
    ℕ → ((CSt2 T Unit × σ) × ℝ × List RodShot) × ℝ × List (ℝ × (Fin 2 → ℝ)) → (((CSt2 T Unit × σ) × ℝ × List RodShot) × ℝ × List (ℝ × (Fin 2 → ℝ))) × Option PyErr :=
  rodCase2 C K tol (fun _ => a) o (M.body z.spec) () z.rodDt 0.5 z.stream (z.tEnd / 60) (0.1 * z.timescale)
    fun s k => (M.tip s k - M.tip (M.start z.spec) k) / z.length

/-- The loop ends after `N` iterations with the result `r`. -/
def FlowRodRuns (z : RodArgs) (C : Cfg2) (K : Kern2) (tol : ℝ) (a : Ib2) (o : ℕ → ℕ → CScheds2) (M : Mech σ) (S : CSt2 T Unit) (N : ℕ)
    (r : (((CSt2 T Unit × σ) × ℝ × List RodShot) × ℝ × List (ℝ × (Fin 2 → ℝ))) × Option PyErr) : Prop :=
  While (fun s => s.1.1.1.sim.time < z.tEnd) (flowRodLoop z C K tol a o M) 0 (((S, M.start z.spec), 0, []), 0, []) N r

end

/-! ## Specification: one global grid

A rod of length 1 clamped at x = 1, just above the middle of a domain of length 6, with a node in the middle of each of its elements, in a stream which turns from (0, 1/2) to (1, 0);
the viscosity is 1 / Re. -/

/-- Where the nodes are at the start. -/
noncomputable def rodNodes2 (z : RodArgs) : LagField ℝ := fun k i =>
  if k = 0 then 1 + (i + 1 / 2) / (z.gx / 8 : ℕ) * Real.cos z.incline
  else 3.006 * (z.gy / z.gx) + (i + 1 / 2) / (z.gx / 8 : ℕ) * Real.sin z.incline

/-- Flow and rod on one global grid after `n` iterations, from rest. Order of sets, buffers and the rank of the master do not matter there. -/
noncomputable def flowRodRef {σ : Type} (z : RodArgs) (K : Kern2) (tol lagDx : ℝ) (M : Mech σ) (n : ℕ) : RefC2 Unit × σ :=
  refRods2 ⟨z.gy, z.gx, 6, 1 / z.re, 2, true⟩ K 0.1 tol
    (fun _ => { N := z.gx / 8, m := (0, 0), ord := id, junk := fun _ _ => 0, stiff := z.stiff, damp := z.damp, lagDx, shift := none, width := none, reset := false, auto := true })
    (M.body z.spec) () (0.01 / (z.gx / 8 : ℕ)) 0.5 (fun t j => if j = 0 then 1 - Real.exp (-t) else 0.5 * Real.exp (-t))
    (refStart2 (6 / z.gx) (fun _ => rodNodes2 z) (fun _ => 0) 0 (fun _ _ => 0) (fun _ _ _ => 0), M.start z.spec) n

/-- What a global state shows. -/
noncomputable def refRodShot {σ : Type} (z : RodArgs) (M : Mech σ) (q : RefC2 Unit × σ) : RodShot :=
  ⟨q.1.time, .ok (maxCell2 z.gy z.gx q.1.F.om), refDeviation 2 (z.gx / 8) (q.1.hist ()), (M.body z.spec).pos q.2⟩

/-- Time and deflection of the tip. -/
noncomputable def refTip {σ : Type} (z : RodArgs) (M : Mech σ) (q : RefC2 Unit × σ) : ℝ × (Fin 2 → ℝ) := (q.1.time, fun k => M.tip q.2 k - M.tip (M.start z.spec) k)

/-- **C119** The rod given to pyelastica has the dimensionless numbers asked for: bending stiffness, mass and gravity relative to those of the stream, Reynolds number.  Its direction is a
unit vector, Poisson's ratio is 1/2, it has an element for each 8 columns of the grid, and the damper gets the rod's time step. -/
theorem flowRod_numbers (z : RodArgs) (hre : z.re ≠ 0) :
    z.spec.youngs * (Real.pi / 4 * z.spec.radius ^ 4) / (z.rho * z.speed ^ 2 * z.spec.length ^ 3 * z.depth) = z.bend ∧
      z.spec.density * (Real.pi * z.spec.radius ^ 2) / (z.rho * z.spec.length * z.depth) = z.mass ∧ z.spec.gravity * z.spec.length / z.speed ^ 2 = z.froude ∧
      z.speed * z.spec.length / z.nu = z.re ∧ z.spec.dir 0 ^ 2 + z.spec.dir 1 ^ 2 = 1 ∧ z.spec.youngs = (1 + 1 / 2) * z.spec.shear ∧
      z.spec.elems = z.gx / 8 ∧ z.spec.length = 1 ∧ z.spec.radius = 1 / 100 ∧ z.spec.damping = 1 / 2000 ∧ z.spec.dampDt = 1 / 100 * (z.spec.length / z.spec.elems) := by
  have hp := Real.pi_ne_zero
  have hr : z.radius ≠ 0 := by unfold RodArgs.radius; norm_num
  refine ⟨?_, ?_, ?_, ?_, ?_, ?_, rfl, rfl, ?_, ?_, ?_⟩
  · change z.youngs * (Real.pi / 4 * z.radius ^ 4) / (1 * 1 ^ 2 * 1 ^ 3 * 1) = z.bend
    unfold RodArgs.youngs RodArgs.inertia
    change z.bend * (1 * 1 ^ 2 * 1 ^ 3 * 1) / (Real.pi / 4 * z.radius ^ 4) * (Real.pi / 4 * z.radius ^ 4) / (1 * 1 ^ 2 * 1 ^ 3 * 1) = z.bend
    field_simp
  · change z.density * (Real.pi * z.radius ^ 2) / (1 * 1 * 1) = z.mass
    unfold RodArgs.density RodArgs.area
    change z.mass * 1 * 1 * 1 / (Real.pi * z.radius ^ 2) * (Real.pi * z.radius ^ 2) / (1 * 1 * 1) = z.mass
    field_simp
  · change z.froude * 1 ^ 2 / 1 * 1 / 1 ^ 2 = z.froude
    ring
  · change (1 : ℝ) * 1 / (1 * 1 / z.re) = z.re
    field_simp
  · exact Real.cos_sq_add_sin_sq z.incline
  · change z.youngs = (1 + 1 / 2) * (z.youngs / (0.5 + 1))
    norm_num
    ring
  · change (0.01 : ℝ) = 1 / 100
    norm_num
  · change (0.5e-3 : ℝ) = 1 / 2000
    norm_num
  · change 0.01 * (z.spec.length / z.spec.elems) = 1 / 100 * (z.spec.length / z.spec.elems)
    norm_num

theorem RodArgs.nu_eq (z : RodArgs) : z.nu = 1 / z.re := by simp [RodArgs.nu, RodArgs.length, RodArgs.speed]
theorem RodArgs.timescale_eq (z : RodArgs) : z.timescale = 1 := by simp [RodArgs.timescale, RodArgs.length, RodArgs.speed]
theorem RodArgs.tEnd_eq (z : RodArgs) : z.tEnd = z.final := by unfold RodArgs.tEnd; rw [z.timescale_eq, mul_one]
theorem RodArgs.xr_eq (z : RodArgs) : z.xr = 6 := by simp [RodArgs.xr, RodArgs.length]
theorem RodArgs.rodDt_eq (z : RodArgs) : z.rodDt = 0.01 / (z.gx / 8 : ℕ) := by
  unfold RodArgs.rodDt RodArgs.length RodArgs.elems; ring
theorem RodArgs.stream_eq (z : RodArgs) : z.stream = fun t j => if j = 0 then 1 - Real.exp (-t) else 0.5 * Real.exp (-t) := by
  funext t j
  unfold RodArgs.stream
  rw [z.timescale_eq]
  simp [RodArgs.speed]

/-- **C119** Where pyelastica puts the middles of the elements of a straight rod: `start + (i + 1/2) (length / elems) dir`. -/
theorem rodNodes2_eq (z : RodArgs) (k i : ℕ) (hk : k < 2) :
    rodNodes2 z k i = z.spec.start ⟨k, hk⟩ + (i + 1 / 2) * (z.spec.length / z.spec.elems) * z.spec.dir ⟨k, hk⟩ := by
  have h2 : k = 0 ∨ k = 1 := by omega
  rcases h2 with rfl | rfl
  · change 1 + (i + 1 / 2) / (z.gx / 8 : ℕ) * Real.cos z.incline = 1 + (i + 1 / 2) * (1 / (z.gx / 8 : ℕ)) * Real.cos z.incline
    ring
  · change 3.006 * (z.gy / z.gx) + (i + 1 / 2) / (z.gx / 8 : ℕ) * Real.sin z.incline = 0.501 * (z.gy / z.gx * (6 * 1)) + (i + 1 / 2) * (1 / (z.gx / 8 : ℕ)) * Real.sin z.incline
    ring

/-! ## The rod is inside at the start -/

theorem rod_inside {z : RodArgs} (hx : 16 ≤ z.gx) (hc : 0 ≤ Real.cos z.incline) (hy : 2.01 * |Real.sin z.incline| * z.gx + 31 ≤ 6 * z.gy) (lagDx : ℝ) (ord : List C2 → List C2)
    (junk : LagField ℝ) : Inside2 z.gy z.gx 1 (6 / z.gx) (z.body lagDx ord junk) (rodNodes2 z) := by
  intro i hi G hG
  have g0 : (16 : ℝ) ≤ z.gx := by exact_mod_cast hx
  have gp : (0 : ℝ) < z.gx := by linarith
  have hdx : 0 < 6 / (z.gx : ℝ) := by positivity
  have hs : (z.body lagDx ord junk).sh (6 / z.gx) = 6 / z.gx / 2 := rfl
  unfold window2 at hG
  rw [hs, Finset.mem_product] at hG
  have hle : 6 / (z.gx : ℝ) ≤ 6 / 16 := div_le_div_of_nonneg_left (by norm_num) (by norm_num) g0
  have hne : 0 < z.gx / 8 := by omega
  have hn0 : (0 : ℝ) < (z.gx / 8 : ℕ) := by exact_mod_cast hne
  have hi' : i < z.gx / 8 := hi
  have hi2 : (i : ℝ) + 1 ≤ (z.gx / 8 : ℕ) := by exact_mod_cast hi'
  obtain ⟨f, hf⟩ : ∃ f, f = ((i : ℝ) + 1 / 2) / (z.gx / 8 : ℕ) := ⟨_, rfl⟩
  have hf0 : 0 ≤ f := by rw [hf]; positivity
  have hf1 : f ≤ 1 := by rw [hf, div_le_one hn0]; linarith
  have hx0 : rodNodes2 z 0 i = 1 + f * Real.cos z.incline := by rw [hf]; rfl
  have hx1 : rodNodes2 z 1 i = 3.006 * (z.gy / z.gx) + f * Real.sin z.incline := by rw [hf]; rfl
  have c0 : 0 ≤ f * Real.cos z.incline := mul_nonneg hf0 hc
  have c1 : f * Real.cos z.incline ≤ 1 := mul_le_one₀ hf1 hc (Real.cos_le_one _)
  have s1 : |f * Real.sin z.incline| ≤ |Real.sin z.incline| := by
    rw [abs_mul, abs_of_nonneg hf0]
    exact mul_le_of_le_one_left (abs_nonneg _) hf1
  rw [abs_le] at s1
  -- everything in units of the domain
  obtain ⟨w, hw⟩ : ∃ w, w = (z.gy : ℝ) / z.gx := ⟨_, rfl⟩
  obtain ⟨d, hd⟩ : ∃ d, d = 1 / (z.gx : ℝ) := ⟨_, rfl⟩
  have e1 : 6 / (z.gx : ℝ) = 6 * d := by rw [hd]; ring
  have e2 : (z.gx : ℝ) * d = 1 := by rw [hd]; field_simp
  have e3 : (z.gy : ℝ) * d = w := by rw [hd, hw]; ring
  have hd0 : 0 < d := by rw [hd]; positivity
  have hyd : 2.01 * |Real.sin z.incline| + 31 * d ≤ 6 * w := by
    have q := mul_le_mul_of_nonneg_right hy hd0.le
    have e : (2.01 * |Real.sin z.incline| * z.gx + 31) * d = 2.01 * |Real.sin z.incline| * (z.gx * d) + 31 * d := by ring
    have e' : 6 * (z.gy : ℝ) * d = 6 * (z.gy * d) := by ring
    rw [e, e', e2, e3] at q
    linarith
  have hgx : (z.gx : ℝ) * (6 / z.gx) = 6 := by field_simp
  have hgy : (z.gy : ℝ) * (6 / z.gx) = 6 * w := by rw [e1, ← e3]; ring
  have hab := abs_nonneg (Real.sin z.incline)
  rw [e1] at hle hgx hgy hdx hG
  rw [hx0, hx1, ← hw] at hG
  obtain ⟨b1, b2⟩ := winCells_inside hdx (n := z.gy) (x := 3.006 * w + f * Real.sin z.incline) (by linarith [s1.1]) (by rw [hgy]; linarith [s1.2]) hG.1
  obtain ⟨c1, c2⟩ := winCells_inside hdx (n := z.gx) (x := 1 + f * Real.cos z.incline) (by linarith) (by rw [hgx]; linarith) hG.2
  exact ⟨b1, b2, c1, c2⟩

/-! ## Construction -/

section
variable {σ : Type} {T : Cart2} [NeZero T.gy] [NeZero T.gx] {z : RodArgs} {n py px : ℕ} {K : Kern2} {tol lagDx : ℝ} {ord : List C2 → List C2} {junk : LagField ℝ}
  {o : ℕ → ℕ → CScheds2} {M : Mech σ}

omit [NeZero T.gy] [NeZero T.gx] in
theorem rod_fit (hT : simCheck2 (z.sim py px) = .ok T) (hslab : py = 1 ∨ px = 1) (hny : 4 ≤ T.ny) (hnx : 4 ≤ T.nx) : Fit2 (z.sim py px) T :=
  ⟨hT, ⟨le_refl _, fun _ => ⟨hslab, 2, rfl⟩⟩, rfl, hny, hnx, le_trans (by change 2 ≤ 4; norm_num) hny, le_trans (by change 2 ≤ 4; norm_num) hnx⟩

/-- **C119** Simulator and interactor can be constructed. -/
theorem flowRod_starts (hx : 16 ≤ z.gx) (hc : 0 ≤ Real.cos z.incline) (hy : 2.01 * |Real.sin z.incline| * z.gx + 31 ≤ 6 * z.gy) (htopo : Topology2 n z.dist (z.sim py px))
    (hT : simCheck2 (z.sim py px) = .ok T) (hny : 4 ≤ T.ny) (hnx : 4 ≤ T.nx) : ∃ S : CSt2 T Unit, RodStart2 z n py px (z.body lagDx ord junk) (rodNodes2 z) S := by
  obtain ⟨hc', -⟩ := simCheck2_cart' hT
  obtain ⟨-, e2, -⟩ := construct2_ok hc'
  have hgp : (0 : ℝ) < z.gx := by exact_mod_cast (by omega : 0 < z.gx)
  have hd : simDx2 T z.xr = 6 / z.gx := by unfold simDx2; rw [e2, z.xr_eq]; rfl
  obtain ⟨s, hs⟩ := (ibInit2_ok_iff hc' (by omega) (by omega) (dx := 6 / (z.gx : ℝ)) (by positivity) (g := 2) (k := 1) (rod_inside hx hc hy lagDx ord junk) 0).2 ⟨rfl, le_refl _⟩
  exact ⟨⟨simInit2 T z.xr 0 0 0, fun _ => s, []⟩, htopo, hT, ⟨_, _, rfl⟩, by rw [hd]; exact hs, rfl⟩

/-- Until the final time the rod stays inside, and the ranks notice when its nodes change hands (both in the run on the global grid). -/
def StaysInside2 (T : Cart2) (z : RodArgs) (K : Kern2) (tol lagDx : ℝ) (ord : List C2 → List C2) (junk : LagField ℝ) (M : Mech σ) : Prop :=
  ∀ n, (flowRodRef z K tol lagDx M n).1.time < z.final →
    RodStep2 T ⟨z.gy, z.gx, 6, 1 / z.re, 2, true⟩ K 0.1 tol (fun _ => z.body lagDx ord junk) (M.body z.spec) () (0.01 / (z.gx / 8 : ℕ)) 0.5 (flowRodRef z K tol lagDx M n)

omit [NeZero T.gy] [NeZero T.gx] in
theorem flowRodRef_eq (n : ℕ) : refRods2 ⟨z.gy, z.gx, z.xr, z.nu, widthOf (z.sim py px).width, true⟩ K 0.1 tol (fun _ => z.body lagDx ord junk) (M.body z.spec) () z.rodDt 0.5 z.stream
    (refStart2 (z.xr / z.gx) (fun _ => rodNodes2 z) (fun _ => 0) 0 (fun _ _ => 0) (fun _ _ _ => 0), M.start z.spec) n = flowRodRef z K tol lagDx M n := by
  rw [z.xr_eq, z.nu_eq, z.rodDt_eq, z.stream_eq]
  unfold flowRodRef
  exact same_rods2 (A := fun _ : Unit => { N := z.gx / 8, m := (0, 0), ord := id, junk := fun _ _ => 0, stiff := z.stiff, damp := z.damp, lagDx, shift := none, width := none, reset := false, auto := true })
    (A' := fun _ : Unit => z.body lagDx ord junk) (fun _ => rfl) ⟨z.gy, z.gx, 6, 1 / z.re, 2, true⟩ _ n

theorem RodStart2.fit (hre : 0 < z.re) (hx : 16 ≤ z.gx) (hc : 0 ≤ Real.cos z.incline) (hy : 2.01 * |Real.sin z.incline| * z.gx + 31 ≤ 6 * z.gy) (hslab : py = 1 ∨ px = 1)
    (hny : 4 ≤ T.ny) (hnx : 4 ≤ T.nx) (hord : ∀ l, SlaveSet l (0, 0) (ord l)) (htol : 0 < tol) (hK : K.Local) (hK0 : ∀ r, K.upd r (fun _ _ => 0) = 0)
    (ho : ∀ i n, (o i n).Done T (simCfg2 (z.sim py px) T z.xr z.nu 0.1).d) (hin : StaysInside2 T z K tol lagDx ord junk M)
    {S : CSt2 T Unit} (hS : RodStart2 z n py px (z.body lagDx ord junk) (rodNodes2 z) S) :
    RodFit2 (z.sim py px) z.xr z.nu 0.1 tol K (fun _ => z.body lagDx ord junk) (fun _ => rodNodes2 z) (fun _ => 0) 0 (fun _ _ => 0) (fun _ _ _ => 0) S o () (M.body z.spec) z.rodDt 0.5
      z.stream (M.start z.spec) z.tEnd := by
  have h1 := rod_inside hx hc hy lagDx ord junk
  have h0 : Inside2 z.gy z.gx 0 (z.xr / z.gx) (z.body lagDx ord junk) (rodNodes2 z) := by
    rw [z.xr_eq]
    intro i hi G hG
    have := h1 i hi G hG
    unfold Away2 at this ⊢
    push_cast at this ⊢; omega
  have hn0 : (0 : ℝ) < (z.gx / 8 : ℕ) := by exact_mod_cast (by omega : 0 < z.gx / 8)
  refine ⟨⟨rod_fit hS.cart hslab hny hnx, rfl, fun _ => hord, fun _ => h0, fun _ => hS.ib, ?_, hS.log⟩, rfl, ho, ?_, ?_, by norm_num, htol, hK, hK0, ?_, by norm_num, ?_⟩
  · obtain ⟨dbl0, conv0, e⟩ := hS.sim
    exact ⟨dbl0, conv0, e⟩
  · rw [z.xr_eq]; norm_num
  · rw [z.nu_eq]; positivity
  · rw [z.rodDt_eq]; positivity
  · intro P m hm
    have e : refRods2 P K 0.1 tol (fun _ => z.body lagDx ord junk) (M.body z.spec) () z.rodDt 0.5 z.stream
      (refStart2 (z.xr / (z.sim py px).gx) (fun _ => rodNodes2 z) (fun _ => 0) 0 (fun _ _ => 0) (fun _ _ _ => 0), M.start z.spec) m = flowRodRef z K tol lagDx M m :=
      flowRodRef_eq (py := py) (px := px) m
    rw [e] at hm ⊢
    rw [z.tEnd_eq] at hm
    have q := hin m hm
    have eP : P = ⟨z.gy, z.gx, 6, 1 / z.re, 2, true⟩ := by
      rw [← z.xr_eq, ← z.nu_eq]; rfl
    rw [eP, z.rodDt_eq]
    exact q

/-! ## The run -/

/-- **C119** The driver with any of its arguments: a grid wide enough for the rod, any slab decomposition with blocks of at least 4 × 4 cells; while velocities stay bounded and the rod
stays inside.  It ends, without exception and with one result only, in the first iteration that would begin at the final time or later; log, plots and tip deflections are those of flow
and rod on one global grid, in the iterations when they are due; so are the rod at the end and the fields on all ranks. -/
theorem flowRod_run (hre : 0 < z.re) (hx : 16 ≤ z.gx) (hc : 0 ≤ Real.cos z.incline) (hy : 2.01 * |Real.sin z.incline| * z.gx + 31 ≤ 6 * z.gy) (hslab : py = 1 ∨ px = 1)
    (hny : 4 ≤ T.ny) (hnx : 4 ≤ T.nx) (hord : ∀ l, SlaveSet l (0, 0) (ord l)) (htol : 0 < tol) (hK : K.Local) (hK0 : ∀ r, K.upd r (fun _ _ => 0) = 0)
    {C : Cfg2} (hC : C = simCfg2 (z.sim py px) T 6 (1 / z.re) 0.1) (ho : ∀ i n, (o i n).Done T C.d)
    {S : CSt2 T Unit} (hS : RodStart2 z n py px (z.body lagDx ord junk) (rodNodes2 z) S) (hin : StaysInside2 T z K tol lagDx ord junk M)
    {ref : ℕ → RefC2 Unit × σ} (href : ref = flowRodRef z K tol lagDx M) {t : ℕ → ℝ} (ht : t = fun n => (ref n).1.time)
    {V : ℝ} (hV : ∀ n G, t n < z.final → Dom2 z.gy z.gx G → |(ref n).1.F.u 0 G| + |(ref n).1.F.u 1 G| ≤ V) :
    ∃ N S' foto data shots tips, (∀ N' r, FlowRodRuns z C K tol (z.body lagDx ord junk) o M S N' r ↔
        N' = N ∧ r = ((((S', (ref N).2), foto, shots.map fun n => refRodShot z M (ref n)), data, tips.map fun n => refTip z M (ref n)), none)) ∧
      Snapshots false (z.final / 60) t N shots ∧ Snapshots false 0.1 t N tips ∧
      (∀ i < N, t i < z.final) ∧ z.final ≤ t N ∧ N ≤ ⌈z.final / leastDt 4 0.1 tol (6 / z.gx) (1 / z.re) 0.5 V⌉₊ ∧
      S'.sim.time = t N ∧ (S'.ib ()).v.time = t N ∧ ∀ c p, Valid2 T c → Inner2 T ((2 : ℕ) : ℤ) p →
        S'.sim.prim c p = (ref N).1.F.om (globalIx2 T ((2 : ℕ) : ℤ) c p) ∧ ∀ j, S'.sim.vel j c p = (ref N).1.F.u j (globalIx2 T ((2 : ℕ) : ℤ) c p) := by
  subst hC ht href
  rw [← z.nu_eq, ← z.xr_eq] at ho
  have h := hS.fit hre hx hc hy hslab hny hnx hord htol hK hK0 ho hin
  have E : refRods2 ⟨(z.sim py px).gy, (z.sim py px).gx, z.xr, z.nu, widthOf (z.sim py px).width, (z.sim py px).freeStream⟩ K 0.1 tol (fun _ => z.body lagDx ord junk) (M.body z.spec) ()
      z.rodDt 0.5 z.stream (refStart2 (z.xr / (z.sim py px).gx) (fun _ => rodNodes2 z) (fun _ => 0) 0 (fun _ _ => 0) (fun _ _ _ => 0), M.start z.spec) = flowRodRef z K tol lagDx M :=
    funext (flowRodRef_eq (z := z) (py := py) (px := px) (K := K) (tol := tol) (lagDx := lagDx) (ord := ord) (junk := junk) (M := M))
  have q := rodCase2_report h (z.tEnd / 60) (0.1 * z.timescale) (fun s k => (M.tip s k - M.tip (M.start z.spec) k) / z.length) (V := V) (by
    rw [E, z.tEnd_eq]; exact hV)
  dsimp only at q
  rw [E] at q
  obtain ⟨N, S', foto, data, shots, tips, q1, q2, q3, q4, q5, q6, q7, q8, q9, q10⟩ := q
  have hshot : ∀ n, refShot2 ⟨(z.sim py px).gy, (z.sim py px).gx, z.xr, z.nu, widthOf (z.sim py px).width, (z.sim py px).freeStream⟩ (fun _ => z.body lagDx ord junk) (M.body z.spec) ()
      (flowRodRef z K tol lagDx M n) = refRodShot z M (flowRodRef z K tol lagDx M n) := fun _ => rfl
  have htip : ∀ n, ((flowRodRef z K tol lagDx M n).1.time, fun k => (M.tip (flowRodRef z K tol lagDx M n).2 k - M.tip (M.start z.spec) k) / z.length) = refTip z M (flowRodRef z K tol lagDx M n) :=
    fun n => by simp [refTip, RodArgs.length]
  simp only [hshot, htip] at q1 q2
  simp only [z.tEnd_eq, z.timescale_eq, mul_one] at q3 q4 q6 q7
  rw [z.tEnd_eq, z.xr_eq, z.nu_eq, sub_zero] at q5
  rw [sub_zero, sub_zero] at q9
  refine ⟨N, S', foto, data, shots, tips, fun N' r => ⟨?_, ?_⟩, q3, q4, q6, q7, q5, q8, q9, q10⟩
  · intro hr
    unfold FlowRodRuns at hr
    rw [← z.xr_eq, ← z.nu_eq] at hr
    exact q2 N' r hr
  · rintro ⟨rfl, rfl⟩
    unfold FlowRodRuns
    rw [← z.xr_eq, ← z.nu_eq]
    exact q1

/-- **C119** On two decompositions the driver reports the same: as many iterations, the same log and plots, tip deflections and rod at the end, the same fields in the same cells. -/
theorem flowRod_same {T' : Cart2} [NeZero T'.gy] [NeZero T'.gx] {n' py' px' : ℕ} {ord' : List C2 → List C2} {junk' : LagField ℝ} {o' : ℕ → ℕ → CScheds2}
    (hre : 0 < z.re) (hx : 16 ≤ z.gx) (hc : 0 ≤ Real.cos z.incline) (hy : 2.01 * |Real.sin z.incline| * z.gx + 31 ≤ 6 * z.gy) (htol : 0 < tol) (hK : K.Local)
    (hK0 : ∀ r, K.upd r (fun _ _ => 0) = 0)
    (hslab : py = 1 ∨ px = 1) (hny : 4 ≤ T.ny) (hnx : 4 ≤ T.nx) (hord : ∀ l, SlaveSet l (0, 0) (ord l))
    (hslab' : py' = 1 ∨ px' = 1) (hny' : 4 ≤ T'.ny) (hnx' : 4 ≤ T'.nx) (hord' : ∀ l, SlaveSet l (0, 0) (ord' l))
    (ho : ∀ i n, (o i n).Done T (simCfg2 (z.sim py px) T 6 (1 / z.re) 0.1).d) (ho' : ∀ i n, (o' i n).Done T' (simCfg2 (z.sim py' px') T' 6 (1 / z.re) 0.1).d)
    {S : CSt2 T Unit} (hS : RodStart2 z n py px (z.body lagDx ord junk) (rodNodes2 z) S) {S' : CSt2 T' Unit} (hS' : RodStart2 z n' py' px' (z.body lagDx ord' junk') (rodNodes2 z) S')
    (hin : StaysInside2 T z K tol lagDx ord junk M) (hin' : StaysInside2 T' z K tol lagDx ord' junk' M)
    {V : ℝ} (hV : ∀ n G, (flowRodRef z K tol lagDx M n).1.time < z.final → Dom2 z.gy z.gx G →
      |(flowRodRef z K tol lagDx M n).1.F.u 0 G| + |(flowRodRef z K tol lagDx M n).1.F.u 1 G| ≤ V) :
    ∃ N R R', (∀ N1 r, FlowRodRuns z (simCfg2 (z.sim py px) T 6 (1 / z.re) 0.1) K tol (z.body lagDx ord junk) o M S N1 r ↔ N1 = N ∧ r = R) ∧
      (∀ N1 r, FlowRodRuns z (simCfg2 (z.sim py' px') T' 6 (1 / z.re) 0.1) K tol (z.body lagDx ord' junk') o' M S' N1 r ↔ N1 = N ∧ r = R') ∧
      R.2 = none ∧ R'.2 = none ∧ R.1.1.2.2 = R'.1.1.2.2 ∧ R.1.2.2 = R'.1.2.2 ∧ R.1.1.1.2 = R'.1.1.1.2 ∧ R.1.1.1.1.sim.time = R'.1.1.1.1.sim.time ∧
      ∀ c p c' p', Valid2 T c → Inner2 T ((2 : ℕ) : ℤ) p → Valid2 T' c' → Inner2 T' ((2 : ℕ) : ℤ) p' → globalIx2 T ((2 : ℕ) : ℤ) c p = globalIx2 T' ((2 : ℕ) : ℤ) c' p' →
        R.1.1.1.1.sim.prim c p = R'.1.1.1.1.sim.prim c' p' ∧ ∀ j, R.1.1.1.1.sim.vel j c p = R'.1.1.1.1.sim.vel j c' p' := by
  obtain ⟨N, S1, f, d, l, g, a1, a2, a3, a4, a5, -, a6, -, a7⟩ := flowRod_run hre hx hc hy hslab hny hnx hord htol hK hK0 rfl ho hS hin rfl rfl hV
  obtain ⟨N', S2, f', d', l', g', b1, b2, b3, b4, b5, -, b6, -, b7⟩ := flowRod_run hre hx hc hy hslab' hny' hnx' hord' htol hK hK0 rfl ho' hS' hin' rfl rfl hV
  have e : N = N' := by
    rcases lt_trichotomy N N' with h | h | h
    · exact absurd (b4 N h) (not_lt.2 a5)
    · exact h
    · exact absurd (a4 N' h) (not_lt.2 b5)
  subst e
  obtain rfl := a2.unique b2
  obtain rfl := a3.unique b3
  refine ⟨N, _, _, a1, b1, rfl, rfl, rfl, rfl, rfl, a6.trans b6.symm, fun c p c' p' hc hp hc' hp' hg => ?_⟩
  obtain ⟨u1, u2⟩ := a7 c p hc hp
  obtain ⟨v1, v2⟩ := b7 c' p' hc' hp'
  refine ⟨?_, fun j => ?_⟩
  · exact u1.trans ((congrArg _ hg).trans v1.symm)
  · exact (u2 j).trans ((congrArg _ hg).trans (v2 j).symm)

/-- **C119** Without `rank_distribution` the driver starts on `n` ranks if `n` divides the rows of the grid with at least 4 for each rank, and the decomposition is one into slabs. -/
theorem flowRod_default (hd : z.dist = none) (hx : 16 ≤ z.gx) (hc : 0 ≤ Real.cos z.incline) (hy : 2.01 * |Real.sin z.incline| * z.gx + 31 ≤ 6 * z.gy) (hn : n ∣ z.gy) (h4 : 4 * n ≤ z.gy) :
    ∃ T : Cart2, ∃ (_ : NeZero T.gy) (_ : NeZero T.gx), Topology2 n z.dist (z.sim n 1) ∧ simCheck2 (z.sim n 1) = .ok T ∧ 4 ≤ T.ny ∧ 4 ≤ T.nx ∧
      ∃ S : CSt2 T Unit, RodStart2 z n n 1 (z.body lagDx ord junk) (rodNodes2 z) S := by
  have ht : Topology2 n z.dist (z.sim n 1) := by rw [hd]; exact (topology2_default n _).2 ⟨rfl, rfl⟩
  obtain ⟨T, hT⟩ := (simCheck2_ok_iff (z.sim n 1)).2 ⟨Or.inr (Or.inr rfl), Nat.mod_eq_zero_of_dvd hn, Nat.mod_one _⟩
  obtain ⟨hc', -⟩ := simCheck2_cart' hT
  obtain ⟨e1, e2, e3, e4, -, e5, e6⟩ := construct2_ok hc'
  have e1' : T.gy = z.gy := e1
  have e2' : T.gx = z.gx := e2
  have e3' : T.py = n := e3
  have e4' : T.px = 1 := e4
  have hgy : 0 < z.gy := by
    have q : (0 : ℝ) ≤ 2.01 * |Real.sin z.incline| * z.gx := by positivity
    have q' : (0 : ℝ) < z.gy := by linarith
    exact_mod_cast q'
  have hn0 : 0 < n := Nat.pos_of_ne_zero (by rintro rfl; rw [zero_dvd_iff] at hn; omega)
  have hny : 4 ≤ T.ny := by
    rw [e3', e1'] at e5
    by_contra hlt
    have : n * T.ny ≤ n * 3 := Nat.mul_le_mul_left n (by omega)
    omega
  have hnx : 4 ≤ T.nx := by rw [e4', e2', one_mul] at e6; omega
  have i1 : NeZero T.gy := ⟨by omega⟩
  have i2 : NeZero T.gx := ⟨by omega⟩
  exact ⟨T, i1, i2, ht, hT, hny, hnx, flowRod_starts hx hc hy ht hT hny hnx⟩

/-- the driver as called (FPR.py: grid 128 × 256, Reynolds number 200) on 16 ranks -/
example : ∃ T : Cart2, ∃ (_ : NeZero T.gy) (_ : NeZero T.gx), ∃ S : CSt2 T Unit, RodStart2 ⟨75, 128, 256, 200, 1.5e-3, 1.5, 0.5, 0, -8e4, -30, none⟩ 16 16 1
    (RodArgs.body ⟨75, 128, 256, 200, 1.5e-3, 1.5, 0.5, 0, -8e4, -30, none⟩ 0.03 (fun l => l.dedup.filter (· ≠ (0, 0))) fun _ _ => 7)
    (rodNodes2 ⟨75, 128, 256, 200, 1.5e-3, 1.5, 0.5, 0, -8e4, -30, none⟩) S := by
  obtain ⟨T, i1, i2, -, -, -, -, h⟩ := flowRod_default (z := ⟨75, 128, 256, 200, 1.5e-3, 1.5, 0.5, 0, -8e4, -30, none⟩) (n := 16) (lagDx := 0.03)
    (ord := fun l => l.dedup.filter (· ≠ (0, 0))) (junk := fun _ _ => 7) rfl (by norm_num) (by simp) (by norm_num) (by norm_num) (by norm_num)
  exact ⟨T, i1, i2, h⟩

/-- a rod that does not move: it stays inside, and its nodes never change hands -/
example (z : RodArgs) (hx : 16 ≤ z.gx) (hc : 0 ≤ Real.cos z.incline) (hy : 2.01 * |Real.sin z.incline| * z.gx + 31 ≤ 6 * z.gy) :
    StaysInside2 T z K tol lagDx ord junk (⟨fun _ => ⟨fun _ _ m => m, fun _ _ _ m => m + 1, fun _ _ m => m, fun _ => rodNodes2 z, fun _ _ _ => 0⟩, fun _ => 0, fun _ _ => 0⟩ : Mech ℕ) := by
  set M : Mech ℕ := ⟨fun _ => ⟨fun _ _ m => m, fun _ _ _ m => m + 1, fun _ _ m => m, fun _ => rodNodes2 z, fun _ _ _ => 0⟩, fun _ => 0, fun _ _ => 0⟩ with hM
  have hsub : ∀ (P : Params2) (A : Unit → Ib2) (h rt : ℝ) (n : ℕ) (q : RefC2 Unit × ℕ), q.1.lastX () = rodNodes2 z → (refSubs2 P K 0.1 tol A (M.body z.spec) () h rt n q).1.lastX () = rodNodes2 z := by
    intro P A h rt n q hq
    cases n with
    | zero => exact hq
    | succ n => simp only [refSubs2, refSub2, cRef2, refForces2, Function.update_self]; rfl
  have hlast : ∀ n, (flowRodRef z K tol lagDx M n).1.lastX () = rodNodes2 z := by
    intro n
    cases n with
    | zero => rfl
    | succ n => simp only [flowRodRef, refRods2, refRod2, cRef2, refFull2, refForces2, Function.update_self]; rfl
  have hno : ∀ dx, Noticed2 T dx (z.body lagDx ord junk) (rodNodes2 z) (rodNodes2 z) := by
    intro dx l l' h1 h2
    rw [h1] at h2
    exact Or.inl (Except.ok.inj h2).symm
  have h1 := rod_inside hx hc hy lagDx ord junk
  have h0 : Inside2 z.gy z.gx 0 (6 / z.gx) (z.body lagDx ord junk) (rodNodes2 z) := by
    intro i hi G hG
    have := h1 i hi G hG
    unfold Away2 at this ⊢
    push_cast at this ⊢; omega
  exact fun n _ => ⟨fun j _ => ⟨h0, by rw [hsub _ _ _ _ _ _ (hlast _)]; exact hno _⟩, h1, by rw [hsub _ _ _ _ _ _ (hlast _)]; exact hno _⟩

end

end Sopht
