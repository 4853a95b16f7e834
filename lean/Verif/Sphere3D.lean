import Verif.FixedBody3
import Verif.RodDriver3
import Verif.Dims
import Verif.Cylinder2D

/-!
# The flow past a sphere, as a function of the driver's arguments (C116)

`flow_past_sphere_case` (examples/3d_examples/FlowPastSphereCase/flow_past_sphere_case.py, below "FPS.py"): what it computes from its arguments, what it constructs, the loop and
what it records.  Which nodes the forcing grid of the sphere (sopht package) consists of, and how many, is left open: they lie on the sphere.  Plots, files and their formatting are
left out.
-/

namespace Sopht

/-! ## The driver -/

/-- The arguments (FPS.py:14-23): `nondim_time`, `grid_size`, `reynolds`, `coupling_stiffness`, `coupling_damping`, `rank_distribution`. -/
structure SphArgs where
  final : ℝ
  gz : ℕ
  gy : ℕ
  gx : ℕ
  re : ℝ
  stiff : ℝ
  damp : ℝ
  dist : Option (List ℕ)

namespace SphArgs

/-- `far_field_velocity` (FPS.py:33) -/
def speed (_ : SphArgs) : ℝ := 1
/-- `velocity_free_stream` (FPS.py:51) -/
def stream (z : SphArgs) (j : Fin 3) : ℝ := if j = 0 then z.speed else 0
/-- `sphere_diameter` (FPS.py:34); `x_range` is 1. -/
noncomputable def diam (z : SphArgs) : ℝ := 0.4 * min z.gz z.gy / z.gx * 1
/-- `nu` (FPS.py:35) -/
noncomputable def nu (z : SphArgs) : ℝ := z.speed * z.diam / z.re
/-- `drag_force_scale` (FPS.py:46-48); `rho_f` is 1. -/
noncomputable def scale (z : SphArgs) : ℝ := 0.5 * 1 * z.speed ^ 2 * (0.25 * Real.pi * z.diam ^ 2)
/-- `sphere_com` (FPS.py:54-57): x, y, z; the ranges of y and z are those of the simulator (F3D.py:126-127). -/
noncomputable def com (z : SphArgs) (k : ℕ) : ℝ := if k = 0 then 0.25 * 1 else if k = 1 then 0.5 * (1 * z.gy / z.gx) else 0.5 * (1 * z.gz / z.gx)
/-- `timescale` (FPS.py:137) -/
noncomputable def timescale (z : SphArgs) : ℝ := z.diam / z.speed
/-- `t_end` (FPS.py:138-139) -/
noncomputable def tEnd (z : SphArgs) : ℝ := z.final * z.timescale

/-- The arguments of the flow simulator (FPS.py:36-45), given the topology `Compute_dims` returns; filter, ghost size and penalty zone are the defaults (F3D.py:35-38, 88). -/
def sim (z : SphArgs) (pz py px : ℕ) : SimArgs3 := ⟨z.gz, z.gy, z.gx, pz, py, px, "navier_stokes_with_forcing", false, none, true, 2, .int 2⟩

/-- The arguments of the interactor (FPS.py:71-84): master rank 0, defaults otherwise. Number of nodes, their spacing, order of sets and content of uninitialised buffers are what
they are. -/
def body (z : SphArgs) (N : ℕ) (lagDx : ℝ) (ord : List C3 → List C3) (junk : LagField ℝ) : Ib3 :=
  { N, m := (0, 0, 0), ord, junk, stiff := z.stiff, damp := z.damp, lagDx, shift := none, width := none, reset := false, auto := true }

end SphArgs

/-- What is logged and recorded (FPS.py:147-191): time, percentage, greatest vorticity, drag coefficient, norm of the divergence of the vorticity, deviation. Time and drag
coefficient are also appended to the lists `time` and `drag_coeffs`. -/
structure SphLine where
  time : ℝ
  percent : ℝ
  vorticity : ℝ
  drag : ℝ
  divNorm : ℝ
  deviation : ℝ

section
variable {T : Cart3} [NeZero T.gz] [NeZero T.gy] [NeZero T.gx]

/-- Simulator and interactor as constructed (FPS.py:36-84) on `n` ranks: all fields zero, time zero. -/
structure SphStart (z : SphArgs) (n pz py px : ℕ) (a : Ib3) (X : LagField ℝ) (S : CSt3 T Unit) : Prop where
  topo : Topology3 n z.dist (z.sim pz py px)
  cart : simCheck3 (z.sim pz py px) = .ok T
  sim : ∃ dbl0 conv0, S.sim = simInit3 T 1 0 dbl0 conv0
  ib : ibInit3 T 2 (simDx3 T 1) a X 0 = .ok (S.ib ())
  log : S.log = []

/-- A snapshot (FPS.py:147-191), `ol i` the messages of the exchange the divergence needs. -/
noncomputable def sphLook (z : SphArgs) (C : Cfg3) (K : Kern3) (a : Ib3) (ol : ℕ → CScheds3) (i : ℕ) (S : CSt3 T Unit) : CSt3 T Unit × Except PyErr SphLine :=
  let drag := |nodeTotal a.N ((S.ib ()).v.gforce 0)| / z.scale
  match maxVorticity3 C S.sim with
  | .error e => (S, .error e)
  | .ok m => match divNorm3 C K (ol i).div S.sim with
    | (s, .error e) => ({ S with sim := s }, .error e)
    | (s, .ok d) => ({ S with sim := s }, .ok ⟨S.sim.time, S.sim.time / z.tEnd * 100, m, drag, d, gridDeviation 3 (ranks3 T) a.N (S.ib ()).v a.m⟩)

/-- The rest of an iteration (FPS.py:193-199), `o i` its messages; the time step it takes. -/
noncomputable def sphCore (z : SphArgs) (C : Cfg3) (K : Kern3) (tol : ℝ) (a : Ib3) (o : ℕ → ℕ → CScheds3) (X : LagField ℝ) (i : ℕ) (S : CSt3 T Unit) : CSt3 T Unit × Except PyErr ℝ :=
  match stableDt3 C tol 0.5 S.sim with
  | (s, .error e) => ({ S with sim := s }, .error e)
  | (s, .ok dt) => match cRun3 C K tol (fun _ => a) (o i) (.advance () dt (.interact () X (fun _ _ => 0) (.flow dt z.stream .stop))) 0 { S with sim := s } with
    | (S', some e) => (S', .error e)
    | (S', none) => (S', .ok dt)

/-- The loop ends after `N` iterations with the result `r` (FPS.py:137-202): timer and lines besides the state. -/
def SphRuns (z : SphArgs) (C : Cfg3) (K : Kern3) (tol : ℝ) (a : Ib3) (o : ℕ → ℕ → CScheds3) (ol : ℕ → CScheds3) (X : LagField ℝ) (S : CSt3 T Unit) (N : ℕ)
    (r : (CSt3 T Unit × ℝ × List SphLine) × Option PyErr) : Prop :=
  While (fun s => s.1.sim.time < z.tEnd) (lookBody true (z.timescale / 10) (sphLook z C K a ol) (sphCore z C K tol a o X)) 0 (S, 0, []) N r

end

/-! ## Specification: one global grid

A sphere in a stream of velocity 1 along x, on the axis of a domain of length 1, a quarter from its beginning. -/

/-- Its diameter: two fifths of the smaller of the lengths along y and z. -/
noncomputable def sphD (z : SphArgs) : ℝ := 0.4 * (min (z.gz : ℝ) z.gy / z.gx)

/-- Grid, viscosity, penalty zone, free stream; no filter. -/
noncomputable def sphPars (z : SphArgs) : Params3 := ⟨z.gz, z.gy, z.gx, 1, sphD z / z.re, 2, true, none⟩

/-- Flow and body on one global grid after `n` iterations, from rest: each takes the stable time step, moves the clock of the interactor and lets flow and nodes `X`, which stay
where they are, interact. Order of sets, buffers and the rank of the master do not matter there. -/
noncomputable def sphRef (z : SphArgs) (K : Kern3) (tol : ℝ) (N : ℕ) (lagDx : ℝ) (X : LagField ℝ) (n : ℕ) : RefC3 Unit :=
  cRef3 (sphPars z) K 0.1 tol
    (fun _ => { N, m := (0, 0, 0), ord := id, junk := fun _ _ => 0, stiff := z.stiff, damp := z.damp, lagDx, shift := none, width := none, reset := false, auto := true })
    (fixedProg3 () X 0.5 (fun j => if j = 0 then 1 else 0) n .stop) (refStart3 (1 / z.gx) (fun _ => X) (fun _ => 0) 0 (fun _ _ _ => 0) (fun _ _ _ _ => 0) fun _ _ _ _ => 0)

/-- The line of a global state. -/
noncomputable def refSphLine (z : SphArgs) (K : Kern3) (N : ℕ) (r : RefC3 Unit) : SphLine :=
  ⟨r.time, r.time / (z.final * sphD z) * 100, sSup {x | ∃ j G, Dom3 z.gz z.gy z.gx G ∧ x = r.F.om j G},
    |∑ l ∈ Finset.range N, (r.hist ()).F 0 l| / (Real.pi / 8 * sphD z ^ 2), refDiv3 (sphPars z) K r.F.om,
    refDeviation 3 N (r.hist ())⟩

/-- Nodes on the sphere (in a cube around it would do). -/
def OnSphere (z : SphArgs) (N : ℕ) (X : LagField ℝ) : Prop :=
  ∀ i < N, |X 0 i - 1 / 4| ≤ sphD z / 2 ∧ |X 1 i - z.gy / z.gx / 2| ≤ sphD z / 2 ∧ |X 2 i - z.gz / z.gx / 2| ≤ sphD z / 2

theorem SphArgs.diam_eq (z : SphArgs) : z.diam = sphD z := by unfold SphArgs.diam sphD; push_cast; ring
theorem SphArgs.nu_eq (z : SphArgs) : z.nu = sphD z / z.re := by unfold SphArgs.nu SphArgs.speed; rw [z.diam_eq, one_mul]
theorem SphArgs.scale_eq (z : SphArgs) : z.scale = Real.pi / 8 * sphD z ^ 2 := by unfold SphArgs.scale SphArgs.speed; rw [z.diam_eq]; ring
theorem SphArgs.timescale_eq (z : SphArgs) : z.timescale = sphD z := by unfold SphArgs.timescale SphArgs.speed; rw [z.diam_eq, div_one]
theorem SphArgs.tEnd_eq (z : SphArgs) : z.tEnd = z.final * sphD z := by unfold SphArgs.tEnd; rw [z.timescale_eq]
theorem SphArgs.pars_eq (z : SphArgs) : (⟨z.gz, z.gy, z.gx, 1, z.nu, 2, true, none⟩ : Params3) = sphPars z := by unfold sphPars; rw [z.nu_eq]
theorem SphArgs.on_iff (z : SphArgs) (N : ℕ) (X : LagField ℝ) : OnSphere z N X ↔ ∀ i < N, ∀ k < 3, |X k i - z.com k| ≤ z.diam / 2 := by
  have c0 : z.com 0 = 1 / 4 := by simp only [SphArgs.com]; norm_num
  have c1 : z.com 1 = z.gy / z.gx / 2 := by simp only [SphArgs.com]; norm_num; ring
  have c2 : z.com 2 = z.gz / z.gx / 2 := by simp only [SphArgs.com]; norm_num; ring
  constructor
  · intro h i hi k hk
    obtain ⟨a, b, c⟩ := h i hi
    rw [z.diam_eq]
    interval_cases k
    · rw [c0]; exact a
    · rw [c1]; exact b
    · rw [c2]; exact c
  · intro h i hi
    have h0 := h i hi 0 (by norm_num)
    have h1 := h i hi 1 (by norm_num)
    have h2 := h i hi 2 (by norm_num)
    rw [z.diam_eq] at h0 h1 h2
    rw [c0] at h0; rw [c1] at h1; rw [c2] at h2
    exact ⟨h0, h1, h2⟩

/-- The grid is wide enough for the sphere. -/
def SphArgs.Wide (z : SphArgs) : Prop := 9 ≤ min z.gz z.gy ∧ 4 * min z.gz z.gy + 50 < 5 * z.gx

/-! ## The sphere is inside -/

theorem sphere_inside {z : SphArgs} (hw : z.Wide) {N : ℕ} {X : LagField ℝ} (hX : OnSphere z N X) (lagDx : ℝ) (ord : List C3 → List C3)
    (junk : LagField ℝ) : Inside3 z.gz z.gy z.gx 1 (1 / z.gx) (z.body N lagDx ord junk) X := by
  intro i hi G hG
  obtain ⟨w1, w2⟩ := hw
  have q0 := (z.on_iff N X).1 hX i hi 0 (by norm_num)
  have q1 := (z.on_iff N X).1 hX i hi 1 (by norm_num)
  have q2 := (z.on_iff N X).1 hX i hi 2 (by norm_num)
  have hgx : 0 < z.gx := by omega
  have gp : (0 : ℝ) < z.gx := by exact_mod_cast hgx
  have hdx : 0 < 1 / (z.gx : ℝ) := by positivity
  have hs : (z.body N lagDx ord junk).sh (1 / z.gx) = 1 / z.gx / 2 := rfl
  have hd : z.gx * (1 / (z.gx : ℝ)) = 1 := mul_one_div_cancel gp.ne'
  -- in cell widths
  generalize hm : min z.gz z.gy = m at w1 w2
  have hmz : m ≤ z.gz := by omega
  have hmy : m ≤ z.gy := by omega
  have hr : z.diam / 2 = 0.2 * (m * (1 / (z.gx : ℝ))) := by
    unfold SphArgs.diam
    rw [← hm, Nat.cast_min]
    ring
  have c0 : z.com 0 = 0.25 * (z.gx * (1 / (z.gx : ℝ))) := by rw [hd]; simp [SphArgs.com]
  have c1 : z.com 1 = 0.5 * (z.gy * (1 / (z.gx : ℝ))) := by simp only [SphArgs.com]; norm_num; ring
  have c2 : z.com 2 = 0.5 * (z.gz * (1 / (z.gx : ℝ))) := by simp only [SphArgs.com]; norm_num; ring
  rw [hr, c0, abs_le] at q0
  rw [hr, c1, abs_le] at q1
  rw [hr, c2, abs_le] at q2
  have m9 : (9 : ℝ) * (1 / z.gx) ≤ m * (1 / z.gx) := mul_le_mul_of_nonneg_right (by exact_mod_cast w1) hdx.le
  have mz : (m : ℝ) * (1 / z.gx) ≤ z.gz * (1 / z.gx) := mul_le_mul_of_nonneg_right (by exact_mod_cast hmz) hdx.le
  have my : (m : ℝ) * (1 / z.gx) ≤ z.gy * (1 / z.gx) := mul_le_mul_of_nonneg_right (by exact_mod_cast hmy) hdx.le
  have mx : 4 * ((m : ℝ) * (1 / z.gx)) + 50 * (1 / z.gx) < 5 * (z.gx * (1 / z.gx)) := by
    have q : (4 * (m : ℝ) + 50) * (1 / z.gx) < 5 * z.gx * (1 / z.gx) := mul_lt_mul_of_pos_right (by exact_mod_cast w2) hdx
    linarith
  generalize 1 / (z.gx : ℝ) = dx at *
  unfold window3 at hG
  rw [hs, Finset.mem_product, Finset.mem_product] at hG
  obtain ⟨g0, g1, g2⟩ := hG
  obtain ⟨a1, a2⟩ := winCells_inside hdx (n := z.gz) (x := X 2 i) (by linarith) (by linarith) g0
  obtain ⟨b1, b2⟩ := winCells_inside hdx (n := z.gy) (x := X 1 i) (by linarith) (by linarith) g1
  obtain ⟨d1, d2⟩ := winCells_inside hdx (n := z.gx) (x := X 0 i) (by linarith) (by linarith) g2
  exact ⟨⟨a1, a2⟩, ⟨b1, b2⟩, d1, d2⟩

/-! ## Snapshots that write: the states of the loop -/

/-- If `look` and `core` keep an invariant that determines what they return, the loop passes through states with the invariant. -/
theorem look_states {S V E : Type} {Inv : ℕ → S → Prop} {strict : Bool} {limit : ℝ} {look : ℕ → S → S × Except E V} {core : ℕ → S → S × Except E ℝ} {v : ℕ → V} {dt : ℕ → ℝ}
    (hl : ∀ n s, Inv n s → ∃ s', look n s = (s', .ok (v n)) ∧ Inv n s') (hc : ∀ n s, Inv n s → ∃ s', core n s = (s', .ok (dt n)) ∧ Inv (n + 1) s') {s0 : S} (h0 : Inv 0 s0) :
    ∃ it : ℕ → S, it 0 = s0 ∧ ∀ n, Inv n (it n) ∧
      lookBody strict limit look core n (it n, snapSeq strict limit v dt n) = ((it (n + 1), snapSeq strict limit v dt (n + 1)), none) := by
  have hnext : ∀ n s, Inv n s → ∃ s', lookBody strict limit look core n (s, snapSeq strict limit v dt n) = ((s', snapSeq strict limit v dt (n + 1)), none) ∧ Inv (n + 1) s' := by
    intro n s hs
    obtain ⟨s1, a1, a2⟩ := hl n s hs
    obtain ⟨s2, b1, b2⟩ := hc n s1 a2
    obtain ⟨s3, c1, c2⟩ := hc n s hs
    unfold lookBody coreBody
    simp only [snapSeq, a1, b1, c1]
    by_cases hd : Due strict limit (snapSeq strict limit v dt n).1 ∨ (snapSeq strict limit v dt n).1 = 0
    · simp only [if_pos hd]
      exact ⟨s2, rfl, b2⟩
    · simp only [if_neg hd]
      exact ⟨s3, rfl, c2⟩
  let f : ℕ → S := fun n => Nat.rec s0 (fun n x => (lookBody strict limit look core n (x, snapSeq strict limit v dt n)).1.1) n
  have key : ∀ n, Inv n (f n) := by
    intro n
    induction n with
    | zero => exact h0
    | succ n ih =>
      obtain ⟨s', q1, q2⟩ := hnext n (f n) ih
      have : f (n + 1) = s' := congrArg (fun r : (S × ℝ × List V) × Option E => r.1.1) q1
      rw [this]; exact q2
  refine ⟨f, rfl, fun n => ⟨key n, ?_⟩⟩
  obtain ⟨s', q1, -⟩ := hnext n (f n) (key n)
  have e : f (n + 1) = s' := congrArg (fun r : (S × ℝ × List V) × Option E => r.1.1) q1
  rw [e]; exact q1

/-! ## Construction -/

section
variable {T : Cart3} [NeZero T.gz] [NeZero T.gy] [NeZero T.gx] {z : SphArgs} {n pz py px : ℕ} {K : Kern3} {tol lagDx : ℝ} {M : ℕ} {ord : List C3 → List C3} {junk X : LagField ℝ}
  {o : ℕ → ℕ → CScheds3} {ol : ℕ → CScheds3}

omit [NeZero T.gz] [NeZero T.gy] [NeZero T.gx] in
theorem sph_fit (hT : simCheck3 (z.sim pz py px) = .ok T) (hE : EvenTopo3 T) (hnz : 2 ≤ T.nz) (hny : 2 ≤ T.ny) (hnx : 2 ≤ T.nx) : Fit3 (z.sim pz py px) T := by
  refine ⟨hT, (by intro h; cases h), fun _ => ⟨⟨hnz, hny, hnx⟩, ⟨hnz, hny, hnx⟩, ⟨2, rfl, by norm_num, hnz, hny, hnx⟩, hE, ?_⟩⟩
  intro o ty hf
  simp [filterInUse, SphArgs.sim] at hf

/-- **C116** Simulator and interactor can be constructed. -/
theorem sphere3_starts (hw : z.Wide) (htopo : Topology3 n z.dist (z.sim pz py px)) (hT : simCheck3 (z.sim pz py px) = .ok T)
    (hnz : 2 ≤ T.nz) (hny : 2 ≤ T.ny) (hnx : 2 ≤ T.nx) (hX : OnSphere z M X) : ∃ S : CSt3 T Unit, SphStart z n pz py px (z.body M lagDx ord junk) X S := by
  obtain ⟨hc, -⟩ := simCheck3_cart hT
  obtain ⟨-, -, e2, -⟩ := construct3_ok hc
  have hgp : (0 : ℝ) < z.gx := by
    obtain ⟨w1, w2⟩ := hw
    exact_mod_cast (by omega : 0 < z.gx)
  have hd : simDx3 T 1 = 1 / z.gx := by unfold simDx3; rw [e2]; rfl
  obtain ⟨s, hs⟩ := (ibInit3_ok_iff hc (by omega) (by omega) (by omega) (dx := 1 / (z.gx : ℝ)) (by positivity) (g := 2) (k := 1) (sphere_inside hw hX lagDx ord junk) 0).2 ⟨rfl, le_refl _⟩
  exact ⟨⟨simInit3 T 1 0 (fun _ _ => 0) (fun _ => 0), fun _ => s, []⟩, htopo, hT, ⟨_, _, rfl⟩, by rw [hd]; exact hs, rfl⟩

theorem SphStart.fixed (hre : 0 < z.re) (hw : z.Wide) (hE : EvenTopo3 T) (hnz : 2 ≤ T.nz) (hny : 2 ≤ T.ny) (hnx : 2 ≤ T.nx) (hX : OnSphere z M X)
    (hord : ∀ l, SlaveSet l (0, 0, 0) (ord l)) (htol : 0 < tol) (hK : K.Local) (hKd : ∀ a, CrossLocal3 1 (K.div a)) (hK0 : ∀ r, K.upd r (fun _ _ => 0) = 0)
    (ho : ∀ n, (o 0 n).Done T 2) {S : CSt3 T Unit} (hS : SphStart z n pz py px (z.body M lagDx ord junk) X S) :
    Fixed3 (z.sim pz py px) 1 z.nu 0.1 tol K (fun _ => z.body M lagDx ord junk) (fun _ => X) (fun _ => 0) 0 (fun _ _ _ => 0) (fun _ _ _ _ => 0) (fun _ _ _ _ => 0) S (o 0) () := by
  have hin := sphere_inside hw hX lagDx ord junk
  have hin0 : Inside3 z.gz z.gy z.gx 0 (1 / z.gx) (z.body M lagDx ord junk) X := by
    intro i hi G hG
    have q := hin i hi G hG
    unfold Away3 at q ⊢
    push_cast at q ⊢; omega
  refine ⟨⟨sph_fit hS.cart hE hnz hny hnx, rfl, fun _ => hord, fun _ => hin0, fun _ => hS.ib, ?_, hS.log⟩, hin, rfl, ho, one_pos, ?_, by norm_num, htol, hK, hKd, hK0⟩
  · obtain ⟨dbl0, conv0, e⟩ := hS.sim
    exact ⟨dbl0, conv0, e⟩
  · unfold SphArgs.nu SphArgs.diam SphArgs.speed
    positivity

/-! ## The run -/

theorem sphLook_holds {gz gy gx : ℕ} {C : Cfg3} {a : Ib3} (hR : Ready3 gz gy gx pz py px T C K tol (fun _ : Unit => a)) (hol : ∀ n, (ol n).Done T C.g) (i : ℕ) {r : RefC3 Unit} {S : CSt3 T Unit}
    (hr : CHolds3 gz gy gx C (fun _ => a) r S) : ∃ S', sphLook z C K a ol i S = (S', .ok ⟨r.time, r.time / z.tEnd * 100, maxCell3 gz gy gx r.F.om,
      |∑ l ∈ Finset.range a.N, (r.hist ()).F 0 l| / z.scale, refDiv3 (C.params gz gy gx) K r.F.om, refDeviation 3 a.N (r.hist ())⟩) ∧ CHolds3 gz gy gx C (fun _ => a) r S' := by
  obtain ⟨S', q1, q2⟩ := rodLook3_holds (σ := Unit) (b := ()) hR hol (fun _ => ()) i (q := (r, ())) hr
  have hforce : nodeTotal a.N ((S.ib ()).v.gforce 0) = ∑ l ∈ Finset.range a.N, (r.hist ()).F 0 l :=
    Finset.sum_congr rfl fun l hl => (hr.ib ()).stores.force 0 (by norm_num [Ib3.vbf]) l (Finset.mem_range.1 hl)
  refine ⟨S', ?_, q2⟩
  unfold rodLook3 refLog3 at q1
  unfold sphLook
  dsimp only at q1 ⊢
  rw [hforce]
  split at q1
  · simp at q1
  · rename_i m hm
    rw [hm]
    dsimp only
    split at q1
    · simp at q1
    · rename_i s d hd
      rw [hd]
      dsimp only
      simp only [Prod.mk.injEq, Except.ok.injEq, RodLog.mk.injEq] at q1
      obtain ⟨⟨e1, -⟩, e2, e3, -, e4, e5, -⟩ := q1
      rw [e1, e2, e3, e4, e5]
      rfl

theorem sphCore_holds {gz gy gx : ℕ} {C : Cfg3} {a : Ib3} (hR : Ready3 gz gy gx pz py px T C K tol (fun _ : Unit => a)) (ho : ∀ i n, (o i n).Done T C.g) (hauto : a.auto = true) (i : ℕ)
    {r : RefC3 Unit} {S : CSt3 T Unit} (hr : CHolds3 gz gy gx C (fun _ => a) r S) (hin : Inside3 gz gy gx 1 (C.params gz gy gx).dx a X) (hl : r.lastX = fun _ => X) :
    ∃ S', sphCore z C K tol a o X i S = (S', .ok (refDt3 (C.params gz gy gx) C.cfl tol r.F (.stable 0.5))) ∧
      CHolds3 gz gy gx C (fun _ => a) (cRef3 (C.params gz gy gx) K C.cfl tol (fun _ => a) (fixedProg3 () X 0.5 z.stream 1 .stop) r) S' := by
  obtain ⟨a1, a2, a3⟩ := pickDt3_holds hR.cart hR.good.g hR.cfl.le hR.xr hR.nu hR.tol hr.sim (.stable 0.5)
  have hst : ∃ s1 : Sim3 T, stableDt3 C tol 0.5 S.sim = (s1, .ok (refDt3 (C.params gz gy gx) C.cfl tol r.F (.stable 0.5))) ∧ s1 = { S.sim with
      buf := (stableDt3 C tol 0.5 S.sim).1.buf } := by
    refine ⟨_, ?_, rfl⟩
    unfold pickDt3 at a1
    simp only at a1
    rw [← a1]; rfl
  obtain ⟨s1, hst, hs1⟩ := hst
  have hr' : CHolds3 gz gy gx C (fun _ => a) r { S with
      sim := s1 } := by
    subst hs1
    exact ⟨⟨hr.sim.sc, hr.sim.om, hr.sim.u, hr.sim.green⟩, hr.time, hr.force, hr.conf, hr.fresh, hr.ib, hr.log⟩
  obtain ⟨S2, c1, c2⟩ := hR.run (ho i) (.advance () (refDt3 (C.params gz gy gx) C.cfl tol r.F (.stable 0.5)) (.interact () X (fun _ _ => 0)
    (.flow (refDt3 (C.params gz gy gx) C.cfl tol r.F (.stable 0.5)) z.stream .stop))) 0 hr' ⟨hin, .inl hauto, trivial⟩
    (tracked3_still _ _ _ _ _ (fun _ : Unit => X) _ (show Still3 (fun _ : Unit => X) (.advance () _ (.interact () X _ (.flow _ z.stream .stop))) from ⟨rfl, trivial⟩) _ hl)
  refine ⟨S2, ?_, c2⟩
  unfold sphCore
  rw [hst]
  dsimp only
  rw [c1]

/-- **C116** The driver with any of its arguments: a grid wide enough for the sphere, any decomposition the Poisson solver accepts with blocks of at least 2 cells a side.  The
`i`-th iteration begins at the time `t i` of the run on one global grid.  If the loop ends it ends without exception, in the first iteration that would begin at the final time or
later; the lines logged (and the drag coefficients in them) are those of the global run, in the iterations when they are due; the fields on all ranks are those of the global
run. If velocities stay bounded it ends. -/
theorem sphere3_run (hre : 0 < z.re) (hw : z.Wide) (hE : EvenTopo3 T) (hnz : 2 ≤ T.nz) (hny : 2 ≤ T.ny) (hnx : 2 ≤ T.nx) (hX : OnSphere z M X)
    (hord : ∀ l, SlaveSet l (0, 0, 0) (ord l)) (htol : 0 < tol) (hK : K.Local) (hKd : ∀ a, CrossLocal3 1 (K.div a)) (hK0 : ∀ r, K.upd r (fun _ _ => 0) = 0)
    {C : Cfg3} (hC : C = simCfg3 (z.sim pz py px) 1 z.nu 0.1) (ho : ∀ i n, (o i n).Done T 2) (hol : ∀ n, (ol n).Done T 2)
    {S : CSt3 T Unit} (hS : SphStart z n pz py px (z.body M lagDx ord junk) X S) {ref : ℕ → RefC3 Unit} (href : ref = sphRef z K tol M lagDx X)
    {t : ℕ → ℝ} (ht : t = fun i => (ref i).time) :
    (∀ N r, SphRuns z C K tol (z.body M lagDx ord junk) o ol X S N r → (∀ i < N, t i < z.final * sphD z) ∧ z.final * sphD z ≤ t N ∧ ∃ S' foto lines,
      r = ((S', foto, lines.map fun i => refSphLine z K M (ref i)), none) ∧ Snapshots true (sphD z / 10) t N lines ∧
      S'.sim.time = t N ∧ ∀ c p, Valid3 T c → Inner3 T ((2 : ℕ) : ℤ) p → ∀ j,
        S'.sim.om j c p = (ref N).F.om j (globalIx3 T ((2 : ℕ) : ℤ) c p) ∧ S'.sim.vel j c p = (ref N).F.u j (globalIx3 T ((2 : ℕ) : ℤ) c p)) ∧
    ∀ V, (∀ i G, t i < z.final * sphD z → Dom3 z.gz z.gy z.gx G → |(ref i).F.u 0 G| + |(ref i).F.u 1 G| + |(ref i).F.u 2 G| ≤ V) →
      ∃ N ≤ ⌈z.final * sphD z / leastDt 6 0.1 tol (1 / z.gx) (sphD z / z.re + tol) 0.5 V⌉₊, ∃ r, SphRuns z C K tol (z.body M lagDx ord junk) o ol X S N r := by
  subst hC
  rw [← z.nu_eq, ← z.tEnd_eq]
  have h := hS.fixed (o := o) hre hw hE hnz hny hnx hX hord htol hK hKd hK0 (ho 0)
  obtain ⟨hT, -⟩ := simCheck3_cart h.setup.fit.built
  obtain ⟨e0, e1, e2, -⟩ := construct3_ok hT
  have hgz0 : 0 < z.gz := by rw [← show T.gz = z.gz from e0]; exact Nat.pos_of_ne_zero (NeZero.ne _)
  have hgy0 : 0 < z.gy := by rw [← show T.gy = z.gy from e1]; exact Nat.pos_of_ne_zero (NeZero.ne _)
  have hgx0 : 0 < z.gx := by rw [← show T.gx = z.gx from e2]; exact Nat.pos_of_ne_zero (NeZero.ne _)
  set C := simCfg3 (z.sim pz py px) 1 z.nu 0.1 with hC
  set a := z.body M lagDx ord junk with ha
  obtain ⟨-, q2, q3⟩ := coupled3_holds h.xr h.nu h.cfl.le h.tol h.kern h.kdiv h.zero h.setup (ho 0) .stop trivial trivial
  have hR : Ready3 z.gz z.gy z.gx pz py px T C K tol (fun _ : Unit => a) :=
    ⟨hT, h.setup.fit.good 1 z.nu 0.1 rfl, rfl, one_pos, h.cfl, h.nu, htol, hK, hKd, hK0, fun b => (q3 b).1, fun b => (q3 b).2⟩
  -- the run on the global grid
  have hpar : C.params z.gz z.gy z.gx = sphPars z := z.pars_eq
  have hsame : ∀ i, ref i = cRef3 (sphPars z) K 0.1 tol (fun _ => a) (fixedProg3 () X 0.5 z.stream i .stop)
      (refStart3 (1 / z.gx) (fun _ => X) (fun _ => 0) 0 (fun _ _ _ => 0) (fun _ _ _ _ => 0) fun _ _ _ _ => 0) := by
    intro i
    rw [href]
    unfold sphRef
    exact ((same_bodies3 (A := fun _ : Unit => z.body M lagDx id fun _ _ => 0) (A' := fun _ : Unit => a) (fun _ => rfl) (sphPars z) K 0.1 tol T
      (fixedProg3 () X 0.5 z.stream i .stop) _).1).symm
  have hsucc : ∀ i, ref (i + 1) = cRef3 (sphPars z) K 0.1 tol (fun _ => a) (fixedProg3 () X 0.5 z.stream 1 .stop) (ref i) := by
    intro i
    rw [hsame, hsame, fixedProg3_add, cRef3_fixed]
  have hlast : ∀ i, (ref i).lastX = fun _ => X := by
    intro i
    rw [hsame]
    exact fixed_lastX3 (b := ()) (X0 := fun _ : Unit => X) rfl i
  set dt := fun i => refDt3 (sphPars z) 0.1 tol (ref i).F (.stable 0.5) with hdt
  have hstep : ∀ i, t (i + 1) = t i + dt i := by
    intro i
    rw [ht]
    change (ref (i + 1)).time = _
    rw [hsucc]
    rfl
  have hmax : ∀ i, 0 ≤ maxVel3 z.gz z.gy z.gx (ref i).F.u := fun i => by
    obtain ⟨⟨G, hG, hGe⟩, -⟩ := maxVel3_greatest hgz0 hgy0 hgx0 (ref i).F.u
    rw [hGe]; positivity
  have hne : z.nu + tol ≠ 0 := (add_pos_of_nonneg_of_pos h.nu htol).ne'
  have hval : ∀ i, dt i = leastDt 6 0.1 tol (1 / z.gx) (z.nu + tol) 0.5 (maxVel3 z.gz z.gy z.gx (ref i).F.u) := fun i => by
    unfold leastDt
    rw [if_neg hne, hdt, ← hpar]
    rfl
  have hdx : 0 < 1 / (z.gx : ℝ) := by
    have : (0 : ℝ) < z.gx := by exact_mod_cast hgx0
    positivity
  have hnu' : 0 ≤ z.nu + tol := add_nonneg h.nu htol.le
  have hpre : (0 : ℝ) < 0.5 := by norm_num
  have hpos : ∀ i, 0 < dt i := fun i => by
    rw [hval]
    exact leastDt_pos (d := 6) (by norm_num) h.cfl htol hdx hnu' hpre (hmax i)
  -- the states of the loop
  obtain ⟨it, i0, hit⟩ := look_states (Inv := fun i (s : CSt3 T Unit) => CHolds3 z.gz z.gy z.gx C (fun _ => a) (ref i) s) (strict := true) (limit := z.timescale / 10)
    (look := sphLook z C K a ol) (core := sphCore z C K tol a o X) (v := fun i => refSphLine z K M (ref i)) (dt := dt)
    (fun i s hs => by
      obtain ⟨S', p1, p2⟩ := sphLook_holds (z := z) hR hol i hs
      rw [hpar, z.tEnd_eq, z.scale_eq] at p1
      exact ⟨S', p1, p2⟩)
    (fun i s hs => by
      obtain ⟨S', p1, p2⟩ := sphCore_holds (z := z) hR ho rfl i hs h.inside (hlast i)
      rw [hpar] at p1 p2
      refine ⟨S', p1, ?_⟩
      rw [hsucc]
      exact p2)
    (s0 := S) (by rw [hsame]; exact q2)
  have hhold : ∀ i, CHolds3 z.gz z.gy z.gx C (fun _ => a) (ref i) (it i) := fun i => (hit i).1
  have htime : ∀ i, (it i).sim.time = t i := fun i => by rw [ht]; exact (hhold i).time
  refine ⟨?_, ?_⟩
  · intro N r hr
    obtain ⟨-, w2, w3, w4⟩ := hr.states (it := fun i => (it i, snapSeq true (z.timescale / 10) (fun i => refSphLine z K M (ref i)) dt i)) (by rw [i0]; rfl) (fun i => (hit i).2)
    obtain ⟨lines, p1, p2, -⟩ := snapSeq_spec (strict := true) (limit := z.timescale / 10) (t := t) (v := fun i => refSphLine z K M (ref i)) hpos hstep N
    rw [← z.timescale_eq]
    refine ⟨fun i hi => by rw [← htime]; exact w2 i (Nat.zero_le _) hi, by rw [← htime]; exact not_lt.1 w3, it N,
      (snapSeq true (z.timescale / 10) (fun i => refSphLine z K M (ref i)) dt N).1, lines, ?_, p1, htime N, ?_⟩
    · rw [w4, ← p2]
    · intro c p hc hp j
      exact ⟨(hhold N).sim.om j c p hc (inArr_of_inner3 hp) (Or.inl hp), (hhold N).sim.u j c p hc (inArr_of_inner3 hp) (Or.inl hp)⟩
  · intro V hV
    have hl : ∀ i, t i < z.tEnd → t i + leastDt 6 0.1 tol (1 / z.gx) (z.nu + tol) 0.5 V ≤ t (i + 1) ∧ 0 < leastDt 6 0.1 tol (1 / z.gx) (z.nu + tol) 0.5 V := by
      intro i hi
      obtain ⟨⟨G, hG, hGe⟩, -⟩ := maxVel3_greatest hgz0 hgy0 hgx0 (ref i).F.u
      have hMV : maxVel3 z.gz z.gy z.gx (ref i).F.u ≤ V := by rw [hGe]; exact hV i G hi hG
      refine ⟨?_, leastDt_pos (by norm_num) h.cfl htol hdx hnu' hpre ((hmax i).trans hMV)⟩
      rw [hstep]
      have q := leastDt_mono (d := 6) (nu := z.nu + tol) h.cfl htol hdx hpre (hmax i) hMV
      have q' := hval i
      linarith
    obtain ⟨N, hN, hEn, hB⟩ := clock_reaches (t := t) z.tEnd hl
    have ht0 : t 0 = 0 := by rw [ht, href]; rfl
    rw [ht0, sub_zero] at hN
    have q := While.of_states (cond := fun s : CSt3 T Unit × ℝ × List SphLine => s.1.sim.time < z.tEnd) (it := fun i => (it i, snapSeq true (z.timescale / 10) (fun i => refSphLine z K M (ref i)) dt i)) (Nat.zero_le N)
      (fun i _ hi => by change (it i).sim.time < z.tEnd; rw [htime]; exact hB i hi) (fun i _ _ => (hit i).2) (by change ¬ (it N).sim.time < z.tEnd; rw [htime]; exact not_lt.2 hEn)
    rw [i0] at q
    exact ⟨N, hN, _, q⟩

/-- **C116** On two decompositions the driver reports the same. -/
theorem sphere3_same {T' : Cart3} [NeZero T'.gz] [NeZero T'.gy] [NeZero T'.gx] {n' pz' py' px' : ℕ} {ord' : List C3 → List C3} {junk' : LagField ℝ} {o' : ℕ → ℕ → CScheds3} {ol' : ℕ → CScheds3}
    (hre : 0 < z.re) (hw : z.Wide) (hX : OnSphere z M X) (htol : 0 < tol) (hK : K.Local) (hKd : ∀ a, CrossLocal3 1 (K.div a)) (hK0 : ∀ r, K.upd r (fun _ _ => 0) = 0)
    (hE : EvenTopo3 T) (hnz : 2 ≤ T.nz) (hny : 2 ≤ T.ny) (hnx : 2 ≤ T.nx) (hord : ∀ l, SlaveSet l (0, 0, 0) (ord l))
    (hE' : EvenTopo3 T') (hnz' : 2 ≤ T'.nz) (hny' : 2 ≤ T'.ny) (hnx' : 2 ≤ T'.nx) (hord' : ∀ l, SlaveSet l (0, 0, 0) (ord' l))
    (ho : ∀ i n, (o i n).Done T 2) (hol : ∀ n, (ol n).Done T 2) (ho' : ∀ i n, (o' i n).Done T' 2) (hol' : ∀ n, (ol' n).Done T' 2)
    {S : CSt3 T Unit} (hS : SphStart z n pz py px (z.body M lagDx ord junk) X S) {S' : CSt3 T' Unit} (hS' : SphStart z n' pz' py' px' (z.body M lagDx ord' junk') X S')
    {N N' : ℕ} {r : (CSt3 T Unit × ℝ × List SphLine) × Option PyErr} {r' : (CSt3 T' Unit × ℝ × List SphLine) × Option PyErr}
    (hr : SphRuns z (simCfg3 (z.sim pz py px) 1 z.nu 0.1) K tol (z.body M lagDx ord junk) o ol X S N r)
    (hr' : SphRuns z (simCfg3 (z.sim pz' py' px') 1 z.nu 0.1) K tol (z.body M lagDx ord' junk') o' ol' X S' N' r') :
    N = N' ∧ r.2 = none ∧ r'.2 = none ∧ r.1.2.2 = r'.1.2.2 ∧ r.1.1.sim.time = r'.1.1.sim.time ∧
      ∀ c p c' p', Valid3 T c → Inner3 T ((2 : ℕ) : ℤ) p → Valid3 T' c' → Inner3 T' ((2 : ℕ) : ℤ) p' → globalIx3 T ((2 : ℕ) : ℤ) c p = globalIx3 T' ((2 : ℕ) : ℤ) c' p' →
        ∀ j, r.1.1.sim.om j c p = r'.1.1.sim.om j c' p' ∧ r.1.1.sim.vel j c p = r'.1.1.sim.vel j c' p' := by
  obtain ⟨a1, a2, R, f, l, rfl, a3, a5, a6⟩ := (sphere3_run hre hw hE hnz hny hnx hX hord htol hK hKd hK0 rfl ho hol hS rfl rfl).1 N r hr
  obtain ⟨b1, b2, R', f', l', rfl, b3, b5, b6⟩ := (sphere3_run hre hw hE' hnz' hny' hnx' hX hord' htol hK hKd hK0 rfl ho' hol' hS' rfl rfl).1 N' r' hr'
  have e : N = N' := by
    rcases lt_trichotomy N N' with h | h | h
    · exact absurd (b1 N h) (not_lt.2 a2)
    · exact h
    · exact absurd (a1 N' h) (not_lt.2 b2)
  subst e
  obtain rfl := a3.unique b3
  refine ⟨rfl, rfl, rfl, rfl, a5.trans b5.symm, fun c p c' p' hc hp hc' hp' hg j => ?_⟩
  obtain ⟨u1, u2⟩ := a6 c p hc hp j
  obtain ⟨v1, v2⟩ := b6 c' p' hc' hp' j
  exact ⟨u1.trans ((congrArg _ hg).trans v1.symm), u2.trans ((congrArg _ hg).trans v2.symm)⟩

/-! ## Examples -/

/-- **C116** Without `rank_distribution`: whatever topology without a cut along x MPI chooses, if it divides the grid into blocks of at least 2 cells a side, the driver starts. -/
theorem sphere3_default (hd : z.dist = none) (hw : z.Wide) (hn : pz * py = n) (hpp : py ≤ pz) (hz : pz ∣ z.gz) (hy : py ∣ z.gy) (h2z : 2 * pz ≤ z.gz) (h2y : 2 * py ≤ z.gy) :
    ∃ T : Cart3, ∃ (_ : NeZero T.gz) (_ : NeZero T.gy) (_ : NeZero T.gx), T.pz = pz ∧ T.py = py ∧ T.px = 1 ∧ simCheck3 (z.sim pz py 1) = .ok T ∧ 2 ≤ T.nz ∧ 2 ≤ T.ny ∧ 2 ≤ T.nx ∧
      ∀ M X, OnSphere z M X → ∃ S : CSt3 T Unit, SphStart z n pz py 1 (z.body M lagDx ord junk) X S := by
  have ht : Topology3 n z.dist (z.sim pz py 1) := by rw [hd]; exact (topology3_default n _).2 ⟨rfl, hn, hpp⟩
  obtain ⟨T, hT⟩ := (simCheck3_ok_iff (z.sim pz py 1)).2 ⟨⟨Nat.mod_eq_zero_of_dvd hz, Nat.mod_eq_zero_of_dvd hy, Nat.mod_one _⟩,
    Or.inr ⟨Or.inr rfl, by change 1 ≤ 2; norm_num, Or.inr (Or.inr rfl), ⟨2, rfl⟩, by intro h; cases h⟩⟩
  obtain ⟨hc, -⟩ := simCheck3_cart hT
  obtain ⟨e0, e1, e2, e3, e4, e5, -, e6, e7, e8⟩ := construct3_ok hc
  have e0' : T.gz = z.gz := e0
  have e1' : T.gy = z.gy := e1
  have e2' : T.gx = z.gx := e2
  have e3' : T.pz = pz := e3
  have e4' : T.py = py := e4
  have e5' : T.px = 1 := e5
  obtain ⟨w1, w2⟩ := id hw
  have hnz : 2 ≤ T.nz := by
    rw [e3', e0'] at e6
    by_contra hlt
    have : pz * T.nz ≤ pz * 1 := Nat.mul_le_mul_left pz (by omega)
    omega
  have hny : 2 ≤ T.ny := by
    rw [e4', e1'] at e7
    by_contra hlt
    have : py * T.ny ≤ py * 1 := Nat.mul_le_mul_left py (by omega)
    omega
  have hnx : 2 ≤ T.nx := by rw [e5', e2', one_mul] at e8; omega
  have i0 : NeZero T.gz := ⟨by omega⟩
  have i1 : NeZero T.gy := ⟨by omega⟩
  have i2 : NeZero T.gx := ⟨by omega⟩
  exact ⟨T, i0, i1, i2, e3', e4', e5', hT, hnz, hny, hnx, fun M X hX => sphere3_starts hw ht hT hnz hny hnx hX⟩

/-- the poles of a sphere are on it -/
example (z : SphArgs) : OnSphere z 2 fun k i => if k = 0 then (if i = 0 then z.com 0 - z.diam / 2 else z.com 0 + z.diam / 2) else z.com k := by
  refine (z.on_iff _ _).2 ?_
  have hd : 0 ≤ z.diam / 2 := by unfold SphArgs.diam; positivity
  intro i _ k _
  by_cases hk : k = 0
  · subst hk
    by_cases hi : i = 0
    · simp [hi, abs_of_nonneg hd]
    · simp [hi, abs_of_nonneg hd]
  · simp [hk, hd]

/-- the driver as called (FPS.py:244-258: grid 64 × 64 × 128, Reynolds number 100) on 4 ranks -/
example : ∃ T : Cart3, ∃ (_ : NeZero T.gz) (_ : NeZero T.gy) (_ : NeZero T.gx), EvenTopo3 T ∧ ∀ M X, OnSphere ⟨10, 64, 64, 128, 100, -6e5 / 4, -3.5e2 / 4, none⟩ M X → ∃ S : CSt3 T Unit,
    SphStart ⟨10, 64, 64, 128, 100, -6e5 / 4, -3.5e2 / 4, none⟩ 4 2 2 1
      (SphArgs.body ⟨10, 64, 64, 128, 100, -6e5 / 4, -3.5e2 / 4, none⟩ M 0.003 (fun l => l.dedup.filter (· ≠ (0, 0, 0))) fun _ _ => 7) X S := by
  obtain ⟨T, i0, i1, i2, h1, h2, h3, -, -, -, -, h⟩ := sphere3_default (z := ⟨10, 64, 64, 128, 100, -6e5 / 4, -3.5e2 / 4, none⟩) (n := 4) (pz := 2) (py := 2) (lagDx := 0.003)
    (ord := fun l => l.dedup.filter (· ≠ (0, 0, 0))) (junk := fun _ _ => 7) rfl (by unfold SphArgs.Wide; decide) rfl le_rfl (by norm_num) (by norm_num) (by norm_num) (by norm_num)
  exact ⟨T, i0, i1, i2, by unfold EvenTopo3; omega, h⟩

end

end Sopht
