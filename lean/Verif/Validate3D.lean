import Verif.Validate2D
import Verif.TimeLoop3
import Verif.Restart3D
import Verif.Conserve3DProps

/-!
# The point source driver, end to end

examples/3d_examples/PointSourceAdvectAndDiffuseCase/point_source_advection_diffusion.py, all of `point_source_advection_diffusion_case`.  The constants at its top are arguments
here.  Origin and spacing given to the file (`io_origin`, `io_dx`) are arbitrary here; `Origin` has what the driver computes.
-/

namespace Sopht

/-- Arguments and constants of the driver (point_source_advection_diffusion.py:11-16, 27-33, 44-48, 65), and of the simulator (`CFL`, the tolerance of the precision). -/
structure PointArgs where
  gz : ℕ
  gy : ℕ
  gx : ℕ
  pz : ℕ
  py : ℕ
  px : ℕ
  xr : ℝ
  nu : ℝ
  cfl : ℝ
  tol : ℝ
  x0 : ℝ
  y0 : ℝ
  z0 : ℝ
  tStart : ℝ
  tEnd : ℝ
  mag : ℝ
  U : ℝ
  saveData : Bool
  origin : List ℚ
  dx : List ℚ

/-- The arguments of the constructor (point_source_advection_diffusion.py:35-43): defaults otherwise. -/
def PointArgs.sim (L : PointArgs) : SimArgs3 := ⟨L.gz, L.gy, L.gx, L.pz, L.py, L.px, "passive_vector", false, none, false, 2, .int 2⟩

/-- `vorticity_field[i] = compute_diffused_point_source_field(..., t=t_start)`, the same for the three components (point_source_advection_diffusion.py:50-62). -/
noncomputable def PointArgs.om0 (L : PointArgs) (_ : Fin 3) (x y z : ℝ) : ℝ := pointSource x y z L.x0 L.y0 L.z0 L.nu L.mag L.tStart

/-- `flow_sim.velocity_field[...] = velocity_free_stream` (point_source_advection_diffusion.py:65-66). -/
def PointArgs.u0 (L : PointArgs) (_ : Fin 3) (_ _ _ : ℝ) : ℝ := L.U

/-- the state before the loop; `dbl0`, `conv0`: contents of fresh arrays (a passive flow has no Poisson solver) -/
noncomputable def PointArgs.init (L : PointArgs) (T : Cart3) [NeZero T.gz] [NeZero T.gy] [NeZero T.gx] (dbl0 : World C3 C3 ℝ) (conv0 : Dbl3 T → ℂ) : Sim3 T :=
  initFrom3 T 2 L.xr L.tStart dbl0 conv0 (fun _ _ _ => 0) L.om0 L.u0

/-- `foto_timer_limit` (point_source_advection_diffusion.py:110). -/
noncomputable def PointArgs.limit (L : PointArgs) : ℝ := (L.tEnd - L.tStart) / 20

/-- `x_cm_final`, `y_cm_final`, `z_cm_final` (point_source_advection_diffusion.py:144-147), `t` the time at the end. -/
noncomputable def PointArgs.centre (L : PointArgs) (t : ℝ) : ℝ × ℝ × ℝ := (L.x0 + L.U * (t - L.tStart), L.y0 + L.U * (t - L.tStart), L.z0 + L.U * (t - L.tStart))

/-- `final_analytical_vorticity_field` (point_source_advection_diffusion.py:148-161): the centre is that at the end, but `t=t_start`. -/
noncomputable def PointArgs.omEnd (L : PointArgs) (t : ℝ) (_ : Fin 3) (x y z : ℝ) : ℝ :=
  pointSource x y z (L.centre t).1 (L.centre t).2.1 (L.centre t).2.2 L.nu L.mag L.tStart

/-- What the driver logs: time and `max_vort` of each snapshot (point_source_advection_diffusion.py:125-128), the centre and the errors (172-176). -/
structure PointOut where
  log : List (ℝ × Except PyErr ℝ)
  time : ℝ
  centre : ℝ × ℝ × ℝ
  l2 : ℝ
  linf : ℝ

/-- name of a data file (point_source_advection_diffusion.py:131-133) -/
noncomputable def pointFile (time : ℝ) : String := String.ofList (fileName "sopht_".toList ".h5".toList 4 time)

section
variable {T : Cart3}

/-- `io.define_eulerian_grid(...)`, `io.add_as_eulerian_fields_for_io(vorticity=vorticity_field)` (point_source_advection_diffusion.py:97-107). -/
noncomputable def pointIO (L : PointArgs) (S : Sim3 T) : MPIIO × Except PyErr Unit :=
  addEulerian (ioGeo3 T 2) (simHeap3 2 S) (defineEulerianGrid {} L.origin L.dx [L.gz, L.gy, L.gx]) [("vorticity", 0)]

/-- `io.save(h5_file_name=..., time=flow_sim.time)` (point_source_advection_diffusion.py:129-135), `S0` the state at which the io object was set up. -/
noncomputable def pointSave (L : PointArgs) (order : ℝ → String → List C3) (S0 S : Sim3 T) : Except PyErr (H5 ℝ C3 ℝ) :=
  match pointIO L S0 with
  | (_, .error e) => .error e
  | (io, .ok ()) => save (ioGeo3 T 2) (order S.time) (simHeap3 2 S) io S.time

/-- `max_vort` (point_source_advection_diffusion.py:123-124): the largest value of the three components in the inner cells of all ranks. -/
noncomputable def maxVort3 (T : Cart3) (om : Fin 3 → World C3 C3 ℝ) : Except PyErr ℝ :=
  allreduce max (ranks3 T) fun c => amax (([0, 1, 2] : List (Fin 3)).flatMap fun j => (innerCells3 T 2).map (om j c))

/-- A snapshot (point_source_advection_diffusion.py:121-135): what it logs, and the file it writes.  (An exception here would end the driver; it is kept in the result instead.) -/
noncomputable def pointShot (L : PointArgs) (order : ℝ → String → List C3) (S0 S : Sim3 T) : (ℝ × Except PyErr ℝ) × List (String × Except PyErr (H5 ℝ C3 ℝ)) :=
  ((S.time, maxVort3 T S.om), if L.saveData then [(pointFile S.time, pointSave L order S0 S)] else [])

variable [NeZero T.gz] [NeZero T.gy] [NeZero T.gx]

/-- What an iteration does (point_source_advection_diffusion.py:137-138). -/
def pointStep (o : ℕ → Scheds3) (i : ℕ) : StepIn3 := ⟨.stable 1, none, fun _ _ _ => 0, o i⟩

/-- The time loop (point_source_advection_diffusion.py:117-140). -/
noncomputable def pointBody (L : PointArgs) (K : Kern3) (order : ℝ → String → List C3) (o : ℕ → Scheds3) (S0 : Sim3 T) :
    ℕ → Sim3 T × ℝ × List ((ℝ × Except PyErr ℝ) × List (String × Except PyErr (H5 ℝ C3 ℝ))) →
      (Sim3 T × ℝ × List ((ℝ × Except PyErr ℝ) × List (String × Except PyErr (H5 ℝ C3 ℝ)))) × Option PyErr :=
  let C := simCfg3 L.sim L.xr L.nu L.cfl
  snapBody true L.limit (pointShot L order S0) (fun i S => (pickDt3 C L.tol S (pointStep o i).rule).2) (loopBody3 C K L.tol (pointStep o))

omit [NeZero T.gz] [NeZero T.gy] [NeZero T.gx] in
/-- After the loop (point_source_advection_diffusion.py:142-176). -/
noncomputable def pointEnd (L : PointArgs) (log : List (ℝ × Except PyErr ℝ)) (S : Sim3 T) : Except PyErr PointOut := do
  let l2 ← l2Error3 T 2 L.xr [0, 1, 2] S.om (L.omEnd S.time)
  let linf ← linfError3 T 2 L.xr [0, 1, 2] S.om (L.omEnd S.time)
  .ok ⟨log, S.time, L.centre S.time, l2, linf⟩

/-- The driver comes to an end: with an exception, or with what it logged and the files it wrote. -/
inductive PointRun (L : PointArgs) (T : Cart3) [NeZero T.gz] [NeZero T.gy] [NeZero T.gx] (K : Kern3) (order : ℝ → String → List C3) (o : ℕ → Scheds3) (dbl0 : World C3 C3 ℝ)
    (conv0 : Dbl3 T → ℂ) : Except PyErr (PointOut × List (String × Except PyErr (H5 ℝ C3 ℝ))) → Prop
  | fail {N s e} (h : While (fun s => s.1.time < L.tEnd) (pointBody L K order o (L.init T dbl0 conv0)) 0 (L.init T dbl0 conv0, 0, []) N (s, some e)) :
      PointRun L T K order o dbl0 conv0 (.error e)
  | done {N S timer shots} (h : While (fun s => s.1.time < L.tEnd) (pointBody L K order o (L.init T dbl0 conv0)) 0 (L.init T dbl0 conv0, 0, []) N ((S, timer, shots), none)) :
      PointRun L T K order o dbl0 conv0 ((pointEnd L (shots.map Prod.fst) S).map fun out => (out, shots.flatMap Prod.snd))

end

/-! ## Specification: the same on the global grid -/

/-- The time step: that of the velocity `(U, U, U)` and the viscosity. -/
noncomputable def PointArgs.dt (L : PointArgs) : ℝ := min (L.cfl * (L.xr / L.gx) / (3 * |L.U| + L.tol)) (0.9 * (L.xr / L.gx) ^ 2 / 6 / (L.nu + L.tol))

/-- The time after `n` iterations. -/
noncomputable def PointArgs.clock (L : PointArgs) (n : ℕ) : ℝ := L.tStart + n * L.dt

/-- The vector field after `n` iterations: `n` steps of advection with `(U, U, U)` and diffusion on the global grid, from the analytical field at `t_start`. -/
noncomputable def PointArgs.field (L : PointArgs) (K : Kern3) : ℕ → Fin 3 → C3 → ℝ
  | 0 => fun _ => atCentre3 (L.xr / L.gx) fun x y z => pointSource x y z L.x0 L.y0 L.z0 L.nu L.mag L.tStart
  | n + 1 => (refVector3 (argP3 L.sim L.xr L.nu) K L.dt ⟨fun _ => 0, L.field K n, fun _ _ => L.U⟩).om

/-- The largest value in the cells of the grid. -/
noncomputable def maxCell3 (gz gy gx : ℕ) (f : Fin 3 → C3 → ℝ) : ℝ := sSup {x | ∃ j G, Dom3 gz gy gx G ∧ x = f j G}

/-- What is logged if the loop takes `N` iterations, of which those in `idx` make a snapshot. -/
noncomputable def PointArgs.expected (L : PointArgs) (K : Kern3) (N : ℕ) (idx : List ℕ) : PointOut :=
  let t := L.clock N
  let dx := L.xr / L.gx
  let cx := L.x0 + L.U * (t - L.tStart)
  let cy := L.y0 + L.U * (t - L.tStart)
  let cz := L.z0 + L.U * (t - L.tStart)
  let err := fun j => errAt3 dx (L.field K N j) fun x y z => pointSource x y z cx cy cz L.nu L.mag L.tStart
  { log := idx.map fun n => (L.clock n, .ok (maxCell3 L.gz L.gy L.gx (L.field K n)))
    time := t
    centre := (cx, cy, cz)
    l2 := Real.sqrt (∑ G ∈ Finset.Ico (0 : ℤ) L.gz ×ˢ Finset.Ico (0 : ℤ) L.gy ×ˢ Finset.Ico (0 : ℤ) L.gx, (err 0 G ^ 2 + err 1 G ^ 2 + err 2 G ^ 2) * dx ^ 3)
    linf := maxCell3 L.gz L.gy L.gx err }

/-- A data file: its time, the parameters of the grid, and the three components of the field `F`, cell by cell. -/
def VortFile (L : PointArgs) (t : ℝ) (F : Fin 3 → C3 → ℝ) (file : H5 ℝ C3 ℝ) : Prop :=
  file.time = t ∧ file.lag = [] ∧ ∃ grp, file.eul = some grp ∧ grp.origin = L.origin ∧ grp.dx = L.dx ∧ grp.gridSize = [L.gz, L.gy, L.gx] ∧
    ∀ j : Fin 3, ∃ d, dget grp.vectors (compName "vorticity" j) = some d ∧ d.shape = [L.gz, L.gy, L.gx] ∧ ∀ G, Dom3 L.gz L.gy L.gx G → d.elt G = F j G

/-! ## Lemmas -/

theorem maxCell3_greatest {gz gy gx : ℕ} (hz : 0 < gz) (hy : 0 < gy) (hx : 0 < gx) (f : Fin 3 → C3 → ℝ) : IsGreatest {x | ∃ j G, Dom3 gz gy gx G ∧ x = f j G} (maxCell3 gz gy gx f) := by
  have hfin : {x | ∃ j G, Dom3 gz gy gx G ∧ x = f j G}.Finite := by
    have : {x | ∃ j G, Dom3 gz gy gx G ∧ x = f j G} ⊆ (fun q : Fin 3 × C3 => f q.1 q.2) '' (Set.univ ×ˢ (Set.Icc (0 : ℤ) gz ×ˢ (Set.Icc (0 : ℤ) gy ×ˢ Set.Icc (0 : ℤ) gx))) := by
      rintro x ⟨j, G, hG, rfl⟩
      exact ⟨(j, G), ⟨trivial, ⟨hG.1, le_of_lt hG.2.1⟩, ⟨hG.2.2.1, le_of_lt hG.2.2.2.1⟩, hG.2.2.2.2.1, le_of_lt hG.2.2.2.2.2⟩, rfl⟩
    exact Set.Finite.subset (Set.Finite.image _ (Set.finite_univ.prod ((Set.finite_Icc _ _).prod ((Set.finite_Icc _ _).prod (Set.finite_Icc _ _))))) this
  exact ⟨Set.Nonempty.csSup_mem ⟨_, 0, (0, 0, 0), ⟨by simp, by simpa using hz, by simp, by simpa using hy, by simp, by simpa using hx⟩, rfl⟩ hfin, fun x hx => le_csSup hfin.bddAbove hx⟩

section
variable {T : Cart3} [NeZero T.gz] [NeZero T.gy] [NeZero T.gx]

/-- What is assumed of the driver: the constants make sense, the simulator can be constructed and run on `T` (`Fit3`), kernels are local, all messages are delivered, and each rank
takes part in writing the files. -/
structure PointFit (L : PointArgs) (T : Cart3) (K : Kern3) (order : ℝ → String → List C3) (o : ℕ → Scheds3) : Prop where
  fit : Fit3 L.sim T
  xr : 0 < L.xr
  nu : 0 ≤ L.nu
  cfl : 0 < L.cfl
  tol : 0 < L.tol
  kern : K.Local
  zero : ∀ r, K.upd r (fun _ _ => 0) = 0
  sched : ∀ n, (o n).Done T 2 false
  order : ∀ t s c, c ∈ order t s ↔ Valid3 T c

variable {L : PointArgs} {K : Kern3} {order : ℝ → String → List C3} {o : ℕ → Scheds3} {dbl0 : World C3 C3 ℝ} {conv0 : Dbl3 T → ℂ}

/-- the state before iteration `n` -/
noncomputable def pointState (L : PointArgs) (T : Cart3) [NeZero T.gz] [NeZero T.gy] [NeZero T.gx] (K : Kern3) (o : ℕ → Scheds3) (dbl0 : World C3 C3 ℝ) (conv0 : Dbl3 T → ℂ) (n : ℕ) : Sim3 T :=
  loopState3 (simCfg3 L.sim L.xr L.nu L.cfl) K L.tol (pointStep o) (L.init T dbl0 conv0) n

omit [NeZero T.gz] [NeZero T.gy] [NeZero T.gx] in
theorem PointFit.means (h : PointFit L T K order o) (n : ℕ) :
    Means3 L.gz L.gy L.gx T (simCfg3 L.sim L.xr L.nu L.cfl) (pointStep o n) ⟨.stable 1, fun _ => 0, fun _ _ => 0⟩ :=
  ⟨rfl, fun hn => by simp [simCfg3, PointArgs.sim, isNS] at hn, h.sched n, fun hf => by simp [simCfg3, PointArgs.sim] at hf⟩

omit [NeZero T.gz] [NeZero T.gy] [NeZero T.gx] in
theorem PointFit.pos [NeZero T.gz] [NeZero T.gy] [NeZero T.gx] (h : PointFit L T K order o) : 0 < L.gz ∧ 0 < L.gy ∧ 0 < L.gx := by
  obtain ⟨hT, -⟩ := simCheck3_cart h.fit.built
  obtain ⟨e0, e1, e2, -⟩ := construct3_ok hT
  have a := Nat.pos_of_ne_zero (NeZero.ne T.gz)
  have b := Nat.pos_of_ne_zero (NeZero.ne T.gy)
  have c := Nat.pos_of_ne_zero (NeZero.ne T.gx)
  rw [e0] at a; rw [e1] at b; rw [e2] at c
  exact ⟨a, b, c⟩

/-- the reference run is the iteration above -/
theorem PointFit.ref (h : PointFit L T K order o) (n : ℕ) :
    refRun3 "passive_vector" (argP3 L.sim L.xr L.nu) K L.cfl L.tol (List.replicate n ⟨.stable 1, fun _ => 0, fun _ _ => 0⟩) (fieldsFrom3 (L.xr / L.gx) (fun _ _ _ => 0) L.om0 L.u0, L.tStart) =
      (⟨fun _ => 0, L.field K n, fun _ _ => L.U⟩, L.clock n) := by
  obtain ⟨hz, hy, hx⟩ := h.pos
  induction n with
  | zero => unfold refRun3 PointArgs.clock; simp only [List.replicate, Nat.cast_zero, zero_mul, add_zero]; rfl
  | succ n ih =>
    rw [List.replicate_succ', refRun3_snoc, ih]
    have hV : maxVel3 L.gz L.gy L.gx (fun _ _ => L.U) = 3 * |L.U| := by
      obtain ⟨⟨G, hG, e⟩, -⟩ := maxVel3_greatest hz hy hx (fun _ _ => L.U)
      rw [e]; ring
    have hdt : refDt3 (argP3 L.sim L.xr L.nu) L.cfl L.tol ⟨fun _ => 0, L.field K n, fun _ _ => L.U⟩ (.stable 1) = L.dt := by
      change (min (L.cfl * (L.xr / L.gx) / (maxVel3 L.gz L.gy L.gx (fun _ _ => L.U) + L.tol)) _) * 1 = _
      rw [hV, mul_one]
      rfl
    dsimp only
    rw [hdt]
    refine Prod.ext ?_ ?_
    · rfl
    · simp only [PointArgs.clock]; push_cast; ring

/-- the state before iteration `n` is that on the global grid -/
theorem PointFit.holds (h : PointFit L T K order o) (n : ℕ) :
    SimHolds3 (simCfg3 L.sim L.xr L.nu L.cfl) ⟨fun _ => 0, L.field K n, fun _ _ => L.U⟩ (pointState L T K o dbl0 conv0 n) ∧ (pointState L T K o dbl0 conv0 n).time = L.clock n := by
  obtain ⟨hT, hft⟩ := simCheck3_cart h.fit.built
  have hinit := initFrom3_holds hT (simCfg3 L.sim L.xr L.nu L.cfl) L.tStart dbl0 conv0 (fun _ _ _ => 0) L.om0 L.u0
  obtain ⟨-, r2, r3⟩ := simLoop3_holds hT (fun hn => h.fit.good L.xr L.nu L.cfl hn)
    (fun hn => ⟨(h.fit.passive hn).1, (h.fit.passive hn).2.1, (h.fit.passive hn).2.2.1, (h.fit.passive hn).2.2.2⟩) h.xr hft h.cfl.le h.nu h.tol h.kern h.zero (prefix_means3 h.means n) hinit
  rw [List.map_const', List.length_range] at r2 r3
  have e := h.ref n
  have e1 := congrArg Prod.fst e
  have e2 := congrArg Prod.snd e
  dsimp only at e1 e2
  have q : SimHolds3 (simCfg3 L.sim L.xr L.nu L.cfl) (refRun3 "passive_vector" (argP3 L.sim L.xr L.nu) K L.cfl L.tol
    (List.replicate n ⟨.stable 1, fun _ => 0, fun _ _ => 0⟩) (fieldsFrom3 (L.xr / L.gx) (fun _ _ _ => 0) L.om0 L.u0, L.tStart)).1 (pointState L T K o dbl0 conv0 n) := r2
  rw [e1] at q
  exact ⟨q, r3.trans e2⟩

theorem PointFit.dt_pos (h : PointFit L T K order o) : 0 < L.dt := by
  obtain ⟨-, -, hx⟩ := h.pos
  have hdx : 0 < L.xr / L.gx := div_pos h.xr (by exact_mod_cast hx)
  have := h.cfl; have := h.tol; have := h.nu
  have := abs_nonneg L.U
  unfold PointArgs.dt
  refine lt_min (div_pos (by positivity) (by positivity)) (div_pos (by positivity) (by positivity))

/-- one more iteration -/
theorem PointFit.next (h : PointFit L T K order o) (n : ℕ) :
    loopBody3 (simCfg3 L.sim L.xr L.nu L.cfl) K L.tol (pointStep o) n (pointState L T K o dbl0 conv0 n) = (pointState L T K o dbl0 conv0 (n + 1), none) ∧
    (pickDt3 (simCfg3 L.sim L.xr L.nu L.cfl) L.tol (pointState L T K o dbl0 conv0 n) (pointStep o n).rule).2 = .ok (L.clock (n + 1) - L.clock n) := by
  obtain ⟨q1, -, -⟩ := loop3_dt h.fit h.xr h.nu h.cfl h.tol h.kern h.zero L.tStart dbl0 conv0 (fun _ _ _ => 0) L.om0 L.u0 h.means one_pos (fun _ => rfl) n
  have e := fun n => (h.holds (dbl0 := dbl0) (conv0 := conv0) n).2
  refine ⟨(loop3_states h.fit h.xr h.nu h.cfl.le h.tol h.kern h.zero L.tStart dbl0 conv0 (fun _ _ _ => 0) L.om0 L.u0 h.means n).1, ?_⟩
  rw [← e, ← e]; exact q1

/-- the iterations with a snapshot -/
noncomputable def PointArgs.idx (L : PointArgs) (N : ℕ) : List ℕ := (snapSeq true L.limit (fun n => n) (fun n => L.clock (n + 1) - L.clock n) N).2

/-- The loop: `N` iterations, or none. -/
theorem PointFit.loop (h : PointFit L T K order o) {N : ℕ} {r : (Sim3 T × ℝ × List ((ℝ × Except PyErr ℝ) × List (String × Except PyErr (H5 ℝ C3 ℝ)))) × Option PyErr} :
    let st := pointState L T K o dbl0 conv0
    While (fun s => s.1.time < L.tEnd) (pointBody L K order o (L.init T dbl0 conv0)) 0 (L.init T dbl0 conv0, 0, []) N r ↔
      (∀ i < N, L.clock i < L.tEnd) ∧ L.tEnd ≤ L.clock N ∧ r = ((st N,
        (snapSeq true L.limit (fun n => n) (fun n => L.clock (n + 1) - L.clock n) N).1, (L.idx N).map fun n => pointShot L order (L.init T dbl0 conv0) (st n)), none) := by
  intro st
  have e : ∀ n, (st n).time = L.clock n := fun n => (h.holds n).2
  have h1 := snapBody_states (shot := pointShot L order (L.init T dbl0 conv0))
    (dtOf := fun i S => (pickDt3 (simCfg3 L.sim L.xr L.nu L.cfl) L.tol S (pointStep o i).rule).2) (dt := fun n => L.clock (n + 1) - L.clock n) (it := st) (fun i => (h.next i).1) (fun i => (h.next i).2) true L.limit
  have h2 := fun n => snapSeq_map true L.limit (fun n => n) (fun n => pointShot L order (L.init T dbl0 conv0) (st n)) (fun n => L.clock (n + 1) - L.clock n) n
  have h3 : ∀ n, (st n, (snapSeq true L.limit (fun n => n) (fun n => L.clock (n + 1) - L.clock n) n).1, (L.idx n).map fun n => pointShot L order (L.init T dbl0 conv0) (st n)) =
    (st n, snapSeq true L.limit (fun n => pointShot L order (L.init T dbl0 conv0) (st n)) (fun n => L.clock (n + 1) - L.clock n) n) := fun n => by
    rw [h2]; rfl
  rw [h3]
  constructor
  · intro hw
    obtain ⟨-, w2, w3, w4⟩ := hw.states (it := fun i => (st i, snapSeq true L.limit (fun n => pointShot L order (L.init T dbl0 conv0) (st n))
      (fun n => L.clock (n + 1) - L.clock n) i)) rfl h1
    refine ⟨fun i hi => ?_, ?_, w4⟩
    · rw [← e]; exact w2 i (Nat.zero_le _) hi
    · rw [← e]; exact not_lt.1 w3
  · rintro ⟨w2, w3, rfl⟩
    exact While.of_states (it := fun i => (st i, snapSeq true L.limit (fun n => pointShot L order (L.init T dbl0 conv0) (st n))
      (fun n => L.clock (n + 1) - L.clock n) i)) (Nat.zero_le N) (fun i _ hi => by change (st i).time < _; rw [e]; exact w2 i hi) (fun i _ _ => h1 i)
      (by change ¬(st N).time < _; rw [e]; exact not_lt.2 w3)

omit [NeZero T.gz] [NeZero T.gy] [NeZero T.gx] in
/-- `max_vort` -/
theorem maxVort3_global {gz gy gx pz py px : ℕ} (hT : mkCart3 gz gy gx pz py px false = .ok T) (h0 : 0 < gz ∧ 0 < gy ∧ 0 < gx) {F : Fin 3 → C3 → ℝ} {om : Fin 3 → World C3 C3 ℝ}
    (hF : ∀ j c p, Valid3 T c → Inner3 T ((2 : ℕ) : ℤ) p → om j c p = F j (globalIx3 T ((2 : ℕ) : ℤ) c p)) : maxVort3 T om = .ok (maxCell3 gz gy gx F) := by
  have hmem : ∀ c x, x ∈ (([0, 1, 2] : List (Fin 3)).flatMap fun j => (innerCells3 T 2).map (om j c)) ↔ ∃ j p, Inner3 T ((2 : ℕ) : ℤ) p ∧ x = om j c p := by
    intro c x
    simp only [List.mem_flatMap, List.mem_map, mem_innerCells3]
    constructor
    · rintro ⟨j, -, p, ⟨-, hp⟩, rfl⟩; exact ⟨j, p, hp, rfl⟩
    · rintro ⟨j, p, hp, rfl⟩
      exact ⟨j, by fin_cases j <;> simp, p, ⟨by omega, hp⟩, rfl⟩
  have hne : ∀ c ∈ ranks3 T, (([0, 1, 2] : List (Fin 3)).flatMap fun j => (innerCells3 T 2).map (om j c)) ≠ [] := by
    intro c _ e
    have hG : InDomain3 T (0, 0, 0) := (dom3_iff hT _).1 ⟨by simp, by simpa using h0.1, by simp, by simpa using h0.2.1, by simp, by simpa using h0.2.2⟩
    obtain ⟨c', p, -, hp, -⟩ := domain_owned3 hT 2 hG
    have := (hmem c (om 0 c p)).2 ⟨0, p, hp, rfl⟩
    rw [e] at this
    cases this
  obtain ⟨m, h1, h2⟩ := allreduce_amax (ranks3_ne hT h0) hne
  unfold maxVort3
  rw [h1]
  congr 1
  have hM := maxCell3_greatest h0.1 h0.2.1 h0.2.2 F
  refine h2.unique ?_
  obtain ⟨⟨j, G, hG, e⟩, hle⟩ := hM
  refine ⟨?_, ?_⟩
  · obtain ⟨c, p, hc, hp, hcp⟩ := domain_owned3 hT 2 ((dom3_iff hT G).1 hG)
    exact ⟨c, mem_ranks3.2 hc, (hmem c _).2 ⟨j, p, hp, by rw [hF j c p hc hp, hcp]; exact e⟩⟩
  · rintro x ⟨c, hc, hx⟩
    obtain ⟨j, p, hp, rfl⟩ := (hmem c x).1 hx
    have hc' := mem_ranks3.1 hc
    rw [hF j c p hc' hp]
    exact hle ⟨j, _, (dom3_iff hT _).2 (inner_inDomain3 hT hc' hp), rfl⟩

/-- what a snapshot logs -/
theorem PointFit.log (h : PointFit L T K order o) (n : ℕ) :
    (pointShot L order (L.init T dbl0 conv0) (pointState L T K o dbl0 conv0 n)).1 = (L.clock n, .ok (maxCell3 L.gz L.gy L.gx (L.field K n))) := by
  obtain ⟨hT, hft⟩ := simCheck3_cart h.fit.built
  obtain ⟨r1, r2⟩ := h.holds (dbl0 := dbl0) (conv0 := conv0) n
  refine Prod.ext r2 ?_
  exact maxVort3_global hT h.pos fun j c p hc hp => r1.om j c p hc (inArr_of_inner3 hp) (Or.inl hp)

/-- the file of a snapshot -/
theorem PointFit.file (h : PointFit L T K order o) (n : ℕ) :
    ∃ file, pointSave L order (L.init T dbl0 conv0) (pointState L T K o dbl0 conv0 n) = .ok file ∧ VortFile L (L.clock n) (L.field K n) file := by
  obtain ⟨hT, hft⟩ := simCheck3_cart h.fit.built
  obtain ⟨e0, e1, e2, -, -, -, -, k0, k1, k2⟩ := construct3_ok hT
  obtain ⟨r1, r2⟩ := h.holds (dbl0 := dbl0) (conv0 := conv0) n
  obtain ⟨io, hio⟩ : ∃ io, pointIO L (L.init T dbl0 conv0) = (io, .ok ()) := by
    unfold pointIO defineEulerianGrid addEulerian addEulerian addEulField
    simp [simHeap3, ioGeo3]
  obtain ⟨a1, a2, -, a4, a5, a6, a7, -, a9, -⟩ := addEulerian_ok [("vorticity", 0)] (by simp) (by simp [defineEulerianGrid]) hio
  simp only [defineEulerianGrid, List.nil_append] at a1 a4 a5 a6 a7 a9
  have hty := a2 ("vorticity", 0) (by simp)
  rw [if_neg (by simp [simHeap3, ioGeo3])] at hty
  have hgeo := geoOK3 (T := T) (k0.trans e0) (k1.trans e1) (k2.trans e2) 2
  have hgs : io.gridSize = [L.gz, L.gy, L.gx] := a6
  have hgeo' : GeoOK (ioGeo3 T 2) (globalIx3 T ((2 : ℕ) : ℤ)) io.gridSize := by rw [hgs]; exact hgeo
  obtain ⟨grp, g1, g2, g3⟩ := saveEulFields_ok (geo := ioGeo3 T 2) (io := io) hgeo' (order := order (L.clock n))
    (fun s c => (h.order _ s c).trans mem_ranks3.symm)
    (h := simHeap3 2 (pointState L T K o dbl0 conv0 n)) (F := fun _ k => L.field K n (Fin.ofNat 3 k)) [("vorticity", 0)] (by simp) (by
      intro x hx
      rw [List.mem_singleton] at hx
      subst hx
      refine ⟨_, hty, fun k hk c hc p hp => ?_⟩
      exact r1.om _ c p (mem_ranks3.1 hc) (inArr_of_inner3 (mem_innerSel3.1 hp)) (Or.inl (mem_innerSel3.1 hp)))
    ⟨[], [], io.origin, io.dx, io.gridSize⟩ (by simp [dget]) (by simp [dget])
  obtain ⟨-, -, b1, b2, b3⟩ := g2
  refine ⟨⟨L.clock n, some grp, []⟩, ?_, rfl, rfl, grp, rfl, b1.trans a4, b2.trans a5, b3.trans hgs, fun j => ?_⟩
  · unfold pointSave
    rw [hio]
    dsimp only
    unfold save
    rw [if_pos ⟨a7, by rw [a1]; simp⟩, a1, r2, g1, a9]
    rfl
  · obtain ⟨d, d1, d2, d3⟩ := g3 ("vorticity", 0) (by simp) _ hty j j.2
    refine ⟨d, d1, d2.trans hgs, fun G hG => ?_⟩
    have hin : (ioGeo3 T 2).inShape io.gridSize G = true := by
      obtain ⟨c, p, hc, hp, e⟩ := domain_owned3 hT 2 ((dom3_iff hT G).1 hG)
      refine (hgeo'.cover G).2 ⟨c, mem_ranks3.2 hc, ?_⟩
      rw [hgeo'.sel c (mem_ranks3.2 hc)]
      exact List.mem_map.2 ⟨p, mem_innerSel3.2 hp, e⟩
    refine (d3 G hin).trans ?_
    dsimp only
    rw [ofNat3]

/-- the errors -/
theorem PointFit.end_ (h : PointFit L T K order o) (N : ℕ) (idx : List ℕ) :
    pointEnd L (idx.map fun n => (L.clock n, .ok (maxCell3 L.gz L.gy L.gx (L.field K n)))) (pointState L T K o dbl0 conv0 N) = .ok (L.expected K N idx) := by
  obtain ⟨hT, hft⟩ := simCheck3_cart h.fit.built
  have h0 := h.pos
  obtain ⟨r1, r2⟩ := h.holds (dbl0 := dbl0) (conv0 := conv0) N
  set S := pointState L T K o dbl0 conv0 N with hS
  have hF : ∀ j ∈ ([0, 1, 2] : List (Fin 3)), ∀ c p, Valid3 T c → Inner3 T ((2 : ℕ) : ℤ) p → S.om j c p = L.field K N j (globalIx3 T ((2 : ℕ) : ℤ) c p) :=
    fun j _ c p hc hp => r1.om j c p hc (inArr_of_inner3 hp) (Or.inl hp)
  have a1 := l2Error3_global hT h0 (g := 2) (by omega) h.xr.le ([0, 1, 2] : List (Fin 3)) hF (L.omEnd S.time)
  obtain ⟨m, a2, a3⟩ := linfError3_global hT h0 (g := 2) (by omega) L.xr (cs := ([0, 1, 2] : List (Fin 3))) (by simp) hF (L.omEnd S.time)
  have c1 : m = maxCell3 L.gz L.gy L.gx fun j => errAt3 (L.xr / L.gx) (L.field K N j) (L.omEnd S.time j) := by
    have g := maxCell3_greatest h0.1 h0.2.1 h0.2.2 fun j => errAt3 (L.xr / L.gx) (L.field K N j) (L.omEnd S.time j)
    refine a3.unique ⟨?_, ?_⟩
    · obtain ⟨j, G, hG, e⟩ := g.1
      exact ⟨j, by fin_cases j <;> simp, G, (dom3_iff hT G).1 hG, e⟩
    · rintro x ⟨j, -, G, hG, rfl⟩
      exact g.2 ⟨j, G, (dom3_iff hT G).2 hG, rfl⟩
  unfold pointEnd
  simp only [bind, Except.bind]
  rw [a1, a2]
  dsimp only
  rw [c1, r2]
  unfold PointArgs.expected PointArgs.centre
  simp only [List.map_cons, List.map_nil, List.sum_cons, List.sum_nil, add_zero, add_assoc]
  rfl

/-! ## What a user can rely on -/

/-- C108 (3D): the driver comes to an end on every decomposition, under every schedule of the messages, whatever order the ranks write in and whatever was in fresh arrays, after
`⌈(t_end - t_start) / dt⌉` iterations.  It raises nothing; it logs – times and largest values at the snapshots, the centre, the errors – what the steps on the global grid give;
and if asked to it writes one file per snapshot, with the time and the three components of the field in every cell. -/
theorem pointSource_report (h : PointFit L T K order o) (dbl0 : World C3 C3 ℝ) (conv0 : Dbl3 T → ℂ) :
    ∃ idx files, PointRun L T K order o dbl0 conv0 (.ok (L.expected K ⌈(L.tEnd - L.tStart) / L.dt⌉₊ idx, files)) ∧
      (∀ r, PointRun L T K order o dbl0 conv0 r → r = .ok (L.expected K ⌈(L.tEnd - L.tStart) / L.dt⌉₊ idx, files)) ∧
      Snapshots true ((L.tEnd - L.tStart) / 20) L.clock ⌈(L.tEnd - L.tStart) / L.dt⌉₊ idx ∧
      if L.saveData then List.Forall₂ (fun n f => f.1 = String.ofList (fileName "sopht_".toList ".h5".toList 4 (L.clock n)) ∧ ∃ file, f.2 = .ok file ∧ VortFile L (L.clock n) (L.field K n) file) idx files else files = [] := by
  set N := ⌈(L.tEnd - L.tStart) / L.dt⌉₊ with hN
  have hdt := h.dt_pos
  have hlog : ∀ N, ((L.idx N).map fun n => pointShot L order (L.init T dbl0 conv0) (pointState L T K o dbl0 conv0 n)).map Prod.fst =
      (L.idx N).map fun n => (L.clock n, .ok (maxCell3 L.gz L.gy L.gx (L.field K n))) := fun N => by
    rw [List.map_map]
    exact List.map_congr_left fun n _ => h.log n
  have hbefore : ∀ i < N, L.clock i < L.tEnd := by
    intro i hi
    have := Nat.lt_ceil.1 hi
    rw [lt_div_iff₀ hdt] at this
    unfold PointArgs.clock
    linarith
  have hafter : L.tEnd ≤ L.clock N := by
    have h1 := Nat.le_ceil ((L.tEnd - L.tStart) / L.dt)
    rw [div_le_iff₀ hdt] at h1
    unfold PointArgs.clock
    linarith
  have hrun := PointRun.done ((h.loop (dbl0 := dbl0) (conv0 := conv0) (N := N)).2 ⟨hbefore, hafter, rfl⟩)
  rw [hlog, h.end_] at hrun
  refine ⟨L.idx N, _, hrun, fun r hr => ?_, ?_, ?_⟩
  · cases hr with
    | fail hw =>
      obtain ⟨-, -, w⟩ := h.loop.1 hw
      cases w
    | @done M S timer shots hw =>
      obtain ⟨w1, w2, w3⟩ := h.loop.1 hw
      obtain ⟨w4, -⟩ := Prod.mk.inj w3
      obtain ⟨rfl, w5⟩ := Prod.mk.inj w4
      obtain ⟨-, rfl⟩ := Prod.mk.inj w5
      have hM : M = N := by
        rcases lt_trichotomy M N with q | q | q
        · linarith [hbefore M q]
        · exact q
        · linarith [w1 N q]
      rw [hlog, h.end_, hM]
      rfl
  · obtain ⟨idx, i1, i2, -⟩ := snapSeq_spec (strict := true) (limit := L.limit) (t := L.clock) (v := fun n => n) (dt := fun n => L.clock (n + 1) - L.clock n)
      (fun n => by unfold PointArgs.clock; push_cast; linarith) (fun n => by ring) N
    have i3 : L.idx N = idx := by unfold PointArgs.idx; rw [i2, List.map_id']
    rw [i3]
    exact i1
  · by_cases hs : L.saveData = true
    · rw [if_pos hs]
      generalize L.idx N = idx
      induction idx with
      | nil => exact .nil
      | cons n l ih =>
        simp only [List.map_cons, List.flatMap_cons]
        have e : (pointShot L order (L.init T dbl0 conv0) (pointState L T K o dbl0 conv0 n)).2 =
            [(pointFile (L.clock n), pointSave L order (L.init T dbl0 conv0) (pointState L T K o dbl0 conv0 n))] := by
          unfold pointShot
          rw [if_pos hs, (h.holds n).2]
        rw [e]
        exact .cons ⟨rfl, h.file n⟩ ih
    · rw [if_neg hs]
      rw [List.flatMap_eq_nil_iff]
      intro x hx
      obtain ⟨n, -, rfl⟩ := List.mem_map.1 hx
      unfold pointShot
      rw [if_neg hs]

end

/-! ## The hypotheses can be met -/

/-- the constants of the example on a 8 × 8 × 8 grid and 1 × 2 × 2 ranks -/
noncomputable def exPoint : PointArgs := ⟨8, 8, 8, 1, 2, 2, 1, 0.001, 0.1, 0.001, 0.3, 0.3, 0.3, 5, 5.4, 1, 1, true, [], []⟩

theorem exKern3_local : exKern3.Local := by
  constructor
  · intro a A B h
    simp only [exKern3]
    repeat rw [h _ _ (by simp [Cross3])]
  · intro a A B h
    simp only [exKern3]
    congr 1
    refine Finset.sum_congr rfl fun i _ => ?_
    match i with
    | 0 => simp only [axisStep]; repeat rw [h _ _ (by simp [Cross3])]
    | 1 => simp only [axisStep]; repeat rw [h _ _ (by simp [Cross3])]
    | 2 => simp only [axisStep]; repeat rw [h _ _ (by simp [Cross3])]
  · intro a A B h
    simp only [exKern3]
    repeat rw [h _ _ (by simp [Cross3])]
  · intro a A B h
    simp only [exKern3]
    repeat rw [h _ _ (by simp [Cross3])]

theorem exPoint_fit : ∃ o, PointFit exPoint ⟨8, 8, 8, 1, 2, 2, 8, 4, 4, false⟩ exKern3 (fun _ _ => ranks3 ⟨8, 8, 8, 1, 2, 2, 8, 4, 4, false⟩) o := by
  obtain ⟨sch, hs⟩ := scheds3_exist ⟨8, 8, 8, 1, 2, 2, 8, 4, 4, false⟩ 2 false
  refine ⟨fun _ => sch, ⟨by decide, fun _ => by decide, fun hn => by simp [exPoint, PointArgs.sim, isNS] at hn⟩, ?_, ?_, ?_, ?_, ?_, ?_, fun _ => hs, fun _ _ _ => mem_ranks3⟩
  · norm_num [exPoint]
  · norm_num [exPoint]
  · norm_num [exPoint]
  · norm_num [exPoint]
  · exact exKern3_local
  · intro r; simp [exKern3]

/-- the driver of the example ends; each of its files was written and is named after a time -/
example : ∃ o out files, haveI : NeZero (Cart3.mk 8 8 8 1 2 2 8 4 4 false).gz := ⟨by decide⟩
    haveI : NeZero (Cart3.mk 8 8 8 1 2 2 8 4 4 false).gy := ⟨by decide⟩
    haveI : NeZero (Cart3.mk 8 8 8 1 2 2 8 4 4 false).gx := ⟨by decide⟩
    PointRun exPoint ⟨8, 8, 8, 1, 2, 2, 8, 4, 4, false⟩ exKern3 (fun _ _ => ranks3 ⟨8, 8, 8, 1, 2, 2, 8, 4, 4, false⟩) o (fun _ _ => 0) (fun _ => 0) (.ok (out, files)) ∧
      ∀ f ∈ files, ∃ t file, f = (pointFile t, .ok file) := by
  haveI : NeZero (Cart3.mk 8 8 8 1 2 2 8 4 4 false).gz := ⟨by decide⟩
  haveI : NeZero (Cart3.mk 8 8 8 1 2 2 8 4 4 false).gy := ⟨by decide⟩
  haveI : NeZero (Cart3.mk 8 8 8 1 2 2 8 4 4 false).gx := ⟨by decide⟩
  obtain ⟨o, h⟩ := exPoint_fit
  obtain ⟨idx, files, h1, -, -, h2⟩ := pointSource_report h (fun _ _ => 0) (fun _ => 0)
  refine ⟨o, _, files, h1, fun f hf => ?_⟩
  have h3 : List.Forall₂ _ idx files := h2
  clear h1 h2
  induction h3 with
  | nil => cases hf
  | cons hd _ ih =>
    rcases List.mem_cons.1 hf with rfl | hf
    · obtain ⟨e1, file, e2, -⟩ := hd
      exact ⟨_, file, Prod.ext e1 e2⟩
    · exact ih hf

end Sopht
