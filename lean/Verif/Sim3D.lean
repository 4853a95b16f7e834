import Verif.Sim2D
import Verif.Filter

/-!
# The 3D flow simulator

Models `UnboundedFlowSimulator3D` (`sopht_mpi/simulator/flow/flow_simulators_mpi_3d.py`, below "F3D.py").  Conventions as in `Verif.Sim2D`:
real numbers, the arrays of all ranks together, the number crunching kernels as parameters (`Kern3`).
-/

namespace Sopht

/-! ## Construction -/

/-- What the constructor is given (F3D.py:26-39). The rank distribution `(pz, py, px)` is the one in use (given, or chosen by MPI). -/
structure SimArgs3 where
  gz : ℕ
  gy : ℕ
  gx : ℕ
  pz : ℕ
  py : ℕ
  px : ℕ
  flowType : String
  filterVorticity : Bool
  /-- `filter_setting_dict`: order and type (F3D.py:95), if given -/
  filterSetting : Option (PyNum × String)
  freeStream : Bool
  g : ℕ
  /-- `penalty_zone_width` (default 2, F3D.py:88) -/
  width : PyNum

/-- `supported_flow_types` (F3D.py:70-75). -/
def flowTypes3 : List String := ["passive_scalar", "passive_vector", "navier_stokes", "navier_stokes_with_forcing"]

/-- `self.flow_type in ["navier_stokes", "navier_stokes_with_forcing"]`. -/
def isNS (flowType : String) : Bool := flowType = "navier_stokes" || flowType = "navier_stokes_with_forcing"

/-- Order and type of the filter in use (F3D.py:90-104): the default is order 2, multiplicative. `none`: no filter. -/
def filterInUse (a : SimArgs3) : Option (PyNum × String) :=
  if a.filterVorticity then some (a.filterSetting.getD (.int 2, "multiplicative")) else none

/-- The check of the filter generator, if a filter is made (F3D.py:287-297; boundary width 1 is the default of the generator). -/
def filterCheck3 (g : ℕ) : Option (PyNum × String) → Except PyErr Unit
  | none => .ok ()
  | some (order, ty) => filterCheck ⟨order, .int 1, g, ty, "vector"⟩

/-- The generators called by `compile_kernels` (F3D.py:198-325), in order, with their outcomes. -/
def compileSeq3 (a : SimArgs3) (T : Cart3) : List (Except PyErr Unit) :=
  (if a.flowType = "passive_scalar" then [genFieldKernel3 "scalar" a.g 1, genFieldKernel3 "scalar" a.g 2] else []) ++
  (if a.flowType = "passive_vector" then [genFieldKernel3 "vector" a.g 1, genFieldKernel3 "vector" a.g 2] else []) ++
  (if isNS a.flowType then
    [genFieldKernel3 "vector" a.g 1, (doublingInit3 (.int a.g) T).map fun _ => (), checkSupport a.g 1, penCheck a.width, checkSupport a.g 1,
     checkSupport a.g 1, filterCheck3 a.g (filterInUse a)] else [])

/-- The constructor (F3D.py:26-106): the decomposition, or the exception. Nothing is swallowed. -/
def simCheck3 (a : SimArgs3) : Except PyErr Cart3 :=
  if a.flowType ∉ flowTypes3 then .error .valueError
  else match mkCart3 a.gz a.gy a.gx a.pz a.py a.px false with
    | .error e => .error e
    | .ok T => match ghostCommCheck (.int a.g) with
      | .error e => .error e
      | .ok _ => match (compileSeq3 a T).findSome? errOf with
        | some e => .error e
        | none => .ok T

/-! ## The domain -/

/-- `dx` (F3D.py:128). -/
noncomputable def simDx3 (T : Cart3) (xr : ℝ) : ℝ := xr / T.gx

/-- `position_field` of rank `c` (F3D.py:124-157): `np.meshgrid(local_z, local_y, local_x, indexing="ij")` upside down. -/
noncomputable def position3 (T : Cart3) (g : ℕ) (xr : ℝ) (c : C3) : Fin 3 → C3 → ℝ :=
  let lz := localCoords (simDx3 T xr) g T.nz c.1
  let ly := localCoords (simDx3 T xr) g T.ny c.2.1
  let lx := localCoords (simDx3 T xr) g T.nx c.2.2
  let mesh : Fin 3 → C3 → ℝ := ![fun p => lz p.1, fun p => ly p.2.1, fun p => lx p.2.2]
  fun a => mesh (2 - a)

/-! ## State and steps -/

/-- The kernels of the `sopht` package used by the simulator: diffusion flux (argument: prefactor), advection flux (argument: `inv_dx`), curl, curl of
the forcing (argument: prefactor), divergence (argument: `inv_dx`). -/
structure Kern3 where
  diff : ℝ → (Unit → C3 → ℝ) → ℝ
  adv : ℝ → (Option (Fin 3) → C3 → ℝ) → ℝ
  curl : ℝ → (Fin 3 → C3 → ℝ) → ℝ × ℝ × ℝ
  upd : ℝ → (Fin 3 → C3 → ℝ) → ℝ × ℝ × ℝ
  div : ℝ → (Fin 3 → C3 → ℝ) → ℝ

/-- Constants of a simulator. `flt`: order and type of the filter. -/
structure Cfg3 where
  flowType : String
  freeStream : Bool
  g : ℕ
  xr : ℝ
  nu : ℝ
  cfl : ℝ
  w : ℕ
  flt : Option (ℕ × String)

/-- `need_full_exchange` (F3D.py:117). -/
def Cfg3.full (C : Cfg3) : Bool := C.flowType = "navier_stokes_with_forcing"

/-- The filter as the numbers it is used with. -/
def filterNums : Option (PyNum × String) → Option (ℕ × String)
  | none => none
  | some (order, ty) => some (widthOf order, ty)

/-- The simulator as the constructor leaves it (F3D.py:26-106). -/
def simCfg3 (a : SimArgs3) (xr nu cfl : ℝ) : Cfg3 :=
  { flowType := a.flowType, freeStream := a.freeStream, g := a.g, xr, nu, cfl, w := widthOf a.width, flt := filterNums (filterInUse a) }

/-- The arrays of all ranks (F3D.py:170-196), the time and the Poisson solver. `sc` is `primary_scalar_field`, `om` is `primary_vector_field` and
its view `vorticity_field`; arrays a flow type does not have are not used by it. -/
structure Sim3 (T : Cart3) where
  sc : World C3 C3 ℝ
  om : Fin 3 → World C3 C3 ℝ
  vel : Fin 3 → World C3 C3 ℝ
  buf : World C3 C3 ℝ
  bufV : Fin 3 → World C3 C3 ℝ
  stream : Fin 3 → World C3 C3 ℝ
  forcing : Fin 3 → World C3 C3 ℝ
  time : ℝ
  solver : Solver3 T

/-- `init_fields` (F3D.py:170-196) and the initial time. -/
noncomputable def simInit3 (T : Cart3) [NeZero T.gz] [NeZero T.gy] [NeZero T.gx] (xr time : ℝ) (dbl0 : World C3 C3 ℝ) (conv0 : Dbl3 T → ℂ) : Sim3 T :=
  { sc := fun _ _ => 0, om := fun _ _ _ => 0, vel := fun _ _ _ => 0, buf := fun _ _ => 0, bufV := fun _ _ _ => 0, stream := fun _ _ _ => 0,
    forcing := fun _ _ _ => 0, time, solver := solverInit3 T xr dbl0 conv0 }

/-- Message schedules of one time step: vorticity update with the forcing, with u × ω, advection and diffusion per component, filter per component,
direction and pass, Poisson solve per component, curl. -/
structure Scheds3 where
  force : Sched3
  upd : Sched3
  adv : Fin 3 → Sched3
  diff : Fin 3 → Sched3
  flt : Fin 3 → Fin 3 → ℕ → Sched3
  solve : Fin 3 → List Ev × List Ev
  curl : Sched3

/-- Outcome of a call: the state and the exception, if one was raised. -/
abbrev Out3 (T : Cart3) := Sim3 T × Option PyErr

/-- The next statement runs only if no exception was raised. -/
def Out3.andThen {T : Cart3} (r : Out3 T) (f : Sim3 T → Out3 T) : Out3 T := match r.2 with
  | some e => (r.1, some e)
  | none => f r.1

/-- A vector field as one array of triples. -/
def zip3 (v : Fin 3 → World C3 C3 ℝ) : C3 → C3 → ℝ × ℝ × ℝ := fun c p => (v 0 c p, v 1 c p, v 2 c p)
/-- … and back. -/
def unzip3 (u : C3 → C3 → ℝ × ℝ × ℝ) : Fin 3 → World C3 C3 ℝ := ![fun c p => (u c p).1, fun c p => (u c p).2.1, fun c p => (u c p).2.2]

/-- A vector field as the family of arrays an exchange sees. -/
def asFam (v : Fin 3 → World C3 C3 ℝ) : World C3 (Fin 3 × C3) ℝ := fun c i => v i.1 c i.2
/-- … and back. -/
def ofFam (w : World C3 (Fin 3 × C3) ℝ) : Fin 3 → World C3 C3 ℝ := fun j c p => w c (j, p)

variable {T : Cart3}

/-- `scalar_advection_and_diffusion_timestep` (F3D.py:356-367). -/
noncomputable def scalarStep3 (C : Cfg3) (K : Kern3) (sch : Scheds3) (dt : ℝ) (S : Sim3 T) : Sim3 T :=
  let dx := simDx3 T C.xr
  let a := advectionStep3 T C.g C.full K.adv (dt / dx) (sch.adv 0).1 (sch.adv 0).2 (asFam S.vel) ⟨S.sc, S.buf⟩
  let d := diffusionStep3 T C.g C.full (K.diff (C.nu * dt / dx / dx)) (sch.diff 0).1 (sch.diff 0).2 a.2
  { S with sc := d.field, buf := d.flux, vel := ofFam a.1 }

/-- `self.diffusion_timestep(vector_field=...)` (F3D.py:376-380, 407-411). -/
noncomputable def callDiffV3 (C : Cfg3) (K : Kern3) (sch : Scheds3) (dt : ℝ) (S : Sim3 T) : Sim3 T :=
  let dx := simDx3 T C.xr
  let d := diffusionVecStep3 T C.g C.full (K.diff (C.nu * dt / dx / dx)) sch.diff ⟨S.om, S.buf⟩
  { S with om := d.field, buf := d.flux }

/-- `self.advection_timestep(vector_field=...)` (F3D.py:370-375). -/
noncomputable def callAdvV3 (C : Cfg3) (K : Kern3) (sch : Scheds3) (dt : ℝ) (S : Sim3 T) : Sim3 T :=
  let a := advectionVecStep3 T C.g C.full K.adv (dt / simDx3 T C.xr) sch.adv (asFam S.vel, ⟨S.om, S.buf⟩)
  { S with om := a.2.field, buf := a.2.flux, vel := ofFam a.1 }

/-- `vector_advection_and_diffusion_timestep` (F3D.py:369-380). -/
noncomputable def vectorStep3 (C : Cfg3) (K : Kern3) (sch : Scheds3) (dt : ℝ) (S : Sim3 T) : Sim3 T :=
  callDiffV3 C K sch dt (callAdvV3 C K sch dt S)

/-- `elementwise_cross_product` (F3D.py:396-401, called on the whole arrays). -/
def cross3 (u v : Fin 3 → World C3 C3 ℝ) : Fin 3 → World C3 C3 ℝ :=
  ![fun c p => u 1 c p * v 2 c p - u 2 c p * v 1 c p, fun c p => u 2 c p * v 0 c p - u 0 c p * v 2 c p,
    fun c p => u 0 c p * v 1 c p - u 1 c p * v 0 c p]

/-- `self.update_vorticity_from_velocity_forcing(vorticity_field, velocity_forcing_field=f, prefactor=dt / (2 dx))` (F3D.py:402-406, 416-420): the vorticity,
and `f` with its ghost cells refreshed by the exchange. -/
noncomputable def callUpd3 (C : Cfg3) (K : Kern3) (sch : Sched3) (dt : ℝ) (om f : Fin 3 → World C3 C3 ℝ) :
    (Fin 3 → World C3 C3 ℝ) × (Fin 3 → World C3 C3 ℝ) :=
  (unzip3 (stencilAdd3 T C.g C.full [0, 1, 2] 1 (K.upd (dt / (2 * simDx3 T C.xr))) (asFam f) sch.1 sch.2 (zip3 om)),
   ofFam (multiExchange3 T C.g C.full [0, 1, 2] (asFam f) sch.2))

/-- One component of the filter (laplacian_filter_mpi_3d.py:387-397). -/
noncomputable def scalarFilter3 (C : Cfg3) (order : ℕ) (ty : String) (sch : Fin 3 → ℕ → Sched3) (v : World C3 C3 ℝ) (b : FilterBufs ℝ) :
    World C3 C3 ℝ × FilterBufs ℝ :=
  if ty = "multiplicative" then multiplicativeFilter T C.g 1 C.full order (sch 0) v b else convolutionFilter T C.g 1 C.full order sch v b

/-- `self.filter_vector_field(vector_field=self.vorticity_field)` (F3D.py:282-297, 412): `buffer_vector_field[0]` is the flux buffer,
`buffer_vector_field[1]` the field buffer. -/
noncomputable def callFilter3 (C : Cfg3) (sch : Scheds3) (S : Sim3 T) : Sim3 T :=
  match C.flt with
  | none => S
  | some (order, ty) =>
    let r := vectorFilter (scalarFilter3 (T := T) C order ty) sch.flt S.om ⟨S.bufV 1, S.bufV 0⟩
    { S with om := r.1, bufV := ![r.2.flux, r.2.fieldBuf, S.bufV 2] }

/-- `self.penalise_field_towards_boundary(vector_field=self.vorticity_field)` (F3D.py:383) on all ranks; the call raises if it raises on some rank
(what the failing call did to the arrays before is not modelled). -/
noncomputable def callPen3 (C : Cfg3) (S : Sim3 T) : Out3 T :=
  let r := fun c => penaliseVec3 T C.g C.w (simDx3 T C.xr) (position3 T C.g C.xr c 0) (position3 T C.g C.xr c 1) (position3 T C.g C.xr c 2) c
    fun j => S.om j c
  match (ranks3 T).findSome? fun c => errOf (r c) with
  | some e => (S, some e)
  | none => ({ S with om := fun j c => okOr (fun j => S.om j c) (r c) j }, none)

/-- `self.curl(curl=self.velocity_field, field=self.stream_func_field, prefactor=0.5 / dx)` (F3D.py:388-392). The exchange also refreshes the
ghost cells of the stream function. -/
noncomputable def callCurl3 (C : Cfg3) (K : Kern3) (sch : Sched3) (S : Sim3 T) : Sim3 T :=
  { S with
    vel := unzip3 (stencilZero3 T C.g C.full [0, 1, 2] 1 true ((0, 0, 0) : ℝ × ℝ × ℝ) (K.curl (0.5 / simDx3 T C.xr)) (asFam S.stream) sch.1 sch.2 (zip3 S.vel))
    stream := ofFam (multiExchange3 T C.g C.full [0, 1, 2] (asFam S.stream) sch.2) }

/-- `update_velocity_with_free_stream` (F3D.py:304-325): the whole arrays. -/
def freeStream3 (C : Cfg3) (fs : Fin 3 → ℝ) (S : Sim3 T) : Sim3 T :=
  if C.freeStream then { S with vel := fun j c p => S.vel j c p + fs j } else S

variable [NeZero T.gz] [NeZero T.gy] [NeZero T.gx]

/-- `self.unbounded_poisson_solver.vector_field_solve(...)` (F3D.py:384-387). The copies to and from the doubled domain raise an MPI error if a rank asks for a
partner outside the topology. -/
noncomputable def callSolve3 (C : Cfg3) (s : Fin 3 → List Ev × List Ev) (S : Sim3 T) : Out3 T :=
  match (ranks3 T).findSome? fun c => errOf (toPosts3 T C.g (distDims3 T) c) with
  | some e => (S, some e)
  | none => match (ranks3 T).findSome? fun c => errOf (fromPosts3 T C.g (distDims3 T) c) with
    | some e => (S, some e)
    | none =>
      let r := vectorSolve3 T C.g S.solver S.stream S.om s
      ({ S with solver := r.1, stream := r.2 }, none)

/-- `compute_flow_velocity` (F3D.py:382-393). -/
noncomputable def flowVelocity3 (C : Cfg3) (K : Kern3) (sch : Scheds3) (fs : Fin 3 → ℝ) (S : Sim3 T) : Out3 T :=
  ((callPen3 C S).andThen fun S => callSolve3 C sch.solve S).andThen fun S => (freeStream3 C fs (callCurl3 C K sch.curl S), none)

omit [NeZero T.gz] [NeZero T.gy] [NeZero T.gx] in
/-- The part of `rotational_form_navier_stokes_timestep` before the velocity is computed (F3D.py:395-412). -/
noncomputable def vorticityStep3 (C : Cfg3) (K : Kern3) (sch : Scheds3) (dt : ℝ) (S : Sim3 T) : Sim3 T :=
  let r := callUpd3 (T := T) C K sch.upd dt S.om (cross3 S.vel S.om)
  callFilter3 C sch (callDiffV3 C K sch dt { S with om := r.1, bufV := r.2 })

/-- `rotational_form_navier_stokes_timestep` (F3D.py:395-413). -/
noncomputable def nsStep3 (C : Cfg3) (K : Kern3) (sch : Scheds3) (dt : ℝ) (fs : Fin 3 → ℝ) (S : Sim3 T) : Out3 T :=
  flowVelocity3 C K sch fs (vorticityStep3 C K sch dt S)

/-- `navier_stokes_with_forcing_timestep` (F3D.py:415-424). -/
noncomputable def nsForcingStep3 (C : Cfg3) (K : Kern3) (sch : Scheds3) (dt : ℝ) (fs : Fin 3 → ℝ) (S : Sim3 T) : Out3 T :=
  let r := callUpd3 (T := T) C K sch.force dt S.om S.forcing
  (nsStep3 C K sch dt fs { S with om := r.1, forcing := r.2 }).andThen fun S => ({ S with forcing := fun _ _ _ => 0 }, none)

/-- `self.flow_time_step` as set by `finalise_flow_timestep` (F3D.py:336-345). `fs` is the keyword argument `free_stream_velocity`, if given: the Navier-Stokes
steps have no default for it (TypeError before anything is done), the passive ones ignore it. -/
noncomputable def flowStep3 (C : Cfg3) (K : Kern3) (sch : Scheds3) (dt : ℝ) (fs : Option (Fin 3 → ℝ)) (S : Sim3 T) : Out3 T :=
  if isNS C.flowType then
    match fs with
    | none => (S, some .typeError)
    | some fs => if C.flowType = "navier_stokes" then nsStep3 C K sch dt fs S else nsForcingStep3 C K sch dt fs S
  else if C.flowType = "passive_vector" then (vectorStep3 C K sch dt S, none)
  else (scalarStep3 C K sch dt S, none)

/-- `time_step` (F3D.py:347-354). -/
noncomputable def timeStep3 (C : Cfg3) (K : Kern3) (sch : Scheds3) (dt : ℝ) (fs : Option (Fin 3 → ℝ)) (S : Sim3 T) : Out3 T :=
  (flowStep3 C K sch dt fs S).andThen fun S => ({ S with time := S.time + dt }, none)

/-! ## Diagnostics -/

omit [NeZero T.gz] [NeZero T.gy] [NeZero T.gx] in
/-- The indices of `a[gs:-gs, gs:-gs, gs:-gs]`. -/
def innerCells3 (T : Cart3) (g : ℕ) : List C3 :=
  (rangeOf (innerR T.nz g)).flatMap fun i => (rangeOf (innerR T.ny g)).flatMap fun j => (rangeOf (innerR T.nx g)).map fun k => (i, j, k)

omit [NeZero T.gz] [NeZero T.gy] [NeZero T.gx] in
/-- `compute_stable_timestep` (F3D.py:426-449): the state (the velocity magnitude is left in the scalar buffer) and the result. `tol` is
`get_test_tol(precision)`. -/
noncomputable def stableDt3 (C : Cfg3) (tol dtPrefac : ℝ) (S : Sim3 T) : Sim3 T × Except PyErr ℝ :=
  let mag : World C3 C3 ℝ := fun c p => |S.vel 0 c p| + |S.vel 1 c p| + |S.vel 2 c p|
  let dx := simDx3 T C.xr
  let local_ : C3 → Except PyErr ℝ := fun c => do
    let m ← amax ((innerCells3 T C.g).map (mag c))
    .ok (minInf (C.cfl * dx / (m + tol)) (divInf (0.9 * dx ^ 2 / (2 * 3)) (C.nu + tol)))
  ({ S with buf := mag }, (allreduce min (ranks3 T) local_).map fun dt => dt * dtPrefac)

omit [NeZero T.gz] [NeZero T.gy] [NeZero T.gx] in
/-- `get_max_vorticity` (F3D.py:471-476): all three components; only Navier-Stokes simulators have a `vorticity_field` (F3D.py:189-192). -/
noncomputable def maxVorticity3 (C : Cfg3) (S : Sim3 T) : Except PyErr ℝ :=
  if isNS C.flowType then
    allreduce max (ranks3 T) fun c => amax (([0, 1, 2] : List (Fin 3)).flatMap fun j => (innerCells3 T C.g).map (S.om j c))
  else .error .attributeError

omit [NeZero T.gz] [NeZero T.gy] [NeZero T.gx] in
/-- `get_vorticity_divergence_l2_norm` (F3D.py:451-469): the state (divergence in the scalar buffer, ghost cells of the vorticity refreshed) and
the result. `compute_divergence` exists only for Navier-Stokes simulators. -/
noncomputable def divNorm3 (C : Cfg3) (K : Kern3) (sch : Sched3) (S : Sim3 T) : Sim3 T × Except PyErr ℝ :=
  if isNS C.flowType then
    let dx := simDx3 T C.xr
    let d := stencilZero3 T C.g C.full [0, 1, 2] 1 false (0 : ℝ) (K.div (1.0 / dx)) (asFam S.om) sch.1 sch.2 S.buf
    let S' := { S with buf := d, om := ofFam (multiExchange3 T C.g C.full [0, 1, 2] (asFam S.om) sch.2) }
    let localSq : C3 → Except PyErr ℝ := fun c => .ok (Real.sqrt (((innerCells3 T C.g).map fun p => d c p ^ 2).sum) ^ 2)
    (S', (allreduce (fun a b => a + b) (ranks3 T) localSq).map fun sq => Real.sqrt sq * dx ^ (1.5 : ℝ))
  else (S, .error .attributeError)

end Sopht
