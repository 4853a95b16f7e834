import Verif.Stencil2D
import Verif.Penalise
import Verif.Poisson
import Mathlib.Order.WithBot

/-!
# The 2D flow simulator

Models `UnboundedFlowSimulator2D` (`sopht_mpi/simulator/flow/flow_simulators_mpi_2d.py`, below "F2D.py").  Floating point numbers are real
numbers.  The arrays of all ranks are kept together; a call on the simulator is the call made by all ranks, and `Scheds2` says how the
messages of its ghost exchanges and field copies move.  The number crunching kernels are parameters (`Kern2`).
-/

namespace Sopht

/-! ## Construction -/

/-- What the constructor is given (F2D.py:23-36). The rank distribution `(py, px)` is the one in use (given, or chosen by MPI). -/
structure SimArgs2 where
  gy : ℕ
  gx : ℕ
  py : ℕ
  px : ℕ
  flowType : String
  freeStream : Bool
  g : ℕ
  /-- `penalty_zone_width` (default 2, F2D.py:83-87) -/
  width : PyNum

/-- `supported_flow_types` (F2D.py:64-68). -/
def flowTypes2 : List String := ["passive_scalar", "navier_stokes", "navier_stokes_with_forcing"]

/-- The checks of the constructor that reach the caller (F2D.py:69-74, 80; `MPIConstruct2D` raises for bad distributions). -/
def simCheck2 (a : SimArgs2) : Except PyErr Cart2 :=
  if a.flowType ∉ flowTypes2 then .error .valueError
  else if a.flowType = "passive_scalar" ∧ a.freeStream then .error .valueError
  else match mkCart2 a.gy a.gx a.py a.px false with
    | .error e => .error e
    | .ok T => match ghostCommCheck (.int a.g) with
      | .error e => .error e
      | .ok _ => .ok T

/-- What `compile_kernels` does (F2D.py:166-240): the attributes it sets, in order, each with the outcome of the generator that makes it. -/
def compileSeq2 (a : SimArgs2) (T : Cart2) : List (String × Except PyErr Unit) :=
  [("diffusion_timestep", checkSupport a.g 1), ("advection_timestep", checkSupport a.g 2)] ++
  (if a.flowType = "navier_stokes" ∨ a.flowType = "navier_stokes_with_forcing" then
    [("unbounded_poisson_solver", (doublingInit2 (.int a.g) T).map fun _ => ()), ("curl", checkSupport a.g 1),
     ("penalise_field_towards_boundary", penCheck a.width)] else []) ++
  (if a.flowType = "navier_stokes_with_forcing" then
    [("update_vorticity_from_velocity_forcing", checkSupport a.g 1), ("set_field", .ok ())] else []) ++
  [("update_velocity_with_free_stream", .ok ())]

/-- A generator raised. -/
def raised (x : String × Except PyErr Unit) : Bool := match x.2 with
  | .ok _ => false
  | .error _ => true

/-- The attributes that exist after the constructor: an exception in `compile_kernels` is logged and swallowed (F2D.py:88-92). -/
def attrs2 (a : SimArgs2) (T : Cart2) : List String := ((compileSeq2 a T).takeWhile fun x => !raised x).map (·.1)

/-! ## The domain -/

/-- `local_x` / `local_y` (F2D.py:114-133) of a rank with coordinate `c` along the axis, `n` cells per rank. -/
noncomputable def localCoords (dx : ℝ) (g n : ℕ) (c : ℤ) (i : ℤ) : ℝ :=
  let shift := dx / 2
  let ghostShift := g * dx
  let substart : ℝ := ((c * n : ℤ) : ℝ) * dx
  let subend : ℝ := ((c * n + n : ℤ) : ℝ) * dx
  linspace (shift + substart - ghostShift) (subend - shift + ghostShift) (n + 2 * g) i

/-- `dx` (F2D.py:113). -/
noncomputable def simDx2 (T : Cart2) (xr : ℝ) : ℝ := xr / T.gx

/-- `position_field` of rank `c` (F2D.py:110-136): `np.meshgrid(local_y, local_x, indexing="ij")` upside down. -/
noncomputable def position2 (T : Cart2) (g : ℕ) (xr : ℝ) (c : C2) : Fin 2 → C2 → ℝ :=
  let ly := localCoords (simDx2 T xr) g T.ny c.1
  let lx := localCoords (simDx2 T xr) g T.nx c.2
  let mesh : Fin 2 → C2 → ℝ := ![fun p => ly p.1, fun p => lx p.2]
  fun a => mesh (1 - a)

/-! ## State and steps -/

/-- The kernels of the `sopht` package used by the simulator: diffusion flux (argument: prefactor), advection flux (argument: `inv_dx`), out-of-plane
curl, curl of the forcing. -/
structure Kern2 where
  diff : ℝ → (Unit → C2 → ℝ) → ℝ
  adv : ℝ → (Option (Fin 2) → C2 → ℝ) → ℝ
  curl : ℝ → (Unit → C2 → ℝ) → ℝ × ℝ
  upd : ℝ → (Fin 2 → C2 → ℝ) → ℝ

/-- Constants of a simulator: those of the constructor, the attributes it has, the slab axis of its Poisson solver. -/
structure Cfg2 where
  flowType : String
  freeStream : Bool
  g : ℕ
  xr : ℝ
  nu : ℝ
  cfl : ℝ
  w : ℕ
  d : Fin 2
  attrs : List String

/-- `self.penalty_zone_width` as the number it is used as. -/
def widthOf : PyNum → ℕ
  | .int n => n.toNat
  | _ => 0

/-- The simulator as the constructor leaves it (F2D.py:23-98). The attributes of a solver that does not exist are irrelevant: using it raises. -/
def simCfg2 (a : SimArgs2) (T : Cart2) (xr nu cfl : ℝ) : Cfg2 :=
  { flowType := a.flowType, freeStream := a.freeStream, g := a.g, xr, nu, cfl, w := widthOf a.width,
    d := match doublingInit2 (.int a.g) T with
      | .ok d => d
      | .error _ => 0,
    attrs := attrs2 a T }

/-- The arrays of all ranks (F2D.py:147-164), the time and the Poisson solver. `vorticity_field` is a view of `primary_scalar_field` (`prim`). -/
structure Sim2 (T : Cart2) where
  prim : World C2 C2 ℝ
  vel : Fin 2 → World C2 C2 ℝ
  buf : World C2 C2 ℝ
  stream : World C2 C2 ℝ
  forcing : Fin 2 → World C2 C2 ℝ
  time : ℝ
  solver : Solver2 T

/-- `init_fields` (F2D.py:147-164) and the initial time. -/
noncomputable def simInit2 (T : Cart2) [NeZero T.gy] [NeZero T.gx] (xr time : ℝ) (dbl0 : World C2 C2 ℝ) (conv0 : Dbl2 T → ℂ) : Sim2 T :=
  { prim := fun _ _ => 0, vel := fun _ _ _ => 0, buf := fun _ _ => 0, stream := fun _ _ => 0, forcing := fun _ _ _ => 0, time,
    solver := solverInit2 T xr dbl0 conv0 }

/-- How the messages of one ghost exchange move: what each rank has seen at its interior pass, and all of it. -/
abbrev Sched2 := (C2 → List Ev) × List Ev

/-- Message schedules of one time step. -/
structure Scheds2 where
  upd : Sched2
  adv : Sched2
  diff : Sched2
  toDbl : List Ev
  fromDbl : List Ev
  curl : Sched2

/-- Outcome of a call: the state (exceptions do not undo what was done before) and the exception, if one was raised. -/
abbrev Out2 (T : Cart2) := Sim2 T × Option PyErr

/-- The next statement runs only if no exception was raised. -/
def Out2.andThen {T : Cart2} (r : Out2 T) (f : Sim2 T → Out2 T) : Out2 T := match r.2 with
  | some e => (r.1, some e)
  | none => f r.1

/-- `self.name` used as a function: AttributeError if `compile_kernels` did not get that far. -/
def useAttr2 {T : Cart2} (C : Cfg2) (name : String) (S : Sim2 T) (f : Sim2 T → Out2 T) : Out2 T :=
  if name ∈ C.attrs then f S else (S, some .attributeError)

/-- The array as `ravel()` shows it. -/
def toFlat2 (T : Cart2) (g : ℕ) (a : World C2 C2 ℝ) : World C2 ℤ ℝ := fun c i => a c (unflat2 T g i)
/-- … and back. -/
def ofFlat2 (T : Cart2) (g : ℕ) (v : World C2 ℤ ℝ) : World C2 C2 ℝ := fun c p => v c (flat2 T g p)

variable {T : Cart2}

/-- `self.advection_timestep(...)` (F2D.py:261-266). -/
noncomputable def callAdv2 (C : Cfg2) (K : Kern2) (sch : Sched2) (dt : ℝ) (S : Sim2 T) : Sim2 T :=
  let r := advectionStep2 T C.g false K.adv (dt / simDx2 T C.xr) sch.1 sch.2
    (fun c i => toFlat2 T C.g (S.vel i.1) c i.2) ⟨toFlat2 T C.g S.prim, S.buf⟩
  { S with prim := ofFlat2 T C.g r.2.field, buf := r.2.flux, vel := fun j => ofFlat2 T C.g fun c i => r.1 c (j, i) }

/-- `self.diffusion_timestep(...)` (F2D.py:267-271). -/
noncomputable def callDiff2 (C : Cfg2) (K : Kern2) (sch : Sched2) (dt : ℝ) (S : Sim2 T) : Sim2 T :=
  let dx := simDx2 T C.xr
  let r := diffusionStep2 T C.g false (K.diff (C.nu * dt / dx / dx)) sch.1 sch.2 ⟨toFlat2 T C.g S.prim, S.buf⟩
  { S with prim := ofFlat2 T C.g r.field, buf := r.flux }

/-- `advection_and_diffusion_timestep` (F2D.py:260-271). -/
noncomputable def advDiffStep2 (C : Cfg2) (K : Kern2) (sch : Scheds2) (dt : ℝ) (S : Sim2 T) : Out2 T :=
  (useAttr2 C "advection_timestep" S fun S => (callAdv2 C K sch.adv dt S, none)).andThen fun S =>
    useAttr2 C "diffusion_timestep" S fun S => (callDiff2 C K sch.diff dt S, none)

/-- The exception, if one was raised. -/
def errOf {α : Type} : Except PyErr α → Option PyErr
  | .error e => some e
  | .ok _ => none

/-- The result, or `d` if an exception was raised. -/
def okOr {α : Type} (d : α) : Except PyErr α → α
  | .ok a => a
  | .error _ => d

/-- `self.penalise_field_towards_boundary(field=self.vorticity_field)` (F2D.py:274) on all ranks; the call raises if it raises on some rank. -/
noncomputable def callPen2 (C : Cfg2) (S : Sim2 T) : Out2 T :=
  let r := fun c => penalise2 T C.g C.w (simDx2 T C.xr) (position2 T C.g C.xr c 0) (position2 T C.g C.xr c 1) c (S.prim c)
  match (ranks2 T).findSome? fun c => errOf (r c) with
  | some e => (S, some e)
  | none => ({ S with prim := fun c => okOr (S.prim c) (r c) }, none)

/-- `self.curl(curl=self.velocity_field, field=self.stream_func_field, prefactor=0.5 / dx)` (F2D.py:278-282). The exchange also refreshes the
ghost cells of the stream function. -/
noncomputable def callCurl2 (C : Cfg2) (K : Kern2) (sch : Sched2) (S : Sim2 T) : Sim2 T :=
  let w : World C2 (Unit × ℤ) ℝ := fun c i => toFlat2 T C.g S.stream c i.2
  let u := stencilZero2 T C.g false [()] 1 ((0, 0) : ℝ × ℝ) (K.curl (0.5 / simDx2 T C.xr)) w sch.1 sch.2 fun c p => (S.vel 0 c p, S.vel 1 c p)
  { S with
    vel := ![fun c p => (u c p).1, fun c p => (u c p).2]
    stream := ofFlat2 T C.g fun c i => multiExchange2 T C.g false [()] w sch.2 c ((), i) }

variable [NeZero T.gy] [NeZero T.gx]

/-- `self.unbounded_poisson_solver.solve(...)` (F2D.py:275-277). -/
noncomputable def callSolve2 (C : Cfg2) (s1 s2 : List Ev) (S : Sim2 T) : Sim2 T :=
  let r := solve2 T C.g C.d S.solver S.stream S.prim s1 s2
  { S with solver := r.1, stream := r.2 }

/-- `compute_velocity_from_vorticity` (F2D.py:273-282). -/
noncomputable def velFromVort2 (C : Cfg2) (K : Kern2) (sch : Scheds2) (S : Sim2 T) : Out2 T :=
  ((useAttr2 C "penalise_field_towards_boundary" S (callPen2 C)).andThen fun S =>
    useAttr2 C "unbounded_poisson_solver" S fun S => (callSolve2 C sch.toDbl sch.fromDbl S, none)).andThen fun S =>
    useAttr2 C "curl" S fun S => (callCurl2 C K sch.curl S, none)

omit [NeZero T.gy] [NeZero T.gx] in
/-- `update_velocity_with_free_stream` (F2D.py:222-240): the whole arrays. -/
def freeStream2 (C : Cfg2) (fs : Fin 2 → ℝ) (S : Sim2 T) : Sim2 T :=
  if C.freeStream then { S with vel := fun j c p => S.vel j c p + fs j } else S

/-- `navier_stokes_timestep` (F2D.py:284-287). -/
noncomputable def nsStep2 (C : Cfg2) (K : Kern2) (sch : Scheds2) (dt : ℝ) (fs : Fin 2 → ℝ) (S : Sim2 T) : Out2 T :=
  ((advDiffStep2 C K sch dt S).andThen fun S => velFromVort2 C K sch S).andThen fun S =>
    useAttr2 C "update_velocity_with_free_stream" S fun S => (freeStream2 C fs S, none)

omit [NeZero T.gy] [NeZero T.gx] in
/-- `self.update_vorticity_from_velocity_forcing(...)` (F2D.py:290-294). The exchange also refreshes the ghost cells of the forcing. -/
noncomputable def callUpd2 (C : Cfg2) (K : Kern2) (sch : Sched2) (dt : ℝ) (S : Sim2 T) : Sim2 T :=
  let w : World C2 (Fin 2 × ℤ) ℝ := fun c i => toFlat2 T C.g (S.forcing i.1) c i.2
  { S with
    prim := stencilAdd2 T C.g false [0, 1] 1 (K.upd (dt / (2 * simDx2 T C.xr))) w sch.1 sch.2 S.prim
    forcing := fun j => ofFlat2 T C.g fun c i => multiExchange2 T C.g false [0, 1] w sch.2 c (j, i) }

/-- `navier_stokes_with_forcing_timestep` (F2D.py:289-298). -/
noncomputable def nsForcingStep2 (C : Cfg2) (K : Kern2) (sch : Scheds2) (dt : ℝ) (fs : Fin 2 → ℝ) (S : Sim2 T) : Out2 T :=
  ((useAttr2 C "update_vorticity_from_velocity_forcing" S fun S => (callUpd2 C K sch.upd dt S, none)).andThen fun S =>
    nsStep2 C K sch dt fs S).andThen fun S =>
    useAttr2 C "set_field" S fun S => ({ S with forcing := fun _ _ _ => 0 }, none)

/-- `self.flow_time_step` as set by `finalise_flow_timestep` (F2D.py:242-249). `fs` is `free_stream_velocity` (default `(0.0, 0.0)`; the passive
scalar step ignores it). -/
noncomputable def flowStep2 (C : Cfg2) (K : Kern2) (sch : Scheds2) (dt : ℝ) (fs : Fin 2 → ℝ) (S : Sim2 T) : Out2 T :=
  if C.flowType = "navier_stokes" then nsStep2 C K sch dt fs S
  else if C.flowType = "navier_stokes_with_forcing" then nsForcingStep2 C K sch dt fs S
  else advDiffStep2 C K sch dt S

/-- `time_step` (F2D.py:251-258). -/
noncomputable def timeStep2 (C : Cfg2) (K : Kern2) (sch : Scheds2) (dt : ℝ) (fs : Fin 2 → ℝ) (S : Sim2 T) : Out2 T :=
  (flowStep2 C K sch dt fs S).andThen fun S => ({ S with time := S.time + dt }, none)

/-! ## Diagnostics -/

/-- `np.amax` of an array given by the list of its elements: ValueError if there are none. -/
noncomputable def amax : List ℝ → Except PyErr ℝ
  | [] => .error .valueError
  | a :: l => .ok (l.foldl max a)

/-- The indices `r.1, …, r.2 - 1`. -/
def rangeOf (r : ℤ × ℤ) : List ℤ := (irange (r.2 - r.1).toNat).map fun i => r.1 + i

omit [NeZero T.gy] [NeZero T.gx] in
/-- The elements of `a[gs:-gs, gs:-gs]`. -/
def innerElems2 (T : Cart2) (g : ℕ) (a : C2 → ℝ) : List ℝ :=
  (rangeOf (innerR T.ny g)).flatMap fun i => (rangeOf (innerR T.nx g)).map fun j => a (i, j)

/-- `allreduce(x, op)` over the ranks in `rs` with values `x` (MPI semantics: every rank gets the reduction of all values); if the
computation of the value raises on some rank, so does the call. -/
noncomputable def allreduce {R : Type} (op : ℝ → ℝ → ℝ) (rs : List R) (x : R → Except PyErr ℝ) : Except PyErr ℝ := do
  match ← rs.mapM x with
  | [] => .error .mpiError
  | a :: l => .ok (l.foldl op a)

/-- `a / b` for a NumPy `a > 0`: infinity if `b` is zero (no exception). -/
noncomputable def divInf (a b : ℝ) : WithTop ℝ := if b = 0 then ⊤ else ((a / b : ℝ) : WithTop ℝ)

/-- `min(a, b)` where `b` may be infinite. -/
noncomputable def minInf (a : ℝ) (b : WithTop ℝ) : ℝ := match b with
  | ⊤ => a
  | (l : ℝ) => min a l

omit [NeZero T.gy] [NeZero T.gx] in
/-- `compute_stable_timestep` (F2D.py:300-321): the state (the velocity magnitude is left in the scalar buffer) and the result. `tol` is
`get_test_tol(precision)`. -/
noncomputable def stableDt2 (C : Cfg2) (tol dtPrefac : ℝ) (S : Sim2 T) : Sim2 T × Except PyErr ℝ :=
  let mag : World C2 C2 ℝ := fun c p => |S.vel 0 c p| + |S.vel 1 c p|
  let dx := simDx2 T C.xr
  let local_ : C2 → Except PyErr ℝ := fun c => do
    let m ← amax (innerElems2 T C.g (mag c))
    let lim := divInf (0.9 * dx ^ 2 / (2 * 2)) C.nu
    .ok (minInf (C.cfl * dx / (m + tol)) lim)
  ({ S with buf := mag }, (allreduce min (ranks2 T) local_).map fun dt => dt * dtPrefac)

omit [NeZero T.gy] [NeZero T.gx] in
/-- `get_max_vorticity` (F2D.py:323-328); a passive scalar simulator has no `vorticity_field` (F2D.py:159-160). -/
noncomputable def maxVorticity2 (C : Cfg2) (S : Sim2 T) : Except PyErr ℝ :=
  if C.flowType = "passive_scalar" then .error .attributeError
  else allreduce max (ranks2 T) fun c => amax (innerElems2 T C.g (S.prim c))

end Sopht
