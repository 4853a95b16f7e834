import Verif.Ghost3D
import Verif.Stencil2D

/-!
# 3D stencil kernels with overlapped ghost exchange

Models the pattern shared by `diffusion_flux_mpi_3d.py`, `curl_mpi_3d.py`, `divergence_mpi_3d.py`, `advection_flux_mpi_3d.py` and
`update_vorticity_from_velocity_forcing_mpi_3d.py` (all in `sopht_mpi/numeric/eulerian_grid_ops/stencil_ops_3d/`), and the time
steps built on them.  As in `Verif.Stencil2D` the pystencils kernels are arbitrary functions `f`.
-/

namespace Sopht

/-- Index ranges along z, y, x of the arrays handed to one call of the kernel. -/
abbrev View3 := (ℤ × ℤ) × (ℤ × ℤ) × (ℤ × ℤ)

/-- The call computes cell `p` (pystencils leaves out a rim of `k` cells). -/
def writes3 (k : ℕ) (V : View3) (p : C3) : Prop := inPass k V.1 p.1 ∧ inPass k V.2.1 p.2.1 ∧ inPass k V.2.2 p.2.2

instance (k : ℕ) (V : View3) (p : C3) : Decidable (writes3 k V p) := by unfold writes3; infer_instance

/-- "crunch interior stencil": diffusion_flux_mpi_3d.py:51-59, advection_flux_mpi_3d.py:39-53, divergence_mpi_3d.py:47-58,
update_vorticity_from_velocity_forcing_mpi_3d.py:49-63, 216-236. The curl kernel (`isCurl`) slices `[:, g:-g, g:-g]` of a 4D array, so the x
axis is not restricted (curl_mpi_3d.py:43-47). -/
def interiorView3 (T : Cart3) (g : ℕ) (isCurl : Bool) : View3 :=
  (innerR T.nz g, innerR T.ny g, if isCurl then fullR T.nx g else innerR T.nx g)

/-- "crunch boundary numbers", start/end of Z, Y, X: diffusion_flux_mpi_3d.py:72-158, advection_flux_mpi_3d.py:66-195,
curl_mpi_3d.py:59-156, divergence_mpi_3d.py:70-164, update_vorticity_from_velocity_forcing_mpi_3d.py:75-176, 248-394. -/
def boundaryViews3 (T : Cart3) (g k : ℕ) : List View3 :=
  [(loR T.nz g k, innerR T.ny g, innerR T.nx g), (hiR T.nz g k, innerR T.ny g, innerR T.nx g),
   (fullR T.nz g, loR T.ny g k, innerR T.nx g), (fullR T.nz g, hiR T.ny g k, innerR T.nx g),
   (fullR T.nz g, fullR T.ny g, loR T.nx g k), (fullR T.nz g, fullR T.ny g, hiR T.nx g k)]

section Kernel
variable {ι K β : Type}

/-- Value of an array at offset `d` from cell `p`. -/
def shift3 (p d : C3) : C3 := (p.1 + d.1, p.2.1 + d.2.1, p.2.2 + d.2.2)

/-- One call of a number crunching kernel: input arrays `flds`, output array `out`. -/
def pass3 (k : ℕ) (op : β → β → β) (f : (ι → C3 → K) → β) (flds : ι → C3 → K) (out : C3 → β) (V : View3) : C3 → β := fun p =>
  if writes3 k V p then op (out p) (f fun i d => flds i (shift3 p d)) else out p

/-- A kernel on one rank: interior pass on the arrays as they are while messages are in flight (`A1`), then the boundary passes on the
arrays after `exchange_finalise` (`A2`). -/
def kernel3 (T : Cart3) (g k : ℕ) (isCurl : Bool) (op : β → β → β) (f : (ι → C3 → K) → β) (A1 A2 : ι → C3 → K) (out : C3 → β) :
    C3 → β :=
  (boundaryViews3 T g k).foldl (pass3 k op f A2) (pass3 k op f A1 out (interiorView3 T g isCurl))

/-- Exchange of several arrays posted one after the other before one `exchange_finalise` (`comps` in posting order, e.g. field then
velocity, advection_flux_mpi_3d.py:35-36; velocity then penalised velocity, update_vorticity_from_velocity_forcing_mpi_3d.py:212-213). -/
def multiMsgs3 (T : Cart3) (g : ℕ) (full : Bool) (comps : List ι) : List (Msg C3 (ι × C3)) :=
  allMsgs (ranks3 T) (vecPosts comps (posts3 T g full))

/-- The arrays after the events `sched`. -/
def multiExchange3 [DecidableEq ι] (T : Cart3) (g : ℕ) (full : Bool) (comps : List ι) (w : World C3 (ι × C3) K) (sched : List Ev) :
    World C3 (ι × C3) K := runNet (multiMsgs3 T g full comps) w sched

/-- A kernel on all ranks: `s1 c` is what has happened to the messages when rank `c` does its interior pass, `s` everything that
has happened when `exchange_finalise` returns; `out c` is the output array of rank `c`. -/
def stencil3 [DecidableEq ι] (T : Cart3) (g : ℕ) (full : Bool) (comps : List ι) (k : ℕ) (isCurl : Bool) (op : β → β → β)
    (f : (ι → C3 → K) → β) (w : World C3 (ι × C3) K) (s1 : C3 → List Ev) (s : List Ev) (out : C3 → C3 → β) (c : C3) : C3 → β :=
  kernel3 T g k isCurl op f
    (fun i p => multiExchange3 T g full comps w (s1 c) c (i, p))
    (fun i p => multiExchange3 T g full comps w s c (i, p)) (out c)

/-- "Set physical domain boundary … to zero based on neighboring block": diffusion_flux_mpi_3d.py:160-191, curl_mpi_3d.py:158-194,
divergence_mpi_3d.py:166-198. -/
def zeroSides3 (T : Cart3) (g : ℕ) (z : β) (c : C3) (out : C3 → β) : C3 → β :=
  let setX (r : ℤ × ℤ) (o : C3 → β) : C3 → β := fun p => if r.1 ≤ p.2.2 ∧ p.2.2 < r.2 then z else o p
  let setY (r : ℤ × ℤ) (o : C3 → β) : C3 → β := fun p => if r.1 ≤ p.2.1 ∧ p.2.1 < r.2 then z else o p
  let setZ (r : ℤ × ℤ) (o : C3 → β) : C3 → β := fun p => if r.1 ≤ p.1 ∧ p.1 < r.2 then z else o p
  let o := if prevX3 T c = none then setX (sliceR (T.nx + 2 * g) 0 (g + 1)) out else out
  let o := if nextX3 T c = none then setX (pyStart (T.nx + 2 * g) (-g - 1), T.nx + 2 * g) o else o
  let o := if prevY3 T c = none then setY (sliceR (T.ny + 2 * g) 0 (g + 1)) o else o
  let o := if nextY3 T c = none then setY (pyStart (T.ny + 2 * g) (-g - 1), T.ny + 2 * g) o else o
  let o := if prevZ3 T c = none then setZ (sliceR (T.nz + 2 * g) 0 (g + 1)) o else o
  if nextZ3 T c = none then setZ (pyStart (T.nz + 2 * g) (-g - 1), T.nz + 2 * g) o else o

/-- Overwriting kernels with zeroed physical boundary: `diffusion_flux_pyst_mpi_kernel_3d` (diffusion_flux_mpi_3d.py:35-191),
`divergence_pyst_mpi_kernel_3d` (divergence_mpi_3d.py:32-198), `curl_pyst_mpi_kernel_3d` (curl_mpi_3d.py:29-194; `isCurl`, `β` the triples). -/
def stencilZero3 [DecidableEq ι] (T : Cart3) (g : ℕ) (full : Bool) (comps : List ι) (k : ℕ) (isCurl : Bool) (z : β)
    (f : (ι → C3 → K) → β) (w : World C3 (ι × C3) K) (s1 : C3 → List Ev) (s : List Ev) (out : C3 → C3 → β) (c : C3) : C3 → β :=
  zeroSides3 T g z c (stencil3 T g full comps k isCurl (fun _ b => b) f w s1 s out c)

/-- Accumulating kernels: `advection_flux_conservative_eno3_pyst_mpi_kernel_3d` (advection_flux_mpi_3d.py:25-195),
`update_vorticity_from_velocity_forcing_pyst_mpi_kernel_3d` and `update_vorticity_from_penalised_velocity_pyst_mpi_kernel_3d`
(update_vorticity_from_velocity_forcing_mpi_3d.py:27-176, 200-394). -/
def stencilAdd3 [DecidableEq ι] [Add β] (T : Cart3) (g : ℕ) (full : Bool) (comps : List ι) (k : ℕ) (f : (ι → C3 → K) → β)
    (w : World C3 (ι × C3) K) (s1 : C3 → List Ev) (s : List Ev) (out : C3 → C3 → β) (c : C3) : C3 → β :=
  stencil3 T g full comps k false (fun a b => a + b) f w s1 s out c

/-- `elementwise_sum_pyst_kernel_3d(sum_field=field, field_1=field, field_2=flux)`: the whole arrays, ghosts included. -/
def addFlux3 [Add K] (v : World C3 C3 K) (flux : C3 → C3 → K) : World C3 C3 K := fun c p => v c p + flux c p

/-- `diffusion_timestep_euler_forward_pyst_mpi_kernel_3d` (diffusion_timestep_mpi_3d.py:42-62); `f` is the flux with its prefactor. -/
def diffusionStep3 [Add K] [Zero K] (T : Cart3) (g : ℕ) (full : Bool) (f : (Unit → C3 → K) → K)
    (s1 : C3 → List Ev) (s : List Ev) (st : StepState C3 C3 K) : StepState C3 C3 K :=
  let w : World C3 (Unit × C3) K := fun c i => st.field c i.2
  let flux := stencilZero3 T g full [()] 1 false 0 f w s1 s st.flux
  ⟨addFlux3 (fun c i => multiExchange3 T g full [()] w s c ((), i)) flux, flux⟩

/-- Fields and flux buffer of a vector time step; the three components share one flux buffer. -/
structure VecStepState (K : Type) where
  field : Fin 3 → World C3 C3 K
  flux : C3 → C3 → K

/-- `vector_field_diffusion_timestep_euler_forward_pyst_mpi_kernel_3d` (diffusion_timestep_mpi_3d.py:66-90): components 0, 1, 2 in turn.
`sch i` are the schedules of the exchange of component `i`. -/
def diffusionVecStep3 [Add K] [Zero K] (T : Cart3) (g : ℕ) (full : Bool) (f : (Unit → C3 → K) → K)
    (sch : Fin 3 → (C3 → List Ev) × List Ev) (st : VecStepState K) : VecStepState K :=
  ([0, 1, 2] : List (Fin 3)).foldl (fun st i =>
    let r := diffusionStep3 T g full f (sch i).1 (sch i).2 ⟨st.field i, st.flux⟩
    ⟨Function.update st.field i r.field, r.flux⟩) st

/-- `advection_timestep_euler_forward_conservative_eno3_pyst_mpi_kernel_3d` (advection_timestep_mpi_3d.py:40-62): inputs are the
field (`none`) and the velocity components (`some i`); `f inv_dx` is the flux kernel. The exchange also refreshes the ghosts of the velocity. -/
def advectionStep3 [AddGroup K] (T : Cart3) (g : ℕ) (full : Bool) (f : K → (Option (Fin 3) → C3 → K) → K) (dtByDx : K)
    (s1 : C3 → List Ev) (s : List Ev) (vel : World C3 (Fin 3 × C3) K) (st : StepState C3 C3 K) :
    World C3 (Fin 3 × C3) K × StepState C3 C3 K :=
  let comps : List (Option (Fin 3)) := [none, some 0, some 1, some 2]
  let w : World C3 (Option (Fin 3) × C3) K := fun c i => match i.1 with
    | none => st.field c i.2
    | some j => vel c (j, i.2)
  let flux0 : C3 → C3 → K := fun _ _ => 0
  let flux := stencilAdd3 T g full comps 2 (f (-dtByDx)) w s1 s flux0
  let w' := multiExchange3 T g full comps w s
  (fun c i => w' c (some i.1, i.2), ⟨addFlux3 (fun c i => w' c (none, i)) flux, flux⟩)

/-- `vector_field_advection_timestep_…_3d` (advection_timestep_mpi_3d.py:66-93): components 0, 1, 2 in turn with one flux buffer. -/
def advectionVecStep3 [AddGroup K] (T : Cart3) (g : ℕ) (full : Bool) (f : K → (Option (Fin 3) → C3 → K) → K) (dtByDx : K)
    (sch : Fin 3 → (C3 → List Ev) × List Ev) (vs : World C3 (Fin 3 × C3) K × VecStepState K) :
    World C3 (Fin 3 × C3) K × VecStepState K :=
  ([0, 1, 2] : List (Fin 3)).foldl (fun vs i =>
    let r := advectionStep3 T g full f dtByDx (sch i).1 (sch i).2 vs.1 ⟨vs.2.field i, vs.2.flux⟩
    (r.1, ⟨Function.update vs.2.field i r.2.field, r.2.flux⟩)) vs

end Kernel

/-- Validation of `field_type` by the 3D generators (diffusion_flux_mpi_3d.py:13-14, diffusion_timestep_mpi_3d.py:18-19,
advection_timestep_mpi_3d.py:17-18) followed by the ghost size check. -/
def genFieldKernel3 (fieldType : String) (ghost support : ℤ) : Except PyErr Unit :=
  if fieldType ≠ "scalar" ∧ fieldType ≠ "vector" then .error .valueError else checkSupport ghost support

end Sopht
