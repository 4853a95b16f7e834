import Verif.Ghost2D

/-!
# 2D stencil kernels with overlapped ghost exchange

Models the pattern shared by `diffusion_flux_mpi_2d.py`, `outplane_field_curl_mpi_2d.py`, `advection_flux_mpi_2d.py` and
`update_vorticity_from_velocity_forcing_mpi_2d.py` (all in `sopht_mpi/numeric/eulerian_grid_ops/stencil_ops_2d/`), and the time
steps built on them.

The number crunching kernels themselves come from the `sopht` package (pystencils), which is not part of the repository: a kernel is an
arbitrary function `f` of the values around a cell; pystencils applies it to all cells of the arrays it is given except a rim of
`k` = kernel support cells (this and the support are trusted).  `op old new` is what is stored: `new` (overwriting kernels) or
`old + new` (accumulating kernels).
-/

namespace Sopht

/-- `check_valid_ghost_size_and_kernel_support` (`sopht_mpi/utils/mpi_utils.py:17-24`), called by every kernel generator with
support 1 (diffusion, curl, divergence, vorticity update, filter) or 2 (advection). -/
def checkSupport (ghost support : ℤ) : Except PyErr Unit := if ghost < support then .error .valueError else .ok ()

/-- The range of indices `a[s:e]` selects on an axis of length `len` (NumPy slices: negative bounds count from the end, bounds are
clipped). -/
def sliceR (len s e : ℤ) : ℤ × ℤ := (pyStart len s, pyStart len e)

/-- `:` -/
def fullR (n g : ℕ) : ℤ × ℤ := (0, n + 2 * g)
/-- `ghost_size : -ghost_size` -/
def innerR (n g : ℕ) : ℤ × ℤ := sliceR (n + 2 * g) g (-g)
/-- `ghost_size - kernel_support : ghost_size + 2 * kernel_support` -/
def loR (n g k : ℕ) : ℤ × ℤ := sliceR (n + 2 * g) (g - k) (g + 2 * k)
/-- `-(ghost_size + 2 * kernel_support) : shape - (ghost_size - kernel_support)` -/
def hiR (n g k : ℕ) : ℤ × ℤ := sliceR (n + 2 * g) (-(g + 2 * k)) (n + 2 * g - (g - k))

/-- pystencils leaves out `k` cells at both ends of an axis. -/
def inPass (k : ℕ) (r : ℤ × ℤ) (i : ℤ) : Prop := r.1 + k ≤ i ∧ i < r.2 - k

instance (k : ℕ) (r : ℤ × ℤ) (i : ℤ) : Decidable (inPass k r i) := by unfold inPass; infer_instance

/-- Rows and columns of the arrays handed to one call of the kernel. -/
abbrev View2 := (ℤ × ℤ) × (ℤ × ℤ)

/-- The call computes cell `p`. -/
def writes2 (k : ℕ) (V : View2) (p : C2) : Prop := inPass k V.1 p.1 ∧ inPass k V.2 p.2

instance (k : ℕ) (V : View2) (p : C2) : Decidable (writes2 k V p) := by unfold writes2; infer_instance

/-- "crunch interior stencil": diffusion_flux_mpi_2d.py:50-56, advection_flux_mpi_2d.py:40-47,
outplane_field_curl_mpi_2d.py:50-54, update_vorticity_from_velocity_forcing_mpi_2d.py:45-53. -/
def interiorView2 (T : Cart2) (g : ℕ) : View2 := (innerR T.ny g, innerR T.nx g)

/-- "crunch boundary numbers", start/end of Y, start/end of X: diffusion_flux_mpi_2d.py:69-117, advection_flux_mpi_2d.py:60-131,
outplane_field_curl_mpi_2d.py:67-118, update_vorticity_from_velocity_forcing_mpi_2d.py:66-121. -/
def boundaryViews2 (T : Cart2) (g k : ℕ) : List View2 :=
  [(loR T.ny g k, innerR T.nx g), (hiR T.ny g k, innerR T.nx g), (fullR T.ny g, loR T.nx g k), (fullR T.ny g, hiR T.nx g k)]

section Kernel
variable {ι K β : Type}

/-- One call of a number crunching kernel: input arrays `flds`, output array `out`. -/
def pass2 (k : ℕ) (op : β → β → β) (f : (ι → C2 → K) → β) (flds : ι → C2 → K) (out : C2 → β) (V : View2) : C2 → β := fun p =>
  if writes2 k V p then op (out p) (f fun i d => flds i (p.1 + d.1, p.2 + d.2)) else out p

/-- A kernel on one rank: interior pass on the arrays as they are while messages are in flight (`A1`), then the boundary passes on the
arrays after `exchange_finalise` (`A2`). -/
def kernel2 (T : Cart2) (g k : ℕ) (op : β → β → β) (f : (ι → C2 → K) → β) (A1 A2 : ι → C2 → K) (out : C2 → β) : C2 → β :=
  (boundaryViews2 T g k).foldl (pass2 k op f A2) (pass2 k op f A1 out (interiorView2 T g))

/-- Exchange of several arrays posted one after the other before one `exchange_finalise`: `comps` lists the arrays in posting order
(e.g. field, then the velocity components, advection_flux_mpi_2d.py:36-37). -/
def multiMsgs2 (T : Cart2) (g : ℕ) (full : Bool) (comps : List ι) : List (Msg C2 (ι × ℤ)) :=
  allMsgs (ranks2 T) (vecPosts comps (posts2 T g full))

/-- The arrays after the events `sched`. -/
def multiExchange2 [DecidableEq ι] (T : Cart2) (g : ℕ) (full : Bool) (comps : List ι) (w : World C2 (ι × ℤ) K) (sched : List Ev) :
    World C2 (ι × ℤ) K := runNet (multiMsgs2 T g full comps) w sched

/-- A kernel on all ranks: `s1 c` is what has happened to the messages when rank `c` does its interior pass, `s` everything that
has happened when `exchange_finalise` returns; `out c` is the output array of rank `c`. -/
def stencil2 [DecidableEq ι] (T : Cart2) (g : ℕ) (full : Bool) (comps : List ι) (k : ℕ) (op : β → β → β) (f : (ι → C2 → K) → β)
    (w : World C2 (ι × ℤ) K) (s1 : C2 → List Ev) (s : List Ev) (out : C2 → C2 → β) (c : C2) : C2 → β :=
  kernel2 T g k op f
    (fun i p => multiExchange2 T g full comps w (s1 c) c (i, flat2 T g p))
    (fun i p => multiExchange2 T g full comps w s c (i, flat2 T g p)) (out c)

/-- "Set physical domain boundary … to zero based on neighboring block": diffusion_flux_mpi_2d.py:119-140,
outplane_field_curl_mpi_2d.py:120-136. -/
def zeroSides2 (T : Cart2) (g : ℕ) (z : β) (c : C2) (out : C2 → β) : C2 → β :=
  let setX (r : ℤ × ℤ) (o : C2 → β) : C2 → β := fun p => if r.1 ≤ p.2 ∧ p.2 < r.2 then z else o p
  let setY (r : ℤ × ℤ) (o : C2 → β) : C2 → β := fun p => if r.1 ≤ p.1 ∧ p.1 < r.2 then z else o p
  let o := if prevX2 T c = none then setX (sliceR (T.nx + 2 * g) 0 (g + 1)) out else out
  let o := if nextX2 T c = none then setX (pyStart (T.nx + 2 * g) (-g - 1), T.nx + 2 * g) o else o
  let o := if prevY2 T c = none then setY (sliceR (T.ny + 2 * g) 0 (g + 1)) o else o
  if nextY2 T c = none then setY (pyStart (T.ny + 2 * g) (-g - 1), T.ny + 2 * g) o else o

/-- Overwriting kernels with zeroed physical boundary: `diffusion_flux_pyst_mpi_kernel_2d` (diffusion_flux_mpi_2d.py:34-140) with `β` the
scalars, `outplane_field_curl_pyst_mpi_kernel_2d` (outplane_field_curl_mpi_2d.py:34-138) with `β` the pairs. -/
def stencilZero2 [DecidableEq ι] (T : Cart2) (g : ℕ) (full : Bool) (comps : List ι) (k : ℕ) (z : β) (f : (ι → C2 → K) → β)
    (w : World C2 (ι × ℤ) K) (s1 : C2 → List Ev) (s : List Ev) (out : C2 → C2 → β) (c : C2) : C2 → β :=
  zeroSides2 T g z c (stencil2 T g full comps k (fun _ b => b) f w s1 s out c)

/-- Accumulating kernels: `advection_flux_conservative_eno3_pyst_mpi_kernel_2d` (advection_flux_mpi_2d.py:25-131),
`update_vorticity_from_velocity_forcing_pyst_mpi_kernel_2d` (update_vorticity_from_velocity_forcing_mpi_2d.py:27-121). -/
def stencilAdd2 [DecidableEq ι] [Add β] (T : Cart2) (g : ℕ) (full : Bool) (comps : List ι) (k : ℕ) (f : (ι → C2 → K) → β)
    (w : World C2 (ι × ℤ) K) (s1 : C2 → List Ev) (s : List Ev) (out : C2 → C2 → β) (c : C2) : C2 → β :=
  stencil2 T g full comps k (fun a b => a + b) f w s1 s out c

/-- Row and column of position `i` of `ravel()`. -/
def unflat2 (T : Cart2) (g : ℕ) (i : ℤ) : C2 := (i / cols2 T g, i % cols2 T g)

/-- `elementwise_sum_pyst_kernel_2d(sum_field=field, field_1=field, field_2=flux)`: the whole arrays, ghosts included. -/
def addFlux2 [Add K] (T : Cart2) (g : ℕ) (v : World C2 ℤ K) (flux : C2 → C2 → K) : World C2 ℤ K :=
  fun c i => v c i + flux c (unflat2 T g i)

/-- Fields and flux buffer of a time step. -/
structure StepState (R ι K : Type) where
  field : World R ι K
  flux : R → R → K

/-- `diffusion_timestep_euler_forward_pyst_mpi_kernel_2d` (diffusion_timestep_mpi_2d.py:38-56). The exchange leaves new ghost values
in `field`, then the flux is added. `f` is the diffusion flux with its prefactor. -/
def diffusionStep2 [Add K] [Zero K] (T : Cart2) (g : ℕ) (full : Bool) (f : (Unit → C2 → K) → K)
    (s1 : C2 → List Ev) (s : List Ev) (st : StepState C2 ℤ K) : StepState C2 ℤ K :=
  let w : World C2 (Unit × ℤ) K := fun c i => st.field c i.2
  let flux := stencilZero2 T g full [()] 1 0 f w s1 s st.flux
  ⟨addFlux2 T g (fun c i => multiExchange2 T g full [()] w s c ((), i)) flux, flux⟩

/-- `advection_timestep_euler_forward_conservative_eno3_pyst_mpi_kernel_2d` (advection_timestep_mpi_2d.py:38-58): inputs are the
field (`none`) and the velocity components (`some i`); `f inv_dx` is the flux kernel. The exchange also refreshes the ghosts of the velocity. -/
def advectionStep2 [AddGroup K] (T : Cart2) (g : ℕ) (full : Bool) (f : K → (Option (Fin 2) → C2 → K) → K) (dtByDx : K)
    (s1 : C2 → List Ev) (s : List Ev) (vel : World C2 (Fin 2 × ℤ) K) (st : StepState C2 ℤ K) :
    World C2 (Fin 2 × ℤ) K × StepState C2 ℤ K :=
  let comps : List (Option (Fin 2)) := [none, some 0, some 1]
  let w : World C2 (Option (Fin 2) × ℤ) K := fun c i => match i.1 with
    | none => st.field c i.2
    | some j => vel c (j, i.2)
  let flux0 : C2 → C2 → K := fun _ _ => 0
  let flux := stencilAdd2 T g full comps 2 (f (-dtByDx)) w s1 s flux0
  let w' := multiExchange2 T g full comps w s
  (fun c i => w' c (some i.1, i.2), ⟨addFlux2 T g (fun c i => w' c (none, i)) flux, flux⟩)

end Kernel

end Sopht
