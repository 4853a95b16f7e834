import Verif.Stencil3D
import Verif.Penalise
import Mathlib.Algebra.Field.Basic

/-!
# Laplacian filter (3D)

Models `gen_laplacian_filter_mpi_kernel_3d`
(`sopht_mpi/numeric/eulerian_grid_ops/stencil_ops_3d/laplacian_filter_mpi_3d.py`).  Values lie in an arbitrary field `K`.
-/

namespace Sopht

/-- What the generator is given: filter order, width of the zeroed boundary zone, ghost size, filter type and field type. -/
structure FilterArgs where
  order : PyNum
  width : PyNum
  ghost : ℤ
  filterType : String
  fieldType : String

/-- Validation by the generator, in the order of the code: laplacian_filter_mpi_3d.py:41-46, 52-55, 387-397 (filter type), 400-421 (field type). -/
def filterCheck (a : FilterArgs) : Except PyErr Unit := do
  if a.order.neg || !a.order.isInt then .error .valueError
  if a.width.nonpos || !a.width.isInt then .error .valueError
  checkSupport a.ghost 1
  if a.filterType = "multiplicative" ∨ a.filterType = "convolution" then .ok () else .error .valueError
  if a.fieldType = "scalar" ∨ a.fieldType = "vector" then .ok () else .error .valueError

/-- Unit step along axis 0 = x, 1 = y, 2 = z. -/
def axisStep (a : Fin 3) : C3 := if a = 0 then (0, 0, 1) else if a = 1 then (0, 1, 0) else (1, 0, 0)

section
variable {K : Type} [Field K]

/-- `_laplacian_filter_3d_x/y/z` (laplacian_filter_mpi_3d.py:62-99). -/
def lapFilter (a : Fin 3) (u : Unit → C3 → K) : K :=
  let e := axisStep a
  (1 / 4) * (-u () e - u () (-e.1, -e.2.1, -e.2.2) + 2 * u () (0, 0, 0))

/-- `_clear_val_at_physical_domain_boundary_kernel_3d` (laplacian_filter_mpi_3d.py:110-143). -/
def clearSides3 (T : Cart3) (g bw : ℕ) (c : C3) (out : C3 → K) : C3 → K :=
  let setX (r : ℤ × ℤ) (o : C3 → K) : C3 → K := fun p => if r.1 ≤ p.2.2 ∧ p.2.2 < r.2 then 0 else o p
  let setY (r : ℤ × ℤ) (o : C3 → K) : C3 → K := fun p => if r.1 ≤ p.2.1 ∧ p.2.1 < r.2 then 0 else o p
  let setZ (r : ℤ × ℤ) (o : C3 → K) : C3 → K := fun p => if r.1 ≤ p.1 ∧ p.1 < r.2 then 0 else o p
  let o := if prevX3 T c = none then setX (sliceR (T.nx + 2 * g) 0 (g + bw)) out else out
  let o := if nextX3 T c = none then setX (pyStart (T.nx + 2 * g) (-g - bw), T.nx + 2 * g) o else o
  let o := if prevY3 T c = none then setY (sliceR (T.ny + 2 * g) 0 (g + bw)) o else o
  let o := if nextY3 T c = none then setY (pyStart (T.ny + 2 * g) (-g - bw), T.ny + 2 * g) o else o
  let o := if prevZ3 T c = none then setZ (sliceR (T.nz + 2 * g) 0 (g + bw)) o else o
  if nextZ3 T c = none then setZ (pyStart (T.nz + 2 * g) (-g - bw), T.nz + 2 * g) o else o

/-- `field_buffer` and `filter_flux_buffer` of all ranks. -/
structure FilterBufs (K : Type) where
  fieldBuf : World C3 C3 K
  flux : C3 → C3 → K

/-- How the messages of one ghost exchange move: `1` seen by each rank at its interior pass, `2` at `exchange_finalise`. -/
abbrev Sched3 := (C3 → List Ev) × List Ev

/-- One `_laplacian_filter_3d_mpi(filter_kernel, …)` followed by clearing the boundary zone and copying the flux to the field buffer
(laplacian_filter_mpi_3d.py:145-265 and e.g. 284-291). -/
def filterPass (T : Cart3) (g bw : ℕ) (full : Bool) (a : Fin 3) (sch : Sched3) (b : FilterBufs K) : FilterBufs K :=
  let w : World C3 (Unit × C3) K := fun c i => b.fieldBuf c i.2
  let flux : C3 → C3 → K := fun c => clearSides3 T g bw c (stencil3 T g full [()] 1 false (fun _ n => n) (lapFilter a) w sch.1 sch.2 b.flux c)
  ⟨flux, flux⟩

/-- `elementwise_saxpby(sum_field=scalar_field, field_1=scalar_field, 1.0, field_2=filter_flux_buffer, -1.0)`: whole arrays. -/
def saxpbyFilter (v : World C3 C3 K) (flux : C3 → C3 → K) : World C3 C3 K := fun c p => 1 * v c p + (-1) * flux c p

/-- `scalar_field_multiplicative_filter_mpi_kernel_3d` (laplacian_filter_mpi_3d.py:267-319) with `filter_order = order`; `sch` gives the schedule
of each of the `3 * order` exchanges. Result: scalar field and buffers. -/
def multiplicativeFilter (T : Cart3) (g bw : ℕ) (full : Bool) (order : ℕ) (sch : ℕ → Sched3) (v : World C3 C3 K) (b : FilterBufs K) :
    World C3 C3 K × FilterBufs K :=
  let flux : C3 → C3 → K := fun c => clearSides3 T g bw c (b.flux c)
  let b := (List.range order).foldl (fun b i =>
    filterPass T g bw full 2 (sch (3 * i + 2)) (filterPass T g bw full 1 (sch (3 * i + 1)) (filterPass T g bw full 0 (sch (3 * i)) b))) ⟨v, flux⟩
  (saxpbyFilter v b.flux, b)

/-- One direction of the convolution filter: copy the field, `order` passes, subtract (laplacian_filter_mpi_3d.py:333-349 for x). -/
def convolutionDir (T : Cart3) (g bw : ℕ) (full : Bool) (order : ℕ) (a : Fin 3) (sch : ℕ → Sched3) (v : World C3 C3 K) (b : FilterBufs K) :
    World C3 C3 K × FilterBufs K :=
  let b := (List.range order).foldl (fun b i => filterPass T g bw full a (sch i) b) ⟨v, b.flux⟩
  (saxpbyFilter v b.flux, b)

/-- `scalar_field_convolution_filter_mpi_kernel_3d` (laplacian_filter_mpi_3d.py:321-385): x, then y, then z. -/
def convolutionFilter (T : Cart3) (g bw : ℕ) (full : Bool) (order : ℕ) (sch : Fin 3 → ℕ → Sched3) (v : World C3 C3 K) (b : FilterBufs K) :
    World C3 C3 K × FilterBufs K :=
  let b0 : FilterBufs K := ⟨b.fieldBuf, fun c => clearSides3 T g bw c (b.flux c)⟩
  let rx := convolutionDir T g bw full order 0 (sch 0) v b0
  let ry := convolutionDir T g bw full order 1 (sch 1) rx.1 rx.2
  convolutionDir T g bw full order 2 (sch 2) ry.1 ry.2

/-- `vector_field_filter_kernel_3d` (laplacian_filter_mpi_3d.py:403-419) for either filter type `flt` (with its schedules): components x, y, z in
turn, sharing the buffers. -/
def vectorFilter {S : Type} (flt : S → World C3 C3 K → FilterBufs K → World C3 C3 K × FilterBufs K) (sch : Fin 3 → S)
    (v : Fin 3 → World C3 C3 K) (b : FilterBufs K) : (Fin 3 → World C3 C3 K) × FilterBufs K :=
  let r0 := flt (sch 0) (v 0) b
  let r1 := flt (sch 1) (v 1) r0.2
  let r2 := flt (sch 2) (v 2) r1.2
  (fun i => if i = 0 then r0.1 else if i = 1 then r1.1 else r2.1, r2.2)

end

end Sopht
