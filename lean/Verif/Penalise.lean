import Verif.Stencil2D
import Verif.Stencil3D
import Mathlib.Analysis.SpecialFunctions.Trigonometric.Basic

/-!
# Penalisation of the field next to the physical boundary

Models `gen_penalise_field_boundary_pyst_mpi_kernel_2d` (`stencil_ops_2d/penalise_field_boundary_mpi_2d.py`) and
`gen_penalise_field_boundary_pyst_mpi_kernel_3d` (`stencil_ops_3d/penalise_field_boundary_mpi_3d.py`), both in
`sopht_mpi/numeric/eulerian_grid_ops/`.  Numbers are reals (no rounding).
-/

namespace Sopht

/-- "invalid zone width": penalise_field_boundary_mpi_2d.py:19-20, penalise_field_boundary_mpi_3d.py:20-21. -/
def penCheck (width : PyNum) : Except PyErr Unit := if width.neg || !width.isInt then .error .valueError else .ok ()

/-- `sine_prefactor`: penalise_field_boundary_mpi_2d.py:43, penalise_field_boundary_mpi_3d.py:56. -/
noncomputable def sinePrefactor (w : ℕ) (dx : ℝ) : ℝ := (Real.pi / 2) / (w * dx)

/-- One side of one grid line with `len` cells: `field[s:e] = field[src_s:src_e]` (a NumPy assignment from a slice of one cell, which is
broadcast; an empty source slice cannot be broadcast and raises ValueError), then the pystencils kernel on the same range, which multiplies by
`sin (arg i)`. -/
noncomputable def penSide (r src : ℤ × ℤ) (arg : ℤ → ℝ) (u : ℤ → ℝ) : ℤ → ℝ :=
  fun i => if r.1 ≤ i ∧ i < r.2 then u src.1 * Real.sin (arg i) else u i

/-- `: ghost_size + width` -/
def penFrontR (n g w : ℕ) : ℤ × ℤ := sliceR (n + 2 * g) 0 (g + w)
/-- `ghost_size + width - 1 : ghost_size + width` -/
def penFrontSrc (n g w : ℕ) : ℤ × ℤ := sliceR (n + 2 * g) (g + w - 1) (g + w)
/-- `-(ghost_size + width) :` -/
def penBackR (n g w : ℕ) : ℤ × ℤ := (pyStart (n + 2 * g) (-(g + w)), n + 2 * g)
/-- `-(ghost_size + width) : -(ghost_size + width) + 1` -/
def penBackSrc (n g w : ℕ) : ℤ × ℤ := sliceR (n + 2 * g) (-(g + w)) (-(g + w) + 1)

/-- Front side of a line: x_front / y_front / z_front stencils. `xs` is the line of the coordinate array, `start` the coordinate of
the first inner cell. -/
noncomputable def penFront (n g w : ℕ) (pre : ℝ) (xs : ℤ → ℝ) (start : ℝ) (u : ℤ → ℝ) : ℤ → ℝ :=
  penSide (penFrontR n g w) (penFrontSrc n g w) (fun i => pre * (xs i - start)) u

/-- Back side of a line: x_back / y_back / z_back stencils. -/
noncomputable def penBack (n g w : ℕ) (pre : ℝ) (xs : ℤ → ℝ) (stop : ℝ) (u : ℤ → ℝ) : ℤ → ℝ :=
  penSide (penBackR n g w) (penBackSrc n g w) (fun i => pre * (stop - xs i)) u

/-- The assignment raises: source slice empty. -/
def penRaises (src : ℤ × ℤ) : Prop := src.2 ≤ src.1

instance (s : ℤ × ℤ) : Decidable (penRaises s) := by unfold penRaises; infer_instance

/-- `a[-(k)]` on an axis of length `len` for `k ≥ 1`. -/
def fromEnd (len k : ℤ) : ℤ := len - k

/-- `penalise_field_boundary_pyst_mpi_kernel_2d` on rank `c`, `width > 0` (penalise_field_boundary_mpi_2d.py:34-41, kernels
45-125, 127-173); for `width == 0`
the kernel does nothing (25-30). `xg`, `yg` are the rank's coordinate arrays. -/
noncomputable def penalise2 (T : Cart2) (g w : ℕ) (dx : ℝ) (xg yg : C2 → ℝ) (c : C2) (fld : C2 → ℝ) : Except PyErr (C2 → ℝ) :=
  if w = 0 then .ok fld else
  let pre := sinePrefactor w dx
  let xStart := xg (g, g)
  let yStart := yg (g, g)
  let xEnd := xg (g, fromEnd (T.nx + 2 * g) (g + 1))
  let yEnd := yg (fromEnd (T.ny + 2 * g) (g + 1), g)
  do
    -- first along X
    let f ← if prevX2 T c = none then
        (if penRaises (penFrontSrc T.nx g w) then .error .valueError
         else .ok fun p => penFront T.nx g w pre (fun i => xg (p.1, i)) xStart (fun i => fld (p.1, i)) p.2)
      else .ok fld
    let f ← if nextX2 T c = none then
        (if penRaises (penBackSrc T.nx g w) then .error .valueError
         else .ok fun p => penBack T.nx g w pre (fun i => xg (p.1, i)) xEnd (fun i => f (p.1, i)) p.2)
      else .ok f
    -- then along Y
    let f ← if prevY2 T c = none then
        (if penRaises (penFrontSrc T.ny g w) then .error .valueError
         else .ok fun p => penFront T.ny g w pre (fun i => yg (i, p.2)) yStart (fun i => f (i, p.2)) p.1)
      else .ok f
    if nextY2 T c = none then
        (if penRaises (penBackSrc T.ny g w) then .error .valueError
         else .ok fun p => penBack T.ny g w pre (fun i => yg (i, p.2)) yEnd (fun i => f (i, p.2)) p.1)
      else .ok f

/-- `penalise_field_boundary_pyst_mpi_kernel_3d` on rank `c` (penalise_field_boundary_mpi_3d.py:25-38 for `width == 0`, 41-54,
kernels 57-183, 185-243). -/
noncomputable def penalise3 (T : Cart3) (g w : ℕ) (dx : ℝ) (xg yg zg : C3 → ℝ) (c : C3) (fld : C3 → ℝ) : Except PyErr (C3 → ℝ) :=
  if w = 0 then .ok fld else
  let pre := sinePrefactor w dx
  let xStart := xg (g, g, g)
  let yStart := yg (g, g, g)
  let zStart := zg (g, g, g)
  let xEnd := xg (g, g, fromEnd (T.nx + 2 * g) (g + 1))
  let yEnd := yg (g, fromEnd (T.ny + 2 * g) (g + 1), g)
  let zEnd := zg (fromEnd (T.nz + 2 * g) (g + 1), g, g)
  do
    -- first along X
    let f ← if prevX3 T c = none then
        (if penRaises (penFrontSrc T.nx g w) then .error .valueError
         else .ok fun p => penFront T.nx g w pre (fun i => xg (p.1, p.2.1, i)) xStart (fun i => fld (p.1, p.2.1, i)) p.2.2)
      else .ok fld
    let f ← if nextX3 T c = none then
        (if penRaises (penBackSrc T.nx g w) then .error .valueError
         else .ok fun p => penBack T.nx g w pre (fun i => xg (p.1, p.2.1, i)) xEnd (fun i => f (p.1, p.2.1, i)) p.2.2)
      else .ok f
    -- then along Y
    let f ← if prevY3 T c = none then
        (if penRaises (penFrontSrc T.ny g w) then .error .valueError
         else .ok fun p => penFront T.ny g w pre (fun i => yg (p.1, i, p.2.2)) yStart (fun i => f (p.1, i, p.2.2)) p.2.1)
      else .ok f
    let f ← if nextY3 T c = none then
        (if penRaises (penBackSrc T.ny g w) then .error .valueError
         else .ok fun p => penBack T.ny g w pre (fun i => yg (p.1, i, p.2.2)) yEnd (fun i => f (p.1, i, p.2.2)) p.2.1)
      else .ok f
    -- finally along Z
    let f ← if prevZ3 T c = none then
        (if penRaises (penFrontSrc T.nz g w) then .error .valueError
         else .ok fun p => penFront T.nz g w pre (fun i => zg (i, p.2.1, p.2.2)) zStart (fun i => f (i, p.2.1, p.2.2)) p.1)
      else .ok f
    if nextZ3 T c = none then
        (if penRaises (penBackSrc T.nz g w) then .error .valueError
         else .ok fun p => penBack T.nz g w pre (fun i => zg (i, p.2.1, p.2.2)) zEnd (fun i => f (i, p.2.1, p.2.2)) p.1)
      else .ok f

/-- `penalise_vector_field_boundary_pyst_mpi_kernel_3d` (penalise_field_boundary_mpi_3d.py:249-269): the three components in turn. -/
noncomputable def penaliseVec3 (T : Cart3) (g w : ℕ) (dx : ℝ) (xg yg zg : C3 → ℝ) (c : C3) (fld : Fin 3 → C3 → ℝ) :
    Except PyErr (Fin 3 → C3 → ℝ) := do
  let f0 ← penalise3 T g w dx xg yg zg c (fld 0)
  let f1 ← penalise3 T g w dx xg yg zg c (fld 1)
  let f2 ← penalise3 T g w dx xg yg zg c (fld 2)
  .ok fun i => if i = 0 then f0 else if i = 1 then f1 else f2

end Sopht
