import Verif.Doubling
import Verif.DoublingProps
import Verif.Doubling3DProps
import Verif.Fourier
import Mathlib.Analysis.SpecialFunctions.Log.Basic
import Mathlib.Analysis.SpecialFunctions.Sqrt

/-!
# Unbounded Poisson solver

Models `UnboundedPoissonSolverMPI2D` (`sopht_mpi/numeric/eulerian_grid_ops/poisson_solver_2d/UnboundedPoissonSolverMPI2D.py:12-153`, "P2D.py")
and `UnboundedPoissonSolverMPI3D` (`.../poisson_solver_3d/UnboundedPoissonSolverMPI3D.py:15-187`, "P3D.py").
Floating point numbers are real numbers.  The transforms are those of `Verif.Fourier`, applied to the global array.
-/

namespace Sopht

/-- `np.linspace(a, b, n)[i]` (NumPy semantics, `n` points with both ends). -/
noncomputable def linspace (a b : ℝ) (n : ℕ) (i : ℤ) : ℝ := a + i * ((b - a) / ((n : ℝ) - 1))

/-! ## 2D -/

section D2
variable (T : Cart2) [NeZero T.gy] [NeZero T.gx]

/-- Index set of the global doubled array. -/
abbrev Dbl2 (T : Cart2) : Type := ZMod (2 * T.gy) × ZMod (2 * T.gx)

/-- The transform of the global doubled array (`FFTMPI2D`, fft_mpi_2d.py:5-47). -/
noncomputable def kern2 : FourierKernel (Dbl2 T) := (zmodKernel (2 * T.gy)).prod (zmodKernel (2 * T.gx))

omit [NeZero T.gy] [NeZero T.gx] in
/-- The global array whose blocks the ranks hold: rank `c` holds the block that starts at `(c.1 * 2 ny, c.2 * 2 nx)`
(`DistArray` block distribution, trusted). -/
noncomputable def asm2 {α : Type} (D : World C2 C2 α) (x : Dbl2 T) : α :=
  D ((x.1.val : ℤ) / (2 * T.ny), (x.2.val : ℤ) / (2 * T.nx)) ((x.1.val : ℤ) % (2 * T.ny), (x.2.val : ℤ) % (2 * T.nx))

omit [NeZero T.gy] [NeZero T.gx] in
/-- The blocks of a global array. -/
noncomputable def disasm2 {α : Type} (A : Dbl2 T → α) : World C2 C2 α := fun c q => A ((dblIx2 T c q).1, (dblIx2 T c q).2)

/-- Arrays owned by the solver (P2D.py:49-57). -/
structure Solver2 (T : Cart2) where
  /-- `domain_doubled_buffer` -/
  dbl : World C2 C2 ℝ
  /-- `domain_doubled_fourier_buffer` -/
  four : Dbl2 T → ℂ
  /-- `convolution_buffer` -/
  conv : Dbl2 T → ℂ
  /-- `fourier_greens_function_times_dx_squared` -/
  green : Dbl2 T → ℂ

omit [NeZero T.gy] [NeZero T.gx] in
/-- `greens_function_field` of rank `c` (P2D.py:61-101): `substart` is `(c.1 * 2 ny, c.2 * 2 nx)`, `shape` is `(2 ny, 2 nx)`. -/
noncomputable def greenLocal2 (dx xr yr : ℝ) (c q : C2) : ℝ :=
  let sy : ℤ := c.1 * (2 * T.ny)
  let sx : ℤ := c.2 * (2 * T.nx)
  let x := linspace (sx * dx) (((sx + 2 * T.nx : ℤ) - 1) * dx) (2 * T.nx) q.2
  let y := linspace (sy * dx) (((sy + 2 * T.ny : ℤ) - 1) * dx) (2 * T.ny) q.1
  let dist := Real.sqrt ((min x (2 * xr - x)) ^ 2 + (min y (2 * yr - y)) ^ 2)
  if (sy = 0 ∧ sx = 0) ∧ q = (0, 0) then -(2 * Real.log (dx / Real.sqrt Real.pi) - 1) / (4 * Real.pi)
  else -Real.log dist / (2 * Real.pi)

/-- `UnboundedPoissonSolverMPI2D.__init__` (P2D.py:20-59, 61-107): `xr` is `x_range`; the buffers other than the spectrum of the
Green's function start with arbitrary contents `dbl0`, `conv0`. -/
noncomputable def solverInit2 (xr : ℝ) (dbl0 : World C2 C2 ℝ) (conv0 : Dbl2 T → ℂ) : Solver2 T :=
  let dx := xr / T.gx
  let yr := xr * (T.gy / T.gx)
  let four := dft (kern2 T) fun x => ((asm2 T (greenLocal2 T dx xr yr) x : ℝ) : ℂ)
  { dbl := dbl0, four, conv := conv0, green := fun k => four k * ((dx ^ 2 : ℝ) : ℂ) }

/-- `solve` (P2D.py:120-153) on all ranks: the state of the solver afterwards and `solution_field`. -/
noncomputable def solve2 (g : ℕ) (d : Fin 2) (st : Solver2 T) (sol rhs : World C2 C2 ℝ) (s1 s2 : List Ev) :
    Solver2 T × World C2 C2 ℝ :=
  let dbl0 : World C2 C2 ℝ := fun _ _ => 0
  let dbl1 := copyTo2 T g d rhs dbl0 s1
  let four := dft (kern2 T) fun x => ((asm2 T dbl1 x : ℝ) : ℂ)
  let conv := fun k => four k * st.green k
  let dbl2 := disasm2 T fun x => (idft (kern2 T) conv x).re
  ({ st with dbl := dbl2, four, conv }, copyFrom2 T g d dbl2 sol s2)

end D2

/-! ## 3D -/

section D3
variable (T : Cart3) [NeZero T.gz] [NeZero T.gy] [NeZero T.gx]

/-- Index set of the global doubled array. -/
abbrev Dbl3 (T : Cart3) : Type := ZMod (2 * T.gz) × ZMod (2 * T.gy) × ZMod (2 * T.gx)

/-- The transform of the global doubled array (`FFTMPI3D`, fft_mpi_3d.py). -/
noncomputable def kern3 : FourierKernel (Dbl3 T) :=
  (zmodKernel (2 * T.gz)).prod ((zmodKernel (2 * T.gy)).prod (zmodKernel (2 * T.gx)))

omit [NeZero T.gz] [NeZero T.gy] [NeZero T.gx] in
/-- The global array whose blocks the ranks hold. -/
noncomputable def asm3 {α : Type} (D : World C3 C3 α) (x : Dbl3 T) : α :=
  D ((x.1.val : ℤ) / (2 * T.nz), (x.2.1.val : ℤ) / (2 * T.ny), (x.2.2.val : ℤ) / (2 * T.nx))
    ((x.1.val : ℤ) % (2 * T.nz), (x.2.1.val : ℤ) % (2 * T.ny), (x.2.2.val : ℤ) % (2 * T.nx))

omit [NeZero T.gz] [NeZero T.gy] [NeZero T.gx] in
/-- The blocks of a global array. -/
noncomputable def disasm3 {α : Type} (A : Dbl3 T → α) : World C3 C3 α :=
  fun c q => A ((dblIx3 T c q).1, (dblIx3 T c q).2.1, (dblIx3 T c q).2.2)

/-- Arrays owned by the solver (P3D.py:54-63). -/
structure Solver3 (T : Cart3) where
  /-- `domain_doubled_buffer` -/
  dbl : World C3 C3 ℝ
  /-- `domain_doubled_fourier_buffer` -/
  four : Dbl3 T → ℂ
  /-- `convolution_buffer` -/
  conv : Dbl3 T → ℂ
  /-- `fourier_greens_function_times_dx_cubed` -/
  green : Dbl3 T → ℂ

omit [NeZero T.gz] [NeZero T.gy] [NeZero T.gx] in
/-- `greens_function_field` of rank `c` (P3D.py:67-114). -/
noncomputable def greenLocal3 (dx xr yr zr : ℝ) (c q : C3) : ℝ :=
  let sz : ℤ := c.1 * (2 * T.nz)
  let sy : ℤ := c.2.1 * (2 * T.ny)
  let sx : ℤ := c.2.2 * (2 * T.nx)
  let x := linspace (sx * dx) (((sx + 2 * T.nx : ℤ) - 1) * dx) (2 * T.nx) q.2.2
  let y := linspace (sy * dx) (((sy + 2 * T.ny : ℤ) - 1) * dx) (2 * T.ny) q.2.1
  let z := linspace (sz * dx) (((sz + 2 * T.nz : ℤ) - 1) * dx) (2 * T.nz) q.1
  let dist := Real.sqrt ((min x (2 * xr - x)) ^ 2 + (min y (2 * yr - y)) ^ 2 + (min z (2 * zr - z)) ^ 2)
  if (sz = 0 ∧ sy = 0 ∧ sx = 0) ∧ q = (0, 0, 0) then 1 / (4 * Real.pi * dx)
  else (1 / dist) / (4 * Real.pi)

/-- `UnboundedPoissonSolverMPI3D.__init__` (P3D.py:22-65, 67-120). -/
noncomputable def solverInit3 (xr : ℝ) (dbl0 : World C3 C3 ℝ) (conv0 : Dbl3 T → ℂ) : Solver3 T :=
  let dx := xr / T.gx
  let yr := xr * (T.gy / T.gx)
  let zr := xr * (T.gz / T.gx)
  let four := dft (kern3 T) fun x => ((asm3 T (greenLocal3 T dx xr yr zr) x : ℝ) : ℂ)
  { dbl := dbl0, four, conv := conv0, green := fun k => four k * ((dx ^ 3 : ℝ) : ℂ) }

/-- `solve` (P3D.py:133-167) on all ranks. -/
noncomputable def solve3 (g : ℕ) (st : Solver3 T) (sol rhs : World C3 C3 ℝ) (s1 s2 : List Ev) :
    Solver3 T × World C3 C3 ℝ :=
  let dbl0 : World C3 C3 ℝ := fun _ _ => 0
  let dbl1 := copyTo3 T g rhs dbl0 s1
  let four := dft (kern3 T) fun x => ((asm3 T dbl1 x : ℝ) : ℂ)
  let conv := fun k => four k * st.green k
  let dbl2 := disasm3 T fun x => (idft (kern3 T) conv x).re
  ({ st with dbl := dbl2, four, conv }, copyFrom3 T g dbl2 sol s2)

/-- `vector_field_solve` (P3D.py:169-187): the x (0), y (1) and z (2) components in turn. -/
noncomputable def vectorSolve3 (g : ℕ) (st : Solver3 T) (sol rhs : Fin 3 → World C3 C3 ℝ) (s : Fin 3 → List Ev × List Ev) :
    Solver3 T × (Fin 3 → World C3 C3 ℝ) :=
  let r0 := solve3 T g st (sol 0) (rhs 0) (s 0).1 (s 0).2
  let r1 := solve3 T g r0.1 (sol 1) (rhs 1) (s 1).1 (s 1).2
  let r2 := solve3 T g r1.1 (sol 2) (rhs 2) (s 2).1 (s 2).2
  (r2.1, ![r0.2, r1.2, r2.2])

end D3
end Sopht
