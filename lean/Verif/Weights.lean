import Verif.Interp
import Mathlib.Analysis.SpecialFunctions.Trigonometric.Basic
import Mathlib.Analysis.Real.Sqrt

/-!
# Interpolation weights

The two weight functions of the Eulerian-Lagrangian communicators, over the real numbers (no rounding; `fastmath` reordering does not
matter in exact arithmetic).  Files in `sopht_mpi/numeric/immersed_boundary_ops/`.  A Python comparison used as a factor is 1 or 0.
-/

namespace Sopht

noncomputable section

/-- One factor of the cosine weights: `1.0 + np.cos(0.5 * np.pi * s)`, `s` the distance over `dx`
(`EulerianLagrangianGridCommunicatorMPI2D.py:415-424`). -/
def cosFactor (s : ℝ) : ℝ := 1 + Real.cos (0.5 * Real.pi * s)

/-- `generate_cosine_interpolation_weights_kernel_2d` (`EulerianLagrangianGridCommunicatorMPI2D.py:389-428`): weight for the distances
along x and y. -/
def cosW2 (dx : ℝ) (a b : ℝ) : ℝ := (0.25 / dx) ^ 2 * cosFactor (a / dx) * cosFactor (b / dx)

/-- `generate_cosine_interpolation_weights_kernel_3d` (`EulerianLagrangianGridCommunicatorMPI3D.py:443-480`). -/
def cosW3 (dx : ℝ) (a b c : ℝ) : ℝ := (0.25 / dx) ^ 3 * cosFactor (a / dx) * cosFactor (b / dx) * cosFactor (c / dx)

/-- A Python boolean used as a factor. -/
def indicator (p : Prop) [Decidable p] : ℝ := if p then 1 else 0

open Classical in
/-- One factor of the Peskin weights, `s` the absolute distance over `dx` (`EulerianLagrangianGridCommunicatorMPI2D.py:463-487`). -/
def peskinFactor (s : ℝ) : ℝ :=
  indicator (s < 1) * (3 - 2 * s + Real.sqrt |1 + 4 * s - 4 * s ^ 2|) +
    indicator (s ≥ 1) * indicator (s < 2) * (5 - 2 * s - Real.sqrt |(-7) + 12 * s - 4 * s ^ 2|)

/-- `generate_peskin_interpolation_weights_kernel_2d` (`EulerianLagrangianGridCommunicatorMPI2D.py:431-518`). -/
def peskinW2 (dx : ℝ) (a b : ℝ) : ℝ := (0.125 / dx) ^ 2 * peskinFactor (|a| / dx) * peskinFactor (|b| / dx)

/-- `generate_peskin_interpolation_weights_kernel_3d` (`EulerianLagrangianGridCommunicatorMPI3D.py:482-585`). -/
def peskinW3 (dx : ℝ) (a b c : ℝ) : ℝ :=
  (0.125 / dx) ^ 3 * peskinFactor (|a| / dx) * peskinFactor (|b| / dx) * peskinFactor (|c| / dx)

end

end Sopht
