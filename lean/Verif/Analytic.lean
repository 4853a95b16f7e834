import Mathlib.Analysis.SpecialFunctions.ExpDeriv
import Mathlib.Analysis.SpecialFunctions.Sqrt
import Mathlib.Analysis.SpecialFunctions.Pow.Deriv
import Mathlib.Analysis.Real.Pi.Bounds
import Verif.Norms

/-!
# The reference solutions of the validation examples

examples/2d_examples/LambOseenVortexCase/lamb_oseen_helpers.py, examples/3d_examples/PointSourceAdvectAndDiffuseCase/point_source_helpers.py: the fields the simulators are
initialised with and compared to.
-/

namespace Sopht

open Real

/-! ## The functions of the examples -/

/-- `compute_lamb_oseen_vorticity` (lamb_oseen_helpers.py:4-21), in one cell. -/
noncomputable def lambOseenVorticity (x y xcm ycm nu gamma t : ℝ) : ℝ :=
  gamma / (4 * π * nu * t) * exp (-((x - xcm) ^ 2 + (y - ycm) ^ 2) / (4 * nu * t))

/-- `compute_lamb_oseen_velocity` (lamb_oseen_helpers.py:24-53), in one cell. -/
noncomputable def lambOseenVelocity (x y xcm ycm nu gamma t : ℝ) : ℝ × ℝ :=
  let r := sqrt ((x - xcm) ^ 2 + (y - ycm) ^ 2)
  let velocityTheta := gamma / (2 * π * r) * (1 - exp (-(r ^ 2) / (4 * nu * t)))
  let cosTheta := (x - xcm) / r
  let sinTheta := (y - ycm) / r
  (velocityTheta * (-sinTheta), velocityTheta * cosTheta)

/-- `compute_diffused_point_source_field` (point_source_helpers.py:4-41), in one cell. -/
noncomputable def pointSource (x y z xcm ycm zcm nu mag t : ℝ) : ℝ :=
  mag / (4 * π * nu * t) ^ (3 / 2 : ℝ) * exp (-((x - xcm) ^ 2 + (y - ycm) ^ 2 + (z - zcm) ^ 2) / (4 * nu * t))

/-! ## The equations -/

/-- `w t x y` solves the advection-diffusion equation `∂w/∂t + u·∇w = ν Δw` where `D` holds. -/
def AdvDiff2 (nu : ℝ) (u v : ℝ → ℝ → ℝ → ℝ) (D : ℝ → ℝ → ℝ → Prop) (w : ℝ → ℝ → ℝ → ℝ) : Prop :=
  ∃ wx wy : ℝ → ℝ → ℝ → ℝ, ∀ t > 0, ∀ x y, HasDerivAt (fun x => w t x y) (wx t x y) x ∧ HasDerivAt (fun y => w t x y) (wy t x y) y ∧
    ∃ wt wxx wyy, HasDerivAt (fun t => w t x y) wt t ∧ HasDerivAt (fun x => wx t x y) wxx x ∧ HasDerivAt (fun y => wy t x y) wyy y ∧
      (D t x y → wt + u t x y * wx t x y + v t x y * wy t x y = nu * (wxx + wyy))

/-- The same in 3D, in a uniform stream. -/
def AdvDiff3 (nu U V W : ℝ) (w : ℝ → ℝ → ℝ → ℝ → ℝ) : Prop :=
  ∃ wx wy wz : ℝ → ℝ → ℝ → ℝ → ℝ, ∀ t > 0, ∀ x y z,
    HasDerivAt (fun x => w t x y z) (wx t x y z) x ∧ HasDerivAt (fun y => w t x y z) (wy t x y z) y ∧ HasDerivAt (fun z => w t x y z) (wz t x y z) z ∧
    ∃ wt wxx wyy wzz, HasDerivAt (fun t => w t x y z) wt t ∧ HasDerivAt (fun x => wx t x y z) wxx x ∧ HasDerivAt (fun y => wy t x y z) wyy y ∧
      HasDerivAt (fun z => wz t x y z) wzz z ∧ wt + U * wx t x y z + V * wy t x y z + W * wz t x y z = nu * (wxx + wyy + wzz)

/-! ## One axis of a Gaussian -/

theorem hasDerivAt_gauss (A a s : ℝ) (x : ℝ) : HasDerivAt (fun x => A * exp (-((x - a) ^ 2 + s) / b)) (A * exp (-((x - a) ^ 2 + s) / b) * (-(2 * (x - a)) / b)) x := by
  have h1 : HasDerivAt (fun x : ℝ => -((x - a) ^ 2 + s) / b) (-(2 * (x - a)) / b) x := by
    have := (((hasDerivAt_id x).sub_const a).pow 2).add_const s
    refine HasDerivAt.congr_deriv ((this.neg).div_const b) ?_
    simp
  refine HasDerivAt.congr_deriv (h1.exp.const_mul A) ?_
  ring

theorem hasDerivAt_gauss2 (A a s : ℝ) (x : ℝ) : HasDerivAt (fun x => A * exp (-((x - a) ^ 2 + s) / b) * (-(2 * (x - a)) / b))
    (A * exp (-((x - a) ^ 2 + s) / b) * ((2 * (x - a) / b) ^ 2 - 2 / b)) x := by
  have h1 := hasDerivAt_gauss (b := b) A a s x
  have h2 : HasDerivAt (fun x : ℝ => -(2 * (x - a)) / b) (-2 / b) x := by
    have := (((hasDerivAt_id x).sub_const a).const_mul 2).neg.div_const b
    simpa using this
  refine HasDerivAt.congr_deriv (h1.mul h2) ?_
  ring

/-! ## The Lamb-Oseen vortex -/

/-- C103: the vorticity of the example, its centre carried along by the stream `(U, V)`, solves the advection-diffusion equation – for every velocity field that differs
from the stream by one that goes around the centre. -/
theorem lambOseen_advDiff {nu : ℝ} (hnu : 0 < nu) (gamma x0 y0 t0 U V : ℝ) (q : ℝ → ℝ → ℝ → ℝ) :
    AdvDiff2 nu (fun t x y => U - q t x y * (y - (y0 + V * (t - t0)))) (fun t x y => V + q t x y * (x - (x0 + U * (t - t0)))) (fun _ _ _ => True)
      (fun t x y => lambOseenVorticity x y (x0 + U * (t - t0)) (y0 + V * (t - t0)) nu gamma t) := by
  refine ⟨fun t x y => lambOseenVorticity x y (x0 + U * (t - t0)) (y0 + V * (t - t0)) nu gamma t * (-(2 * (x - (x0 + U * (t - t0)))) / (4 * nu * t)),
    fun t x y => lambOseenVorticity x y (x0 + U * (t - t0)) (y0 + V * (t - t0)) nu gamma t * (-(2 * (y - (y0 + V * (t - t0)))) / (4 * nu * t)), ?_⟩
  intro t ht x y
  have hx : HasDerivAt (fun x => lambOseenVorticity x y (x0 + U * (t - t0)) (y0 + V * (t - t0)) nu gamma t)
      (lambOseenVorticity x y (x0 + U * (t - t0)) (y0 + V * (t - t0)) nu gamma t * (-(2 * (x - (x0 + U * (t - t0)))) / (4 * nu * t))) x :=
    hasDerivAt_gauss _ _ _ _
  have swap : ∀ y, lambOseenVorticity x y (x0 + U * (t - t0)) (y0 + V * (t - t0)) nu gamma t =
      gamma / (4 * π * nu * t) * exp (-((y - (y0 + V * (t - t0))) ^ 2 + (x - (x0 + U * (t - t0))) ^ 2) / (4 * nu * t)) := by
    intro y; unfold lambOseenVorticity; rw [add_comm ((y - _) ^ 2)]
  have hy : HasDerivAt (fun y => lambOseenVorticity x y (x0 + U * (t - t0)) (y0 + V * (t - t0)) nu gamma t)
      (lambOseenVorticity x y (x0 + U * (t - t0)) (y0 + V * (t - t0)) nu gamma t * (-(2 * (y - (y0 + V * (t - t0)))) / (4 * nu * t))) y := by
    simp only [swap]
    exact hasDerivAt_gauss _ _ _ _
  have hxx := hasDerivAt_gauss2 (b := 4 * nu * t) (gamma / (4 * π * nu * t)) (x0 + U * (t - t0)) ((y - (y0 + V * (t - t0))) ^ 2) x
  have hyy := hasDerivAt_gauss2 (b := 4 * nu * t) (gamma / (4 * π * nu * t)) (y0 + V * (t - t0)) ((x - (x0 + U * (t - t0))) ^ 2) y
  have ht' : HasDerivAt (fun t => lambOseenVorticity x y (x0 + U * (t - t0)) (y0 + V * (t - t0)) nu gamma t)
      (lambOseenVorticity x y (x0 + U * (t - t0)) (y0 + V * (t - t0)) nu gamma t *
        (-(1 / t) + (2 * U * (x - (x0 + U * (t - t0))) + 2 * V * (y - (y0 + V * (t - t0)))) / (4 * nu * t) +
          ((x - (x0 + U * (t - t0))) ^ 2 + (y - (y0 + V * (t - t0))) ^ 2) / (4 * nu * t ^ 2))) t := by
    unfold lambOseenVorticity
    have hpos : 4 * π * nu * t ≠ 0 := by positivity
    have hpos' : 4 * nu * t ≠ 0 := by positivity
    have d1 : HasDerivAt (fun t : ℝ => gamma / (4 * π * nu * t)) (-(gamma * (4 * π * nu)) / (4 * π * nu * t) ^ 2) t := by
      refine HasDerivAt.congr_deriv ((hasDerivAt_const t gamma).div ((hasDerivAt_id t).const_mul (4 * π * nu)) hpos) ?_
      simp
    have dx : HasDerivAt (fun t : ℝ => (x - (x0 + U * (t - t0))) ^ 2) (-(2 * U * (x - (x0 + U * (t - t0))))) t := by
      refine HasDerivAt.congr_deriv (((((((hasDerivAt_id t).sub_const t0).const_mul U).const_add x0).const_sub x)).pow 2) ?_
      simp; ring
    have dy : HasDerivAt (fun t : ℝ => (y - (y0 + V * (t - t0))) ^ 2) (-(2 * V * (y - (y0 + V * (t - t0))))) t := by
      refine HasDerivAt.congr_deriv (((((((hasDerivAt_id t).sub_const t0).const_mul V).const_add y0).const_sub y)).pow 2) ?_
      simp; ring
    have d2 := ((dx.add dy).neg.div ((hasDerivAt_id t).const_mul (4 * nu)) hpos').exp
    have d3 := d1.mul d2
    refine HasDerivAt.congr_deriv d3 ?_
    simp only [id, Pi.add_apply, Pi.neg_apply, Pi.div_apply]
    have htn : t ≠ 0 := ht.ne'
    field_simp
    ring
  simp only [← swap] at hyy
  refine ⟨hx, hy, _, _, _, ht', hxx, hyy, ?_⟩
  intro _
  change _ = nu * (lambOseenVorticity x y (x0 + U * (t - t0)) (y0 + V * (t - t0)) nu gamma t * _ + _)
  simp only
  generalize lambOseenVorticity x y (x0 + U * (t - t0)) (y0 + V * (t - t0)) nu gamma t = E
  have htn : t ≠ 0 := ht.ne'
  field_simp
  ring

/-- the velocity away from the centre, without the square root -/
theorem lambOseenVelocity_eq {x y xcm ycm : ℝ} (h : (x - xcm) ^ 2 + (y - ycm) ^ 2 ≠ 0) (nu gamma t : ℝ) :
    lambOseenVelocity x y xcm ycm nu gamma t =
      (-(gamma * (1 - exp (-((x - xcm) ^ 2 + (y - ycm) ^ 2) / (4 * nu * t))) / (2 * π * ((x - xcm) ^ 2 + (y - ycm) ^ 2)) * (y - ycm)),
        gamma * (1 - exp (-((x - xcm) ^ 2 + (y - ycm) ^ 2) / (4 * nu * t))) / (2 * π * ((x - xcm) ^ 2 + (y - ycm) ^ 2)) * (x - xcm)) := by
  have h0 : 0 ≤ (x - xcm) ^ 2 + (y - ycm) ^ 2 := by positivity
  have hr : sqrt ((x - xcm) ^ 2 + (y - ycm) ^ 2) ^ 2 = (x - xcm) ^ 2 + (y - ycm) ^ 2 := Real.sq_sqrt h0
  have hr0 : sqrt ((x - xcm) ^ 2 + (y - ycm) ^ 2) ≠ 0 := by rwa [Real.sqrt_ne_zero h0]
  unfold lambOseenVelocity
  simp only [hr]
  have hpi : π ≠ 0 := Real.pi_ne_zero
  set r := sqrt ((x - xcm) ^ 2 + (y - ycm) ^ 2)
  generalize exp (-((x - xcm) ^ 2 + (y - ycm) ^ 2) / (4 * nu * t)) = E
  rw [← hr]
  refine Prod.ext ?_ ?_
  · simp only; field_simp
  · simp only; field_simp

/-- one of the velocities along an axis: `k (s) * d` -/
theorem hasDerivAt_swirl (gamma a s b : ℝ) (x : ℝ) (h : (x - a) ^ 2 + s ≠ 0) :
    HasDerivAt (fun x => gamma * (1 - exp (-((x - a) ^ 2 + s) / b)) / (2 * π * ((x - a) ^ 2 + s)))
      (gamma * (2 * (x - a) / b * exp (-((x - a) ^ 2 + s) / b)) / (2 * π * ((x - a) ^ 2 + s)) -
        gamma * (1 - exp (-((x - a) ^ 2 + s) / b)) * (2 * (x - a)) / (2 * π * ((x - a) ^ 2 + s) ^ 2)) x := by
  have hpi : π ≠ 0 := Real.pi_ne_zero
  have h1 := hasDerivAt_gauss (b := b) 1 a s x
  simp only [one_mul] at h1
  have hq : HasDerivAt (fun x : ℝ => (x - a) ^ 2 + s) (2 * (x - a)) x := by
    refine HasDerivAt.congr_deriv ((((hasDerivAt_id x).sub_const a).pow 2).add_const s) ?_
    simp
  have := ((h1.const_sub 1).const_mul gamma).div (hq.const_mul (2 * π)) (by positivity)
  refine HasDerivAt.congr_deriv this ?_
  field_simp

/-- C103: away from the centre, the velocity of the example is free of divergence, goes around the centre, and its curl is the vorticity of the example (at the same time). -/
theorem lambOseen_velocity {x y xcm ycm : ℝ} (h : (x - xcm) ^ 2 + (y - ycm) ^ 2 ≠ 0) {nu t : ℝ} (hnu : 0 < nu) (ht : 0 < t) (gamma : ℝ) :
    ∃ ux uy vx vy,
      HasDerivAt (fun x => (lambOseenVelocity x y xcm ycm nu gamma t).1) ux x ∧ HasDerivAt (fun y => (lambOseenVelocity x y xcm ycm nu gamma t).1) uy y ∧
      HasDerivAt (fun x => (lambOseenVelocity x y xcm ycm nu gamma t).2) vx x ∧ HasDerivAt (fun y => (lambOseenVelocity x y xcm ycm nu gamma t).2) vy y ∧
      ux + vy = 0 ∧ vx - uy = lambOseenVorticity x y xcm ycm nu gamma t ∧
      ∃ q, lambOseenVelocity x y xcm ycm nu gamma t = (-(q * (y - ycm)), q * (x - xcm)) := by
  have hpi : π ≠ 0 := Real.pi_ne_zero
  have nx : ∀ᶠ x' in nhds x, (x' - xcm) ^ 2 + (y - ycm) ^ 2 ≠ 0 :=
    ContinuousAt.eventually_ne (g := fun x' : ℝ => (x' - xcm) ^ 2 + (y - ycm) ^ 2) (by fun_prop) h
  have ny : ∀ᶠ y' in nhds y, (x - xcm) ^ 2 + (y' - ycm) ^ 2 ≠ 0 :=
    ContinuousAt.eventually_ne (g := fun y' : ℝ => (x - xcm) ^ 2 + (y' - ycm) ^ 2) (by fun_prop) h
  have h' : (y - ycm) ^ 2 + (x - xcm) ^ 2 ≠ 0 := by rwa [add_comm]
  have kx := hasDerivAt_swirl gamma xcm ((y - ycm) ^ 2) (4 * nu * t) x h
  have ky := hasDerivAt_swirl gamma ycm ((x - xcm) ^ 2) (4 * nu * t) y h'
  simp only [add_comm ((_ - ycm) ^ 2) ((x - xcm) ^ 2)] at ky
  have idx : HasDerivAt (fun x : ℝ => x - xcm) 1 x := (hasDerivAt_id x).sub_const xcm
  have idy : HasDerivAt (fun y : ℝ => y - ycm) 1 y := (hasDerivAt_id y).sub_const ycm
  have ux := (kx.mul_const (y - ycm)).neg
  have uy := (ky.mul idy).neg
  have vx := kx.mul idx
  have vy := ky.mul_const (x - xcm)
  refine ⟨_, _, _, _, ux.congr_of_eventuallyEq (nx.mono fun x' hx' => by simp only [lambOseenVelocity_eq hx']; rfl),
    uy.congr_of_eventuallyEq (ny.mono fun y' hy' => by simp only [lambOseenVelocity_eq hy']; rfl),
    vx.congr_of_eventuallyEq (nx.mono fun x' hx' => by simp only [lambOseenVelocity_eq hx']; rfl),
    vy.congr_of_eventuallyEq (ny.mono fun y' hy' => by simp only [lambOseenVelocity_eq hy']), ?_, ?_, _, lambOseenVelocity_eq h nu gamma t⟩
  · ring
  · unfold lambOseenVorticity
    generalize exp (-((x - xcm) ^ 2 + (y - ycm) ^ 2) / (4 * nu * t)) = E
    field_simp
    ring

/-! ## The point source -/

/-- C103: the point source of the example, its centre carried along by the stream `(U, V, W)`, solves the advection-diffusion equation. -/
theorem pointSource_advDiff {nu : ℝ} (hnu : 0 < nu) (mag x0 y0 z0 t0 U V W : ℝ) :
    AdvDiff3 nu U V W (fun t x y z => pointSource x y z (x0 + U * (t - t0)) (y0 + V * (t - t0)) (z0 + W * (t - t0)) nu mag t) := by
  refine ⟨fun t x y z => pointSource x y z (x0 + U * (t - t0)) (y0 + V * (t - t0)) (z0 + W * (t - t0)) nu mag t * (-(2 * (x - (x0 + U * (t - t0)))) / (4 * nu * t)),
    fun t x y z => pointSource x y z (x0 + U * (t - t0)) (y0 + V * (t - t0)) (z0 + W * (t - t0)) nu mag t * (-(2 * (y - (y0 + V * (t - t0)))) / (4 * nu * t)),
    fun t x y z => pointSource x y z (x0 + U * (t - t0)) (y0 + V * (t - t0)) (z0 + W * (t - t0)) nu mag t * (-(2 * (z - (z0 + W * (t - t0)))) / (4 * nu * t)), ?_⟩
  intro t ht x y z
  have s1 : ∀ x, pointSource x y z (x0 + U * (t - t0)) (y0 + V * (t - t0)) (z0 + W * (t - t0)) nu mag t =
      mag / (4 * π * nu * t) ^ (3 / 2 : ℝ) * exp (-((x - (x0 + U * (t - t0))) ^ 2 + ((y - (y0 + V * (t - t0))) ^ 2 + (z - (z0 + W * (t - t0))) ^ 2)) / (4 * nu * t)) := by
    intro x; unfold pointSource; congr 3; ring
  have s2 : ∀ y, pointSource x y z (x0 + U * (t - t0)) (y0 + V * (t - t0)) (z0 + W * (t - t0)) nu mag t =
      mag / (4 * π * nu * t) ^ (3 / 2 : ℝ) * exp (-((y - (y0 + V * (t - t0))) ^ 2 + ((x - (x0 + U * (t - t0))) ^ 2 + (z - (z0 + W * (t - t0))) ^ 2)) / (4 * nu * t)) := by
    intro y; unfold pointSource; congr 3; ring
  have s3 : ∀ z, pointSource x y z (x0 + U * (t - t0)) (y0 + V * (t - t0)) (z0 + W * (t - t0)) nu mag t =
      mag / (4 * π * nu * t) ^ (3 / 2 : ℝ) * exp (-((z - (z0 + W * (t - t0))) ^ 2 + ((x - (x0 + U * (t - t0))) ^ 2 + (y - (y0 + V * (t - t0))) ^ 2)) / (4 * nu * t)) := by
    intro z; unfold pointSource; congr 3; ring
  have ht' : HasDerivAt (fun t => pointSource x y z (x0 + U * (t - t0)) (y0 + V * (t - t0)) (z0 + W * (t - t0)) nu mag t)
      (pointSource x y z (x0 + U * (t - t0)) (y0 + V * (t - t0)) (z0 + W * (t - t0)) nu mag t *
        (-(3 / (2 * t)) + (2 * U * (x - (x0 + U * (t - t0))) + 2 * V * (y - (y0 + V * (t - t0))) + 2 * W * (z - (z0 + W * (t - t0)))) / (4 * nu * t) +
          ((x - (x0 + U * (t - t0))) ^ 2 + (y - (y0 + V * (t - t0))) ^ 2 + (z - (z0 + W * (t - t0))) ^ 2) / (4 * nu * t ^ 2))) t := by
    unfold pointSource
    have hpos : 0 < 4 * π * nu * t := by positivity
    have hpos' : 4 * nu * t ≠ 0 := by positivity
    have hrp : (4 * π * nu * t) ^ (3 / 2 : ℝ) ≠ 0 := (rpow_pos_of_pos hpos _).ne'
    have d0 : HasDerivAt (fun t : ℝ => (4 * π * nu * t) ^ (3 / 2 : ℝ)) (4 * π * nu * (3 / 2) * (4 * π * nu * t) ^ ((3 / 2 : ℝ) - 1)) t := by
      have := ((hasDerivAt_id t).const_mul (4 * π * nu)).rpow_const (p := (3 / 2 : ℝ)) (Or.inl hpos.ne')
      simpa using this
    have hsub : (4 * π * nu * t) ^ ((3 / 2 : ℝ) - 1) = (4 * π * nu * t) ^ (3 / 2 : ℝ) / (4 * π * nu * t) := by
      rw [rpow_sub hpos, rpow_one]
    rw [hsub] at d0
    have d1 := (hasDerivAt_const t mag).div d0 hrp
    have dx : HasDerivAt (fun t : ℝ => (x - (x0 + U * (t - t0))) ^ 2) (-(2 * U * (x - (x0 + U * (t - t0))))) t := by
      refine HasDerivAt.congr_deriv (((((((hasDerivAt_id t).sub_const t0).const_mul U).const_add x0).const_sub x)).pow 2) ?_
      simp; ring
    have dy : HasDerivAt (fun t : ℝ => (y - (y0 + V * (t - t0))) ^ 2) (-(2 * V * (y - (y0 + V * (t - t0))))) t := by
      refine HasDerivAt.congr_deriv (((((((hasDerivAt_id t).sub_const t0).const_mul V).const_add y0).const_sub y)).pow 2) ?_
      simp; ring
    have dz : HasDerivAt (fun t : ℝ => (z - (z0 + W * (t - t0))) ^ 2) (-(2 * W * (z - (z0 + W * (t - t0))))) t := by
      refine HasDerivAt.congr_deriv (((((((hasDerivAt_id t).sub_const t0).const_mul W).const_add z0).const_sub z)).pow 2) ?_
      simp; ring
    have d2 := (((dx.add dy).add dz).neg.div ((hasDerivAt_id t).const_mul (4 * nu)) hpos').exp
    have d3 := d1.mul d2
    refine HasDerivAt.congr_deriv d3 ?_
    simp only [id, Pi.add_apply, Pi.neg_apply, Pi.div_apply]
    have htn : t ≠ 0 := ht.ne'
    have hpi : π ≠ 0 := Real.pi_ne_zero
    generalize (4 * π * nu * t) ^ (3 / 2 : ℝ) = R at *
    field_simp
    ring
  have hxx := hasDerivAt_gauss2 (b := 4 * nu * t) (mag / (4 * π * nu * t) ^ (3 / 2 : ℝ)) (x0 + U * (t - t0)) ((y - (y0 + V * (t - t0))) ^ 2 + (z - (z0 + W * (t - t0))) ^ 2) x
  have hyy := hasDerivAt_gauss2 (b := 4 * nu * t) (mag / (4 * π * nu * t) ^ (3 / 2 : ℝ)) (y0 + V * (t - t0)) ((x - (x0 + U * (t - t0))) ^ 2 + (z - (z0 + W * (t - t0))) ^ 2) y
  have hzz := hasDerivAt_gauss2 (b := 4 * nu * t) (mag / (4 * π * nu * t) ^ (3 / 2 : ℝ)) (z0 + W * (t - t0)) ((x - (x0 + U * (t - t0))) ^ 2 + (y - (y0 + V * (t - t0))) ^ 2) z
  simp only [← s1] at hxx
  simp only [← s2] at hyy
  simp only [← s3] at hzz
  refine ⟨?_, ?_, ?_, _, _, _, _, ht', hxx, hyy, hzz, ?_⟩
  · simp only [s1]; exact hasDerivAt_gauss _ _ _ _
  · simp only [s2]; exact hasDerivAt_gauss _ _ _ _
  · simp only [s3]; exact hasDerivAt_gauss _ _ _ _
  · simp only
    generalize pointSource x y z (x0 + U * (t - t0)) (y0 + V * (t - t0)) (z0 + W * (t - t0)) nu mag t = E
    have htn : t ≠ 0 := ht.ne'
    field_simp
    ring

/-! ## Two slips in the examples -/

/-- a Gaussian spreads: inside a ball it sinks -/
theorem gauss_sinks {a d ts te b : ℝ} (ha : 0 ≤ a) (hts : 0 < ts) (hte : ts < te) (hb : 0 < b) (hd : d < a * b * ts) : te ^ (-a) * exp (-d / (b * te)) < ts ^ (-a) * exp (-d / (b * ts)) := by
  have hte0 : 0 < te := hts.trans hte
  rw [rpow_def_of_pos hte0, rpow_def_of_pos hts, ← exp_add, ← exp_add, exp_lt_exp]
  have hlog : 1 - ts / te ≤ log te - log ts := by
    rw [← log_div hte0.ne' hts.ne']
    have := one_sub_inv_le_log_of_pos (div_pos hte0 hts)
    rwa [inv_div] at this
  have h1 : 0 < 1 - ts / te := by rw [sub_pos, div_lt_one hte0]; exact hte
  have e : d / (b * ts) - d / (b * te) = d / (b * ts) * (1 - ts / te) := by field_simp
  have h2 : d / (b * ts) < a := by rw [div_lt_iff₀ (by positivity)]; linarith
  have h3 : d / (b * ts) * (1 - ts / te) < a * (1 - ts / te) := mul_lt_mul_of_pos_right h2 h1
  have h4 : a * (1 - ts / te) ≤ a * (log te - log ts) := mul_le_mul_of_nonneg_left hlog ha
  have e1 : -d / (b * te) = -(d / (b * te)) := by ring
  have e2 : -d / (b * ts) = -(d / (b * ts)) := by ring
  rw [e1, e2]
  nlinarith

theorem lambOseen_sinks {x y xcm ycm nu gamma ts te : ℝ} (hnu : 0 < nu) (hg : 0 < gamma) (hts : 0 < ts) (hte : ts < te) (hd : (x - xcm) ^ 2 + (y - ycm) ^ 2 < 4 * nu * ts) :
    lambOseenVorticity x y xcm ycm nu gamma te < lambOseenVorticity x y xcm ycm nu gamma ts := by
  have h := gauss_sinks (a := 1) (b := 4 * nu) zero_le_one hts hte (by positivity) (by linarith : (x - xcm) ^ 2 + (y - ycm) ^ 2 < 1 * (4 * nu) * ts)
  have e : ∀ t, 0 < t → lambOseenVorticity x y xcm ycm nu gamma t = gamma / (4 * π * nu) * (t ^ (-1 : ℝ) * exp (-((x - xcm) ^ 2 + (y - ycm) ^ 2) / (4 * nu * t))) := by
    intro t ht
    unfold lambOseenVorticity
    rw [rpow_neg_one]
    have hpi : π ≠ 0 := Real.pi_ne_zero
    field_simp
  rw [e te (hts.trans hte), e ts hts]
  exact mul_lt_mul_of_pos_left h (by positivity)

/-- C103 (negative): the Lamb-Oseen example starts with the vorticity of `t_start` but the velocity of `t_end` (lamb_oseen_vortex.py:44-64): near the centre the curl of the
velocity it starts with is less than the vorticity it starts with. -/
theorem lambOseen_start {x y xcm ycm : ℝ} (h : (x - xcm) ^ 2 + (y - ycm) ^ 2 ≠ 0) {nu gamma ts te : ℝ} (hnu : 0 < nu) (hg : 0 < gamma) (hts : 0 < ts) (hte : ts < te)
    (hd : (x - xcm) ^ 2 + (y - ycm) ^ 2 < 4 * nu * ts) :
    ∃ uy vx, HasDerivAt (fun y => (lambOseenVelocity x y xcm ycm nu gamma te).1) uy y ∧ HasDerivAt (fun x => (lambOseenVelocity x y xcm ycm nu gamma te).2) vx x ∧
      vx - uy < lambOseenVorticity x y xcm ycm nu gamma ts := by
  obtain ⟨ux, uy, vx, vy, -, h2, h3, -, -, h6, -⟩ := lambOseen_velocity h hnu (hts.trans hte) gamma
  exact ⟨uy, vx, h2, h3, h6 ▸ lambOseen_sinks hnu hg hts hte hd⟩

theorem pointSource_sinks {x y z xcm ycm zcm nu mag ts te : ℝ} (hnu : 0 < nu) (hm : 0 < mag) (hts : 0 < ts) (hte : ts < te)
    (hd : (x - xcm) ^ 2 + (y - ycm) ^ 2 + (z - zcm) ^ 2 < 6 * nu * ts) : pointSource x y z xcm ycm zcm nu mag te < pointSource x y z xcm ycm zcm nu mag ts := by
  have h := gauss_sinks (a := 3 / 2) (b := 4 * nu) (by norm_num) hts hte (by positivity)
    (by linarith : (x - xcm) ^ 2 + (y - ycm) ^ 2 + (z - zcm) ^ 2 < 3 / 2 * (4 * nu) * ts)
  have e : ∀ t, 0 < t → pointSource x y z xcm ycm zcm nu mag t =
      mag / (4 * π * nu) ^ (3 / 2 : ℝ) * (t ^ (-(3 / 2) : ℝ) * exp (-((x - xcm) ^ 2 + (y - ycm) ^ 2 + (z - zcm) ^ 2) / (4 * nu * t))) := by
    intro t ht
    unfold pointSource
    rw [mul_rpow (by positivity) ht.le, rpow_neg ht.le]
    have h1 : (4 * π * nu) ^ (3 / 2 : ℝ) ≠ 0 := (rpow_pos_of_pos (by positivity) _).ne'
    have h2 : t ^ (3 / 2 : ℝ) ≠ 0 := (rpow_pos_of_pos ht _).ne'
    field_simp
  rw [e te (hts.trans hte), e ts hts]
  refine mul_lt_mul_of_pos_left h (div_pos hm (rpow_pos_of_pos (by positivity) _))

/-- C103 (negative): the point source example compares the final field with the solution at `t_start` instead of `t_end` (point_source_advection_diffusion.py:146-157, `t=t_start`):
if the simulation were exact in every cell, and some cell centre is close to the source, it would still report a positive error. -/
theorem pointSource_exact_reported {gz gy gx pz py px : ℕ} {per : Bool} {T : Cart3} (hT : mkCart3 gz gy gx pz py px per = .ok T) (h0 : 0 < gz ∧ 0 < gy ∧ 0 < gx) {g : ℕ} (hg : 1 ≤ g)
    (xr : ℝ) {nu mag ts te : ℝ} (hnu : 0 < nu) (hm : 0 < mag) (hts : 0 < ts) (hte : ts < te) (xcm ycm zcm : ℝ) {w : Fin 3 → World C3 C3 ℝ}
    (hw : ∀ j c p, Valid3 T c → Inner3 T g p → w j c p = pointSource (position3 T g xr c 0 p) (position3 T g xr c 1 p) (position3 T g xr c 2 p) xcm ycm zcm nu mag te)
    {G : C3} (hG : InDomain3 T G)
    (hd : ((G.2.2 + 1 / 2) * (xr / gx) - xcm) ^ 2 + ((G.2.1 + 1 / 2) * (xr / gx) - ycm) ^ 2 + ((G.1 + 1 / 2) * (xr / gx) - zcm) ^ 2 < 6 * nu * ts) :
    ∃ m, linfError3 T g xr [0, 1, 2] w (fun _ x y z => pointSource x y z xcm ycm zcm nu mag ts) = .ok m ∧ 0 < m := by
  obtain ⟨e0, e1, e2, -⟩ := construct3_ok hT
  obtain ⟨m, hm', hgr⟩ := linfError3_global hT h0 hg xr (cs := [0, 1, 2]) (by simp) (w := w)
    (F := fun _ G => pointSource ((G.2.2 + 1 / 2) * (xr / gx)) ((G.2.1 + 1 / 2) * (xr / gx)) ((G.1 + 1 / 2) * (xr / gx)) xcm ycm zcm nu mag te)
    (by
      intro j _ c p hc hp
      obtain ⟨h1, h2, h3⟩ := position3_cells T g xr c (inArr_of_inner3 hp)
      rw [hw j c p hc hp, h1, h2, h3, e2])
    (fun _ x y z => pointSource x y z xcm ycm zcm nu mag ts)
  refine ⟨m, hm', lt_of_lt_of_le ?_ (hgr.2 ⟨0, by simp, G, hG, rfl⟩)⟩
  unfold errAt3
  rw [abs_pos, sub_ne_zero]
  exact (pointSource_sinks hnu hm hts hte hd).ne

/-- C103 (negative): "to start with point source magnitude = 1" (point_source_advection_diffusion.py:45-46): with `point_mag = 4 π ν t_start**1.5` the source starts with
magnitude `(4 π ν)^(-1/2)` – at the viscosity of the example more than 8. -/
theorem pointSource_start {nu ts : ℝ} (hnu : 0 < nu) (hts : 0 < ts) (xcm ycm zcm : ℝ) :
    pointSource xcm ycm zcm xcm ycm zcm nu (4 * π * nu * ts ^ (1.5 : ℝ)) ts = (4 * π * nu) ^ (-(1 / 2) : ℝ) ∧
      8 < pointSource xcm ycm zcm xcm ycm zcm 1e-3 (4 * π * 1e-3 * ts ^ (1.5 : ℝ)) ts := by
  have key : ∀ nu : ℝ, 0 < nu → pointSource xcm ycm zcm xcm ycm zcm nu (4 * π * nu * ts ^ (1.5 : ℝ)) ts = (4 * π * nu) ^ (-(1 / 2) : ℝ) := by
    intro nu hnu
    have hp : 0 < 4 * π * nu := by positivity
    unfold pointSource
    rw [mul_rpow hp.le hts.le, show (1.5 : ℝ) = 3 / 2 by norm_num]
    have h2 : ts ^ (3 / 2 : ℝ) ≠ 0 := (rpow_pos_of_pos hts _).ne'
    have h3 : (4 * π * nu) ^ (-(1 / 2) : ℝ) = (4 * π * nu) / (4 * π * nu) ^ (3 / 2 : ℝ) := by
      rw [show (-(1 / 2) : ℝ) = 1 - 3 / 2 by norm_num, rpow_sub hp, rpow_one]
    rw [h3]
    simp only [sub_self]
    norm_num
    field_simp
  refine ⟨key nu hnu, ?_⟩
  rw [key _ (by norm_num), rpow_neg (by positivity), ← Real.sqrt_eq_rpow]
  have h1 : sqrt (4 * π * 1e-3) < 1 / 8 := by
    rw [Real.sqrt_lt' (by norm_num)]
    have := Real.pi_lt_d2
    nlinarith
  have h2 : 0 < sqrt (4 * π * 1e-3) := Real.sqrt_pos.2 (by positivity)
  rw [lt_inv_comm₀ (by norm_num) h2]
  linarith

/-! ## Example -/

/-- the parameters of the examples -/
example : AdvDiff2 1e-3 (fun _ _ _ => 1) (fun _ _ _ => 1) (fun _ _ _ => True)
    (fun t x y => lambOseenVorticity x y (0.3 + 1 * (t - 1)) (0.3 + 1 * (t - 1)) 1e-3 (4 * π * 1e-3) t) := by
  have := lambOseen_advDiff (nu := 1e-3) (by norm_num) (4 * π * 1e-3) 0.3 0.3 1 1 1 (fun _ _ _ => 0)
  simpa using this

end Sopht
