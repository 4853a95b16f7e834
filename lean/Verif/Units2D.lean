import Verif.Placement2D
import Verif.BodyPlace2D
import Mathlib.Data.Real.Pointwise

/-!
# Change of units and dynamic similarity, 2D (C115)

No new code is modelled: theorems about `Sim2D`, `Interactor2D`. Two simulations with the same numbers of cells which differ in their units of length and of time only (so that their Reynolds numbers
etc. agree) give the same results up to these units. A power of the grid spacing, of the time step or of the viscosity that is wrong anywhere (fluxes, Poisson solve, curl, interpolation weights, spreading,
coupling coefficients) would break this.
-/

namespace Sopht
open Finset

/-! ## Specification: other units

All lengths are multiplied by `l`, all velocities by `v`, hence all times by `l / v`. -/

/-- Advection that is linear in its factor and in the sizes of field and velocity. -/
def Homog2 (k : ℝ → (Option (Fin 2) → C2 → ℝ) → ℝ) : Prop :=
  ∀ (a s v : ℝ) (f f' : Option (Fin 2) → C2 → ℝ), 0 < s → 0 < v → (∀ d, f' none d = s * f none d) → (∀ j d, f' (some j) d = v * f (some j) d) → k (a / v) f' = s * k a f

/-- What is assumed of the kernels. -/
structure Units2 (K : Kern2) : Prop where
  adv : Homog2 K.adv
  diff : FivePoint K.diff
  curl : CentralCurl2 K.curl
  upd : CentralRot2 K.upd

/-- Fields: the advected field times `s`, the velocity times `v`. -/
def unitFields2 (s v : ℝ) (F : Fields2) : Fields2 := { om := fun G => s * F.om G, u := fun j G => v * F.u j G }

/-- Width of the domain and viscosity. -/
def unitParams2 (l v : ℝ) (P : Params2) : Params2 := { P with xr := l * P.xr, nu := l * v * P.nu }

/-- Time steps. -/
noncomputable def unitRule (l v : ℝ) : DtRule → DtRule
  | .fixed dt => .fixed (l / v * dt)
  | .stable pre => .stable pre

/-- An iteration: free stream velocity, and forcing (a velocity per time). -/
noncomputable def unitStep2 (l v : ℝ) (y : StepSpec2) : StepSpec2 := { rule := unitRule l v y.rule, fs := fun j => v * y.fs j, Φ := fun j G => v ^ 2 / l * y.Φ j G }

/-- The time step is given. -/
def GivenRule : DtRule → Prop
  | .fixed _ => True
  | .stable _ => False

/-! ## One step -/

section Steps
variable {K : Kern2} {P : Params2} {l v : ℝ}

theorem unitParams2_dx (l v : ℝ) (P : Params2) : (unitParams2 l v P).dx = l * P.dx := by
  unfold unitParams2 Params2.dx
  simp only
  ring

theorem unitParams2_gy (l v : ℝ) (P : Params2) : (unitParams2 l v P).gy = P.gy := rfl

theorem unitParams2_gx (l v : ℝ) (P : Params2) : (unitParams2 l v P).gx = P.gx := rfl

theorem adv2_units (hK : Homog2 K.adv) (hl : 0 < l) (hv : 0 < v) {s : ℝ} (hs : 0 < s) (dt : ℝ) (u : Fin 2 → C2 → ℝ) (om : C2 → ℝ) :
    refAdv2 (unitParams2 l v P) K (l / v * dt) (fun j G => v * u j G) (fun G => s * om G) = fun G => s * refAdv2 P K dt u om G := by
  funext G
  unfold refAdv2
  rw [unitParams2_dx, unitParams2_gy, unitParams2_gx]
  by_cases h : Dom2 P.gy P.gx G
  · rw [if_pos h, if_pos h]
    have e : -(l / v * dt / (l * P.dx)) = -(dt / P.dx) / v := by
      by_cases h0 : P.dx = 0
      · simp [h0]
      · field_simp
    rw [e, mul_add]
    congr 1
    exact hK _ s v _ _ hs hv (fun d => rfl) (fun j d => rfl)
  · rw [if_neg h, if_neg h]

theorem diff2_units (hK : FivePoint K.diff) (hl : 0 < l) (hv : 0 < v) (s dt : ℝ) (om : C2 → ℝ) :
    refDiff2 (unitParams2 l v P) K (l / v * dt) (fun G => s * om G) = fun G => s * refDiff2 P K dt om G := by
  funext G
  unfold refDiff2
  rw [unitParams2_dx, unitParams2_gy, unitParams2_gx]
  by_cases h : Dom2 P.gy P.gx G ∧ ¬ OnEdge2 P.gy P.gx G
  · rw [if_pos h, if_pos h]
    have e : (unitParams2 l v P).nu * (l / v * dt) / (l * P.dx) / (l * P.dx) = P.nu * dt / P.dx / P.dx := by
      unfold unitParams2
      by_cases h0 : P.dx = 0
      · simp [h0]
      · simp only; field_simp
    rw [e, hK, hK]
    ring
  · rw [if_neg h, if_neg h]

theorem greens2_units (hl : 0 < l) {dx : ℝ} (hdx : 0 < dx) (a b : ℤ) : greens2 (l * dx) a b = greens2 dx a b - Real.log l / (2 * Real.pi) := by
  unfold greens2
  have hp := Real.pi_pos
  have hsp : 0 < Real.sqrt Real.pi := Real.sqrt_pos.2 hp
  split
  · rw [show l * dx / Real.sqrt Real.pi = l * (dx / Real.sqrt Real.pi) by ring, Real.log_mul hl.ne' (div_pos hdx hsp).ne']
    field_simp
    ring
  · rename_i h
    have hpos : 0 < ((b : ℝ) * dx) ^ 2 + ((a : ℝ) * dx) ^ 2 := by
      by_cases h1 : a = 0
      · have h2 : b ≠ 0 := fun h2 => h ⟨h1, h2⟩
        have : (b : ℝ) ≠ 0 := by exact_mod_cast h2
        positivity
      · have : (a : ℝ) ≠ 0 := by exact_mod_cast h1
        positivity
    have e : ((b : ℝ) * (l * dx)) ^ 2 + ((a : ℝ) * (l * dx)) ^ 2 = l ^ 2 * (((b : ℝ) * dx) ^ 2 + ((a : ℝ) * dx) ^ 2) := by ring
    rw [e, Real.sqrt_mul (by positivity), Real.sqrt_sq hl.le, Real.log_mul hl.ne' (Real.sqrt_pos.2 hpos).ne']
    field_simp
    ring

/-- the stream function, up to a constant -/
theorem freeSolution2_units (hl : 0 < l) {dx : ℝ} (hdx : 0 < dx) (s : ℝ) (gy gx : ℕ) (om : C2 → ℝ) (G : C2) :
    freeSolution2 gy gx (l * dx) (fun G => s * om G) G =
      s * l ^ 2 * (freeSolution2 gy gx dx om G - ∑ i ∈ range gy, ∑ j ∈ range gx, om (i, j) * (Real.log l / (2 * Real.pi)) * dx ^ 2) := by
  unfold freeSolution2
  simp only [greens2_units hl hdx]
  rw [← sum_sub_distrib, mul_sum]
  refine sum_congr rfl fun i _ => ?_
  rw [← sum_sub_distrib, mul_sum]
  refine sum_congr rfl fun j _ => ?_
  ring

theorem vel2_units (hK : CentralCurl2 K.curl) (hl : 0 < l) (hdx : 0 < P.dx) (om : C2 → ℝ) (G : C2) :
    refVel2 (unitParams2 l v P) K (fun G => v / l * om G) G = (v * (refVel2 P K om G).1, v * (refVel2 P K om G).2) := by
  unfold refVel2
  rw [unitParams2_dx, unitParams2_gy, unitParams2_gx]
  by_cases h : Dom2 P.gy P.gx G ∧ ¬ OnEdge2 P.gy P.gx G
  · rw [if_pos h, if_pos h]
    have e : ∀ G, freeSolution2 P.gy P.gx (l * P.dx) (fun G => v / l * om G) G = _ := freeSolution2_units hl hdx (v / l) P.gy P.gx om
    simp only [e]
    rw [hK, hK]
    generalize (∑ i ∈ range P.gy, ∑ j ∈ range P.gx, om (i, j) * (Real.log l / (2 * Real.pi)) * P.dx ^ 2) = Q
    refine Prod.ext ?_ ?_
    · simp only
      field_simp
      ring
    · simp only
      field_simp
      ring
  · rw [if_neg h, if_neg h]
    simp

theorem force2_units (hK : CentralRot2 K.upd) (hl : 0 < l) (hv : 0 < v) (dt : ℝ) (Φ : Fin 2 → C2 → ℝ) (om : C2 → ℝ) :
    refForce2 (unitParams2 l v P) K (l / v * dt) (fun j G => v ^ 2 / l * Φ j G) (fun G => v / l * om G) = fun G => v / l * refForce2 P K dt Φ om G := by
  funext G
  unfold refForce2
  rw [unitParams2_dx, unitParams2_gy, unitParams2_gx]
  by_cases h : Dom2 P.gy P.gx G
  · rw [if_pos h, if_pos h, hK, hK]
    by_cases h0 : P.dx = 0
    · simp [h0]
    · field_simp
  · rw [if_neg h, if_neg h]

theorem pen1_units (per : Bool) (n w : ℕ) (s : ℝ) (F : ℤ → ℝ) (i : ℤ) : serialPen1 per n w (fun j => s * F j) i = s * serialPen1 per n w F i := by
  unfold serialPen1
  split
  · rfl
  · dsimp only
    split_ifs <;> ring

theorem pen2_units (gy gx w : ℕ) (s : ℝ) (F : C2 → ℝ) : serialPen2 false gy gx w (fun G => s * F G) = fun G => s * serialPen2 false gy gx w F G := by
  funext G
  unfold serialPen2
  simp only [pen1_units]

theorem ns2_units (hK : Units2 K) (hl : 0 < l) (hv : 0 < v) (hdx : 0 < P.dx) (dt : ℝ) (fs : Fin 2 → ℝ) (F : Fields2) :
    refNS2 (unitParams2 l v P) K (l / v * dt) (fun j => v * fs j) (unitFields2 (v / l) v F) = unitFields2 (v / l) v (refNS2 P K dt fs F) := by
  have hs : 0 < v / l := div_pos hv hl
  unfold refNS2
  have e1 : refAdv2 (unitParams2 l v P) K (l / v * dt) (unitFields2 (v / l) v F).u (unitFields2 (v / l) v F).om = _ := adv2_units (P := P) hK.adv hl hv hs dt F.u F.om
  rw [e1, diff2_units hK.diff hl hv]
  have e2 := pen2_units (unitParams2 l v P).gy (unitParams2 l v P).gx (unitParams2 l v P).w (v / l) (refDiff2 P K dt (refAdv2 P K dt F.u F.om))
  rw [e2]
  unfold unitFields2
  simp only [Fields2.mk.injEq]
  refine ⟨rfl, ?_⟩
  funext j G
  unfold refFree2
  have e3 := vel2_units (v := v) hK.curl hl hdx (serialPen2 false P.gy P.gx P.w (refDiff2 P K dt (refAdv2 P K dt F.u F.om))) G
  have e4 : (![fun G => (refVel2 (unitParams2 l v P) K (fun G => v / l * serialPen2 false P.gy P.gx P.w (refDiff2 P K dt (refAdv2 P K dt F.u F.om)) G) G).1,
      fun G => (refVel2 (unitParams2 l v P) K (fun G => v / l * serialPen2 false P.gy P.gx P.w (refDiff2 P K dt (refAdv2 P K dt F.u F.om)) G) G).2] : Fin 2 → C2 → ℝ) j G =
      v * (![fun G => (refVel2 P K (serialPen2 false P.gy P.gx P.w (refDiff2 P K dt (refAdv2 P K dt F.u F.om))) G).1,
        fun G => (refVel2 P K (serialPen2 false P.gy P.gx P.w (refDiff2 P K dt (refAdv2 P K dt F.u F.om))) G).2] : Fin 2 → C2 → ℝ) j G := by
    fin_cases j
    · exact congrArg Prod.fst e3
    · exact congrArg Prod.snd e3
  by_cases hf : P.freeStream = true
  · rw [if_pos (show (unitParams2 l v P).freeStream = true from hf), if_pos hf, mul_add]
    exact congrArg (· + v * fs j) e4
  · rw [if_neg (show ¬ (unitParams2 l v P).freeStream = true from hf), if_neg hf]
    exact e4

theorem forcing2_units (hK : Units2 K) (hl : 0 < l) (hv : 0 < v) (hdx : 0 < P.dx) (dt : ℝ) (fs : Fin 2 → ℝ) (Φ : Fin 2 → C2 → ℝ) (F : Fields2) :
    refForcing2 (unitParams2 l v P) K (l / v * dt) (fun j => v * fs j) (fun j G => v ^ 2 / l * Φ j G) (unitFields2 (v / l) v F) = unitFields2 (v / l) v (refForcing2 P K dt fs Φ F) := by
  unfold refForcing2
  rw [← ns2_units hK hl hv hdx]
  congr 1
  have e := force2_units (P := P) hK.upd hl hv dt Φ F.om
  unfold unitFields2
  simp only
  rw [e]

theorem scalar2_units (hK : Units2 K) (hl : 0 < l) (hv : 0 < v) {s : ℝ} (hs : 0 < s) (dt : ℝ) (F : Fields2) :
    refScalar2 (unitParams2 l v P) K (l / v * dt) (unitFields2 s v F) = unitFields2 s v (refScalar2 P K dt F) := by
  unfold refScalar2
  have e1 : refAdv2 (unitParams2 l v P) K (l / v * dt) (unitFields2 s v F).u (unitFields2 s v F).om = _ := adv2_units (P := P) hK.adv hl hv hs dt F.u F.om
  rw [e1, diff2_units hK.diff hl hv]
  rfl

/-- the stable time step, if velocities keep their unit (the code adds a fixed small number to the largest velocity) -/
theorem dt2_units (hl : 0 < l) (hv : 0 < v) (s cfl tol : ℝ) (F : Fields2) (rule : DtRule) (hr : v = 1 ∨ GivenRule rule) :
    refDt2 (unitParams2 l v P) cfl tol (unitFields2 s v F) (unitRule l v rule) = l / v * refDt2 P cfl tol F rule := by
  cases rule with
  | fixed dt => rfl
  | stable pre =>
    have hv1 : v = 1 := by
      rcases hr with hr | hr
      · exact hr
      · exact hr.elim
    subst hv1
    unfold unitRule refDt2
    simp only
    have em : maxVel2 (unitParams2 l 1 P).gy (unitParams2 l 1 P).gx (unitFields2 s 1 F).u = maxVel2 P.gy P.gx F.u := by
      unfold unitFields2
      simp only [one_mul]
      rfl
    have hn : (unitParams2 l 1 P).nu = l * P.nu := by unfold unitParams2; simp
    rw [em, hn, unitParams2_dx, div_one]
    by_cases h0 : P.nu = 0
    · rw [if_pos h0, if_pos (by rw [h0, mul_zero])]
      ring
    · rw [if_neg h0, if_neg (mul_ne_zero hl.ne' h0), ← mul_assoc l, mul_min_of_nonneg _ _ hl.le]
      congr 2
      · ring
      · field_simp

theorem step2_units (hK : Units2 K) (hl : 0 < l) (hv : 0 < v) (hdx : 0 < P.dx) {s : ℝ} (hs : 0 < s) (ft : String) (hft : ft = "navier_stokes" ∨ ft = "navier_stokes_with_forcing" → s = v / l)
    (dt : ℝ) (fs : Fin 2 → ℝ) (Φ : Fin 2 → C2 → ℝ) (F : Fields2) :
    refStep2 ft (unitParams2 l v P) K (l / v * dt) (fun j => v * fs j) (fun j G => v ^ 2 / l * Φ j G) (unitFields2 s v F) = unitFields2 s v (refStep2 ft P K dt fs Φ F) := by
  unfold refStep2
  by_cases h1 : ft = "navier_stokes"
  · rw [if_pos h1, if_pos h1, hft (Or.inl h1)]
    exact ns2_units hK hl hv hdx dt fs F
  · rw [if_neg h1, if_neg h1]
    by_cases h2 : ft = "navier_stokes_with_forcing"
    · rw [if_pos h2, if_pos h2, hft (Or.inr h2)]
      exact forcing2_units hK hl hv hdx dt fs Φ F
    · rw [if_neg h2, if_neg h2]
      exact scalar2_units hK hl hv hs dt F

theorem run2_units (hK : Units2 K) (hl : 0 < l) (hv : 0 < v) (hdx : 0 < P.dx) {s : ℝ} (hs : 0 < s) (ft : String) (hft : ft = "navier_stokes" ∨ ft = "navier_stokes_with_forcing" → s = v / l)
    (cfl tol : ℝ) (ys : List StepSpec2) (hr : v = 1 ∨ ∀ y ∈ ys, GivenRule y.rule) (F : Fields2) (t : ℝ) :
    refRun2 ft (unitParams2 l v P) K cfl tol (ys.map (unitStep2 l v)) (unitFields2 s v F, l / v * t) =
      (unitFields2 s v (refRun2 ft P K cfl tol ys (F, t)).1, l / v * (refRun2 ft P K cfl tol ys (F, t)).2) := by
  induction ys generalizing F t with
  | nil => rfl
  | cons y ys ih =>
    simp only [List.map_cons, refRun2]
    have hr1 : v = 1 ∨ GivenRule y.rule := hr.imp id fun h => h y (by simp)
    have e1 : refDt2 (unitParams2 l v P) cfl tol (unitFields2 s v F) (unitStep2 l v y).rule = _ := dt2_units (P := P) hl hv s cfl tol F y.rule hr1
    rw [e1]
    have e2 : refStep2 ft (unitParams2 l v P) K (l / v * refDt2 P cfl tol F y.rule) (unitStep2 l v y).fs (unitStep2 l v y).Φ (unitFields2 s v F) = _ :=
      step2_units hK hl hv hdx hs ft hft (refDt2 P cfl tol F y.rule) y.fs y.Φ F
    rw [e2, ← mul_add]
    exact ih (hr.imp id fun h y' hy' => h y' (by simp [hy'])) _ _

end Steps

/-! ## Bodies -/

section Bodies
variable {B : Type} [DecidableEq B]

/-- A body: node spacing, grid shift and coupling coefficients. -/
noncomputable def unitBody2 (l v : ℝ) (a : Ib2) : Ib2 := { a with stiff := v ^ 2 / l * a.stiff, damp := v * a.damp, lagDx := l * a.lagDx, shift := a.shift.map (l * ·) }

/-- A driver that works in its own units: it converts what it hands to the simulator and what it gets back. It prints in its own units. -/
noncomputable def unitProg2 (l v : ℝ) : Prog2 B → Prog2 B
  | .stop => .stop
  | .interact b X U k => .interact b (fun j i => l * X j i) (fun j i => v * U j i) (unitProg2 l v k)
  | .forces b X U k => .forces b (fun j i => l * X j i) (fun j i => v * U j i) fun f => unitProg2 l v (k fun j i => f j i / (v ^ 2 * l))
  | .advance b dt k => .advance b (l / v * dt) (unitProg2 l v k)
  | .flow dt fs k => .flow (l / v * dt) (fun j => v * fs j) (unitProg2 l v k)
  | .stableDt pre k => .stableDt pre fun dt => unitProg2 l v (k (dt / (l / v)))
  | .deviation b k => .deviation b fun e => unitProg2 l v (k (e / l))
  | .maxVort k => .maxVort fun x => unitProg2 l v (k (x / (v / l)))
  | .ghost k => .ghost (unitProg2 l v k)
  | .out x k => .out x (unitProg2 l v k)

/-- The record of the nodes in the new units: displacements, velocities, time, forces. -/
noncomputable def unitHist (l v : ℝ) (h : NodeHist ℝ) : NodeHist ℝ := { P := fun k i => l * h.P k i, V := fun k i => v * h.V k i, t := l / v * h.t, F := fun k i => v ^ 2 * l * h.F k i }

/-- The whole state in the new units. -/
noncomputable def unitRef2 (l v : ℝ) (r : RefC2 B) : RefC2 B :=
  { F := unitFields2 (v / l) v r.F, Φ := fun j G => v ^ 2 / l * r.Φ j G, time := l / v * r.time, hist := fun b => unitHist l v (r.hist b),
    lastX := fun b k i => l * r.lastX b k i, log := r.log, fresh := r.fresh }

variable {l v : ℝ}

theorem sh2_units (l v dx : ℝ) (a : Ib2) : (unitBody2 l v a).sh (l * dx) = l * a.sh dx := by
  unfold Ib2.sh unitBody2
  cases a.shift with
  | none => simp only [Option.map_none, Option.getD_none]; ring
  | some x => simp only [Option.map_some, Option.getD_some]

theorem cellOf_units (hl : 0 < l) (dx sh x : ℝ) : cellOf (l * dx) (l * sh) (l * x) = cellOf dx sh x := by
  unfold cellOf
  rw [← mul_sub, mul_div_mul_left _ _ hl.ne']

theorem window2_units (hl : 0 < l) (dx sh : ℝ) (w : ℕ) (x y : ℝ) : window2 (l * dx) (l * sh) w (l * x, l * y) = window2 dx sh w (x, y) := by
  unfold window2 winCells
  simp only [cellOf_units hl]

theorem weight2_units (hl : 0 < l) {dx : ℝ} (hdx : 0 < dx) (sh x y : ℝ) (G : C2) :
    cellWeight2 (l * dx) (l * sh) (cosW2 (l * dx)) (l * x, l * y) G = cellWeight2 dx sh (cosW2 dx) (x, y) G / l ^ 2 := by
  unfold cellWeight2 cosW2
  simp only
  have e : ∀ z a : ℝ, (z * (l * dx) + l * sh - l * a) / (l * dx) = (z * dx + sh - a) / dx := by
    intro z a
    rw [show z * (l * dx) + l * sh - l * a = l * (z * dx + sh - a) by ring, mul_div_mul_left _ _ hl.ne']
  rw [e, e]
  field_simp

theorem interp2_units (hl : 0 < l) {dx : ℝ} (hdx : 0 < dx) (v sh : ℝ) (w : ℕ) (F : C2 → ℝ) (x y : ℝ) :
    interp2 (l * dx) (l * sh) w (cosW2 (l * dx)) (fun G => v * F G) (l * x, l * y) = v * interp2 dx sh w (cosW2 dx) F (x, y) := by
  unfold interp2
  rw [window2_units hl, mul_sum]
  refine sum_congr rfl fun G _ => ?_
  rw [weight2_units hl hdx]
  field_simp

theorem share2_units (hl : 0 < l) {dx : ℝ} (hdx : 0 < dx) (v sh : ℝ) (w : ℕ) (G : C2) (x y f : ℝ) :
    share2n (l * dx) (l * sh) w (cosW2 (l * dx)) G ((l * x, l * y), v ^ 2 * l * f) = v ^ 2 / l * share2n dx sh w (cosW2 dx) G ((x, y), f) := by
  unfold share2n
  simp only [window2_units hl]
  split
  · rw [weight2_units hl hdx]
    field_simp
  · simp

theorem mismatch2_units (hl : 0 < l) {dx : ℝ} (hdx : 0 < dx) (v : ℝ) (a : Ib2) (u : Fin 2 → C2 → ℝ) (X U : LagField ℝ) :
    mismatch2 (l * dx) (unitBody2 l v a) (fun j G => v * u j G) (fun k i => l * X k i) (fun k i => v * U k i) = fun k i => v * mismatch2 dx a u X U k i := by
  funext k i
  unfold mismatch2
  rw [sh2_units, interp2_units hl hdx]
  ring

theorem lag2_units (hl : 0 < l) {dx : ℝ} (hdx : 0 < dx) (v : ℝ) (a : Ib2) (u : Fin 2 → C2 → ℝ) (X U : LagField ℝ) (h : NodeHist ℝ) :
    refLag2 (l * dx) (unitBody2 l v a) (fun j G => v * u j G) (fun k i => l * X k i) (fun k i => v * U k i) (unitHist l v h) = unitHist l v (refLag2 dx a u X U h) := by
  unfold refLag2
  rw [mismatch2_units hl hdx]
  unfold unitHist unitBody2
  simp only [NodeHist.mk.injEq, true_and, and_true]
  funext k i
  field_simp

theorem spread2_units (hl : 0 < l) {dx : ℝ} (hdx : 0 < dx) (v : ℝ) (a : Ib2) (X f : LagField ℝ) (Φ : Fin 2 → C2 → ℝ) :
    refSpread2 (l * dx) (unitBody2 l v a) (fun k i => l * X k i) (fun k i => v ^ 2 * l * f k i) (fun j G => v ^ 2 / l * Φ j G) = fun j G => v ^ 2 / l * refSpread2 dx a X f Φ j G := by
  funext j G
  unfold refSpread2
  rw [sh2_units]
  simp only [share2_units hl hdx]
  have e : ((List.range (unitBody2 l v a).N).map fun i => v ^ 2 / l * share2n dx (a.sh dx) 2 (cosW2 dx) G ((X 0 i, X 1 i), f j.1 i)).sum =
      v ^ 2 / l * ((List.range a.N).map fun i => share2n dx (a.sh dx) 2 (cosW2 dx) G ((X 0 i, X 1 i), f j.1 i)).sum := by
    rw [← List.sum_map_mul_left]
    rfl
  rw [e, mul_add]
  congr 1
  by_cases hr : a.reset = true
  · rw [if_pos (show (unitBody2 l v a).reset = true from hr), if_pos hr, mul_zero]
  · rw [if_neg (show ¬ (unitBody2 l v a).reset = true from hr), if_neg hr]

theorem update_units (l v : ℝ) (h : B → NodeHist ℝ) (b : B) (x : NodeHist ℝ) :
    Function.update (fun b => unitHist l v (h b)) b (unitHist l v x) = fun b' => unitHist l v (Function.update h b x b') := by
  funext b'
  by_cases e : b' = b
  · subst e; simp only [Function.update_self]
  · simp only [Function.update_of_ne e]

theorem updateX_units (l : ℝ) (h : B → LagField ℝ) (b : B) (x : LagField ℝ) :
    Function.update (fun b k i => l * h b k i) b (fun k i => l * x k i) = fun b' k i => l * Function.update h b x b' k i := by
  funext b'
  by_cases e : b' = b
  · subst e; simp only [Function.update_self]
  · simp only [Function.update_of_ne e]

theorem forces2_units (hl : 0 < l) {dx : ℝ} (hdx : 0 < dx) (v : ℝ) (a : Ib2) (b : B) (X U : LagField ℝ) (r : RefC2 B) :
    refForces2 (l * dx) (unitBody2 l v a) b (fun k i => l * X k i) (fun k i => v * U k i) (unitRef2 l v r) = unitRef2 l v (refForces2 dx a b X U r) := by
  unfold refForces2
  have e : refLag2 (l * dx) (unitBody2 l v a) (unitRef2 l v r).F.u (fun k i => l * X k i) (fun k i => v * U k i) ((unitRef2 l v r).hist b) = _ := lag2_units hl hdx v a r.F.u X U (r.hist b)
  rw [e]
  unfold unitRef2
  simp only [update_units, updateX_units]
  rfl

theorem full2_units (hl : 0 < l) {dx : ℝ} (hdx : 0 < dx) (v : ℝ) (a : Ib2) (b : B) (X U : LagField ℝ) (r : RefC2 B) :
    refFull2 (l * dx) (unitBody2 l v a) b (fun k i => l * X k i) (fun k i => v * U k i) (unitRef2 l v r) = unitRef2 l v (refFull2 dx a b X U r) := by
  unfold refFull2
  rw [forces2_units hl hdx]
  have e : refLag2 (l * dx) (unitBody2 l v a) (unitRef2 l v r).F.u (fun k i => l * X k i) (fun k i => v * U k i) ((unitRef2 l v r).hist b) = _ := lag2_units hl hdx v a r.F.u X U (r.hist b)
  rw [e]
  have e2 : refSpread2 (l * dx) (unitBody2 l v a) (fun k i => l * X k i) (unitHist l v (refLag2 dx a r.F.u X U (r.hist b))).F (unitRef2 l v r).Φ = _ :=
    spread2_units hl hdx v a X (refLag2 dx a r.F.u X U (r.hist b)).F r.Φ
  rw [e2]
  rfl

theorem forceField_units (hl : 0 < l) (hv : 0 < v) (N : ℕ) (h : NodeHist ℝ) : (fun k i => refForceField N (unitHist l v h) k i / (v ^ 2 * l)) = refForceField N h := by
  funext k i
  unfold refForceField unitHist
  simp only
  split
  · field_simp
  · simp

theorem deviation_units (hl : 0 < l) (v : ℝ) (d N : ℕ) (h : NodeHist ℝ) : refDeviation d N (unitHist l v h) = l * refDeviation d N h := by
  unfold refDeviation unitHist
  simp only [mul_pow]
  simp only [List.sum_map_mul_left, mul_div_assoc]
  rw [Real.sqrt_mul (by positivity), Real.sqrt_sq hl.le]

open Pointwise in
theorem sSup_units {s : ℝ} (hs : 0 < s) (p : C2 → Prop) (om : C2 → ℝ) : sSup {x | ∃ G, p G ∧ x = s * om G} = s * sSup {x | ∃ G, p G ∧ x = om G} := by
  rw [← smul_eq_mul, ← Real.sSup_smul_of_nonneg hs.le]
  congr 1
  ext x
  rw [Set.mem_smul_set]
  constructor
  · rintro ⟨G, h, rfl⟩
    exact ⟨_, ⟨G, h, rfl⟩, rfl⟩
  · rintro ⟨_, ⟨G, h, rfl⟩, rfl⟩
    exact ⟨G, h, rfl⟩

/-- a body's advance -/
theorem advance2_units (hl : 0 < l) (hv : 0 < v) (dt : ℝ) (b : B) (r : RefC2 B) :
    ({ unitRef2 l v r with
      hist := Function.update (unitRef2 l v r).hist b { (unitRef2 l v r).hist b with P := fun k i => ((unitRef2 l v r).hist b).P k i + l / v * dt * ((unitRef2 l v r).hist b).V k i, t := ((unitRef2 l v r).hist b).t + l / v * dt } } : RefC2 B) =
    unitRef2 l v { r with
      hist := Function.update r.hist b { r.hist b with P := fun k i => (r.hist b).P k i + dt * (r.hist b).V k i, t := (r.hist b).t + dt } } := by
  unfold unitRef2
  simp only [RefC2.mk.injEq, true_and, and_true]
  rw [← update_units]
  congr 1
  unfold unitHist
  simp only [NodeHist.mk.injEq, true_and]
  refine ⟨?_, by ring⟩
  funext k i
  field_simp

variable {K : Kern2} {P : Params2}

theorem inside2_units (hl : 0 < l) (v : ℝ) (gy gx k : ℕ) (dx : ℝ) (a : Ib2) (X : LagField ℝ) :
    Inside2 gy gx k (l * dx) (unitBody2 l v a) (fun k i => l * X k i) ↔ Inside2 gy gx k dx a X := by
  unfold Inside2
  simp only [sh2_units, window2_units hl]
  rfl

theorem subblock2_units (hl : 0 < l) (T : Cart2) (dx sh x y : ℝ) : subblock2 T (l * dx) (l * sh) (l * x, l * y) = subblock2 T dx sh (x, y) := by
  unfold subblock2
  simp only
  have e : ∀ (n : ℝ) (a : ℝ), (l * a - l * sh) / (l * dx * n) = (a - sh) / (dx * n) := by
    intro n a
    rw [← mul_sub, mul_assoc, mul_div_mul_left _ _ hl.ne']
  simp only [e]

theorem mapping2_units (hl : 0 < l) (v : ℝ) (T : Cart2) (dx : ℝ) (a : Ib2) (X : LagField ℝ) : (unitBody2 l v a).mapping T (l * dx) (fun k i => l * X k i) = a.mapping T dx X := by
  unfold Ib2.mapping rankAddress2
  rw [sh2_units]
  have e : (points2 (unitBody2 l v a).N fun k i => l * X k i).map (subblock2 T (l * dx) (l * a.sh dx)) = (points2 a.N X).map (subblock2 T dx (a.sh dx)) := by
    unfold points2
    rw [List.map_map, List.map_map]
    refine List.map_congr_left fun i _ => ?_
    exact subblock2_units hl T dx (a.sh dx) (X 0 i) (X 1 i)
  simp only [e]

theorem noticed2_units (hl : 0 < l) (v : ℝ) (T : Cart2) (dx : ℝ) (a : Ib2) (X Y : LagField ℝ) :
    Noticed2 T (l * dx) (unitBody2 l v a) (fun k i => l * X k i) (fun k i => l * Y k i) ↔ Noticed2 T dx a X Y := by
  unfold Noticed2
  simp only [mapping2_units hl]

/-- The run in the new units is the run in the old units, converted; bodies stay inside, and remappings are noticed, in both or in neither. -/
theorem cRef2_units (hK : Units2 K) (hl : 0 < l) (hv : 0 < v) (hdx : 0 < P.dx) (cfl tol : ℝ) (A : B → Ib2) (T : Cart2) (p : Prog2 B) (hg : v = 1 ∨ Given2 p) (r : RefC2 B) :
    cRef2 (unitParams2 l v P) K cfl tol (fun b => unitBody2 l v (A b)) (unitProg2 l v p) (unitRef2 l v r) = unitRef2 l v (cRef2 P K cfl tol A p r) ∧
    (Proper2 (unitParams2 l v P) K cfl tol (fun b => unitBody2 l v (A b)) (unitProg2 l v p) (unitRef2 l v r) ↔ Proper2 P K cfl tol A p r) ∧
    (Tracked2 T (unitParams2 l v P) K cfl tol (fun b => unitBody2 l v (A b)) (unitProg2 l v p) (unitRef2 l v r) ↔ Tracked2 T P K cfl tol A p r) := by
  have edx := unitParams2_dx l v P
  induction p generalizing r with
  | stop => exact ⟨rfl, Iff.rfl, Iff.rfl⟩
  | interact b X U k ih =>
    have e := full2_units hl hdx v (A b) b X U r
    obtain ⟨i1, i2, i3⟩ := ih hg (refFull2 P.dx (A b) b X U r)
    simp only [unitProg2, cRef2, Proper2, Tracked2, edx, e]
    exact ⟨i1, and_congr (inside2_units hl v P.gy P.gx 1 P.dx (A b) X) (and_congr Iff.rfl i2), and_congr (noticed2_units hl v T P.dx (A b) (r.lastX b) X) i3⟩
  | forces b X U k ih =>
    have e := forces2_units hl hdx v (A b) b X U r
    have e2 : refLag2 (l * P.dx) (unitBody2 l v (A b)) (unitRef2 l v r).F.u (fun k i => l * X k i) (fun k i => v * U k i) ((unitRef2 l v r).hist b) = _ := lag2_units hl hdx v (A b) r.F.u X U (r.hist b)
    have e3 := forceField_units hl hv (A b).N (refLag2 P.dx (A b) r.F.u X U (r.hist b))
    have e4 : (unitBody2 l v (A b)).N = (A b).N := rfl
    obtain ⟨i1, i2, i3⟩ := ih (refForceField (A b).N (refLag2 P.dx (A b) r.F.u X U (r.hist b))) (hg.imp id fun h => h _) (refForces2 P.dx (A b) b X U r)
    simp only [unitProg2, cRef2, Proper2, Tracked2, edx, e, e2, e3, e4]
    exact ⟨i1, and_congr (inside2_units hl v P.gy P.gx 0 P.dx (A b) X) (and_congr Iff.rfl i2), and_congr (noticed2_units hl v T P.dx (A b) (r.lastX b) X) i3⟩
  | advance b dt k ih =>
    have q := ih hg { r with hist := Function.update r.hist b { r.hist b with P := fun k i => (r.hist b).P k i + dt * (r.hist b).V k i, t := (r.hist b).t + dt } }
    rw [← advance2_units hl hv] at q
    exact q
  | flow dt fs k ih =>
    have q := ih hg { r with F := refForcing2 P K dt fs r.Φ r.F, Φ := fun _ _ => 0, time := r.time + dt, fresh := false }
    have e : unitRef2 l v { r with F := refForcing2 P K dt fs r.Φ r.F, Φ := fun _ _ => 0, time := r.time + dt, fresh := false } =
        { unitRef2 l v r with F := refForcing2 (unitParams2 l v P) K (l / v * dt) (fun j => v * fs j) (unitRef2 l v r).Φ (unitRef2 l v r).F, Φ := fun _ _ => 0, time := (unitRef2 l v r).time + l / v * dt, fresh := false } := by
      have e1 : refForcing2 (unitParams2 l v P) K (l / v * dt) (fun j => v * fs j) (unitRef2 l v r).Φ (unitRef2 l v r).F = _ := forcing2_units hK hl hv hdx dt fs r.Φ r.F
      rw [e1]
      unfold unitRef2
      simp only [mul_zero, mul_add]
    rw [e] at q
    exact q
  | stableDt pre k ih =>
    have hr : v = 1 := by
      rcases hg with hg | hg
      · exact hg
      · exact hg.elim
    have e : refDt2 (unitParams2 l v P) cfl tol (unitRef2 l v r).F (.stable pre) / (l / v) = refDt2 P cfl tol r.F (.stable pre) := by
      have q : refDt2 (unitParams2 l v P) cfl tol (unitRef2 l v r).F (.stable pre) = _ := dt2_units (P := P) hl hv (v / l) cfl tol r.F (.stable pre) (Or.inl hr)
      rw [q]
      field_simp
    have q := ih (refDt2 P cfl tol r.F (.stable pre)) (Or.inl hr) r
    rw [← e] at q
    simp only [unitProg2, cRef2, Proper2, Tracked2]
    rw [← e]
    exact q
  | deviation b k ih =>
    have e : refDeviation 2 (unitBody2 l v (A b)).N ((unitRef2 l v r).hist b) / l = refDeviation 2 (A b).N (r.hist b) := by
      have q : refDeviation 2 (unitBody2 l v (A b)).N ((unitRef2 l v r).hist b) = _ := deviation_units hl v 2 (A b).N (r.hist b)
      rw [q]
      field_simp
    have q := ih (refDeviation 2 (A b).N (r.hist b)) (hg.imp id fun h => h _) r
    simp only [unitProg2, cRef2, Proper2, Tracked2]
    rw [e]
    exact q
  | maxVort k ih =>
    have hs : 0 < v / l := div_pos hv hl
    have e : sSup {x | ∃ G, Dom2 (unitParams2 l v P).gy (unitParams2 l v P).gx G ∧ x = (unitRef2 l v r).F.om G} / (v / l) = sSup {x | ∃ G, Dom2 P.gy P.gx G ∧ x = r.F.om G} := by
      have q : sSup {x | ∃ G, Dom2 (unitParams2 l v P).gy (unitParams2 l v P).gx G ∧ x = (unitRef2 l v r).F.om G} = _ := sSup_units hs (Dom2 P.gy P.gx) r.F.om
      rw [q, mul_div_cancel_left₀ _ hs.ne']
    have q := ih (sSup {x | ∃ G, Dom2 P.gy P.gx G ∧ x = r.F.om G}) (hg.imp id fun h => h _) r
    simp only [unitProg2, cRef2, Proper2, Tracked2]
    rw [e]
    exact q
  | ghost k ih => exact ih hg { r with fresh := true }
  | out x k ih => exact ih hg { r with log := r.log ++ [x] }

end Bodies

/-! ## On the ranks -/

section Ranks
variable {T T' : Cart2} [NeZero T.gy] [NeZero T.gx] [NeZero T'.gy] [NeZero T'.gx]

omit [NeZero T.gy] [NeZero T.gx] in
theorem fieldsFrom2_units {l v s : ℝ} {om om' : ℝ → ℝ → ℝ} {u u' : Fin 2 → ℝ → ℝ → ℝ} (hom : ∀ x y, om' (l * x) (l * y) = s * om x y) (hu : ∀ j x y, u' j (l * x) (l * y) = v * u j x y) (dx : ℝ) :
    fieldsFrom2 (l * dx) om' u' = unitFields2 s v (fieldsFrom2 dx om u) := by
  unfold fieldsFrom2 unitFields2
  simp only [Fields2.mk.injEq]
  refine ⟨?_, ?_⟩
  · funext G
    rw [← hom]
    congr 1 <;> ring
  · funext j G
    rw [← hu]
    congr 1 <;> ring

/-- C115: two simulations on the same number of cells, on whatever decompositions; in the second all lengths are `l` times, all velocities `v` times and hence all times `l / v` times those of the first: width of the
domain, viscosity, time steps, free stream, forcing and initial fields (the advected field is `s` times as large, where `s = v / l` if it is the vorticity). If velocities differ, time steps have to be given. Then the
second run ends like the first, after `l / v` times the time, and in every cell of the grid its fields are those of the first times `s` and `v`. -/
theorem sim2_units {a a' : SimArgs2} (hsame : a' = { a with py := a'.py, px := a'.px }) (h : Fit2 a T) (h' : Fit2 a' T') {xr : ℝ} (hxr : 0 < xr) (nu : ℝ) {cfl : ℝ} (hcfl : 0 ≤ cfl) {tol : ℝ} (htol : 0 < tol)
    {K : Kern2} (hK : K.Local) (hU : Units2 K) {l v s : ℝ} (hl : 0 < l) (hv : 0 < v) (hs : 0 < s) (hns : a.flowType = "navier_stokes" ∨ a.flowType = "navier_stokes_with_forcing" → s = v / l)
    (time : ℝ) (dbl0 dbl0' : World C2 C2 ℝ) (conv0 : Dbl2 T → ℂ) (conv0' : Dbl2 T' → ℂ) {om om' : ℝ → ℝ → ℝ} {u u' : Fin 2 → ℝ → ℝ → ℝ}
    (hom : ∀ x y, om' (l * x) (l * y) = s * om x y) (hu : ∀ j x y, u' j (l * x) (l * y) = v * u j x y)
    {xs xs' : List StepIn2} {ys : List StepSpec2} (hxy : List.Forall₂ (Means2 a.gy a.gx T (simCfg2 a T xr nu cfl)) xs ys)
    (hxy' : List.Forall₂ (Means2 a'.gy a'.gx T' (simCfg2 a' T' (l * xr) (l * v * nu) cfl)) xs' (ys.map (unitStep2 l v))) (hr : v = 1 ∨ ∀ y ∈ ys, GivenRule y.rule) :
    let out := simLoop2 (simCfg2 a T xr nu cfl) K tol xs (initFrom2 T a.g xr time dbl0 conv0 om u)
    let out' := simLoop2 (simCfg2 a' T' (l * xr) (l * v * nu) cfl) K tol xs' (initFrom2 T' a'.g (l * xr) (l / v * time) dbl0' conv0' om' u')
    out.2 = none ∧ out'.2 = none ∧ out'.1.time = l / v * out.1.time ∧
    ∀ c p c' p', Valid2 T c → Inner2 T ((2 : ℕ) : ℤ) p → Valid2 T' c' → Inner2 T' ((2 : ℕ) : ℤ) p' → globalIx2 T' ((2 : ℕ) : ℤ) c' p' = globalIx2 T ((2 : ℕ) : ℤ) c p →
      out'.1.prim c' p' = s * out.1.prim c p ∧ ∀ j, out'.1.vel j c' p' = v * out.1.vel j c p := by
  have hK0 : ∀ r, K.upd r (fun _ _ => 0) = 0 := fun r => by rw [hU.upd]; ring
  obtain ⟨e1, e2, e3⟩ := sim2_run h hxr nu hcfl htol hK hK0 time dbl0 conv0 om u hxy
  obtain ⟨f1, f2, f3⟩ := sim2_run h' (mul_pos hl hxr) (l * v * nu) hcfl htol hK hK0 (l / v * time) dbl0' conv0' om' u' hxy'
  have hgx : a'.gx = a.gx := by rw [hsame]
  have hft : a'.flowType = a.flowType := by rw [hsame]
  have hP : (⟨a'.gy, a'.gx, l * xr, l * v * nu, widthOf a'.width, a'.freeStream⟩ : Params2) = unitParams2 l v ⟨a.gy, a.gx, xr, nu, widthOf a.width, a.freeStream⟩ := by rw [hsame]; rfl
  have hdx : 0 < (⟨a.gy, a.gx, xr, nu, widthOf a.width, a.freeStream⟩ : Params2).dx := by
    obtain ⟨hT, -⟩ := simCheck2_cart' h.built
    obtain ⟨-, g2, -⟩ := construct2_ok hT
    have : 0 < a.gx := by rw [← g2]; exact Nat.pos_of_ne_zero (NeZero.ne _)
    exact div_pos hxr (by exact_mod_cast this)
  have hF : fieldsFrom2 (l * xr / a'.gx) om' u' = unitFields2 s v (fieldsFrom2 (xr / a.gx) om u) := by
    rw [hgx, mul_div_assoc]
    exact fieldsFrom2_units hom hu _
  rw [hP, hF, hft, run2_units hU hl hv hdx hs a.flowType hns cfl tol ys hr] at f2 f3
  intro out out'
  refine ⟨e1, f1, ?_, ?_⟩
  · rw [show out'.1.time = _ from f2, show out.1.time = _ from e2]
  · intro c p c' p' hc hp hc' hp' hG
    obtain ⟨x1, x2⟩ := e3 c p hc hp
    obtain ⟨y1, y2⟩ := f3 c' p' hc' hp'
    rw [hG] at y1 y2
    refine ⟨?_, fun j => ?_⟩
    · rw [show out'.1.prim c' p' = _ from y1, show out.1.prim c p = _ from x1]; rfl
    · rw [show out'.1.vel j c' p' = _ from y2 j, show out.1.vel j c p = _ from x2 j]; rfl

variable {B : Type} [DecidableEq B]

/-- C115: the same with immersed bodies, under any driver: the second driver is the first one, working in its own units and converting what it hands over and gets back (`unitProg2`); the nodes, their spacing and the
coupling coefficients are converted as well (`unitBody2`: stiffness times `v ^ 2 / l`, damping times `v`). The two runs print the same; fields, forcing, times and the forces on all nodes of all bodies of the second
are those of the first in the new units. -/
theorem coupled2_units {a a' : SimArgs2} (hsame : a' = { a with py := a'.py, px := a'.px }) {xr : ℝ} (hxr : 0 < xr) {nu cfl : ℝ} (hcfl : 0 ≤ cfl) {tol : ℝ} (htol : 0 < tol)
    {K : Kern2} (hK : K.Local) (hU : Units2 K) {l v : ℝ} (hl : 0 < l) (hv : 0 < v)
    {A A' : B → Ib2} (hA : ∀ b, A' b = { unitBody2 l v (A b) with m := (A' b).m, ord := (A' b).ord, junk := (A' b).junk })
    {X0 : B → LagField ℝ} {t0 : B → ℝ} {time : ℝ} {om om' : ℝ → ℝ → ℝ} {u u' : Fin 2 → ℝ → ℝ → ℝ}
    (hom : ∀ x y, om' (l * x) (l * y) = v / l * om x y) (hu : ∀ j x y, u' j (l * x) (l * y) = v * u j x y)
    {S : CSt2 T B} (h : Setup2 a xr nu cfl A X0 t0 time om u S)
    {S' : CSt2 T' B} (h' : Setup2 a' (l * xr) (l * v * nu) cfl A' (fun b k i => l * X0 b k i) (fun b => l / v * t0 b) (l / v * time) om' u' S')
    {o o' : ℕ → CScheds2} (ho : ∀ n, (o n).Done T (simCfg2 a T xr nu cfl).d) (ho' : ∀ n, (o' n).Done T' (simCfg2 a' T' (l * xr) (l * v * nu) cfl).d) (p : Prog2 B) (hg : v = 1 ∨ Given2 p)
    {P : Params2} (hP : P = ⟨a.gy, a.gx, xr, nu, widthOf a.width, a.freeStream⟩) {r : RefC2 B} (hr : r = refStart2 (xr / a.gx) X0 t0 time om u)
    (hp : Proper2 P K cfl tol A p r) (ht : Tracked2 T P K cfl tol A p r) (ht' : Tracked2 T' P K cfl tol A p r) :
    let out := cRun2 (simCfg2 a T xr nu cfl) K tol A o p 0 S
    let out' := cRun2 (simCfg2 a' T' (l * xr) (l * v * nu) cfl) K tol A' o' (unitProg2 l v p) 0 S'
    out.2 = none ∧ out'.2 = none ∧ out'.1.sim.time = l / v * out.1.sim.time ∧ out'.1.log = out.1.log ∧
    (∀ c q c' q', Valid2 T c → Inner2 T ((2 : ℕ) : ℤ) q → Valid2 T' c' → Inner2 T' ((2 : ℕ) : ℤ) q' → globalIx2 T' ((2 : ℕ) : ℤ) c' q' = globalIx2 T ((2 : ℕ) : ℤ) c q →
      out'.1.sim.prim c' q' = v / l * out.1.sim.prim c q ∧ ∀ j, out'.1.sim.vel j c' q' = v * out.1.sim.vel j c q ∧ out'.1.sim.forcing j c' q' = v ^ 2 / l * out.1.sim.forcing j c q) ∧
    ∀ b, (∀ k < 2, ∀ i < (A b).N, (out'.1.ib b).v.gforce k i = v ^ 2 * l * (out.1.ib b).v.gforce k i) ∧ (out'.1.ib b).v.time = l / v * (out.1.ib b).v.time := by
  have hK0 : ∀ r, K.upd r (fun _ _ => 0) = 0 := fun r => by rw [hU.upd]; ring
  have hgx : a'.gx = a.gx := by rw [hsame]
  have hP' : (⟨a'.gy, a'.gx, l * xr, l * v * nu, widthOf a'.width, a'.freeStream⟩ : Params2) = unitParams2 l v P := by rw [hsame, hP]; rfl
  have hdx : 0 < P.dx := by
    obtain ⟨hT, -⟩ := simCheck2_cart' h.fit.built
    obtain ⟨-, g2, -⟩ := construct2_ok hT
    have : 0 < a.gx := by rw [← g2]; exact Nat.pos_of_ne_zero (NeZero.ne _)
    rw [hP]
    exact div_pos hxr (by exact_mod_cast this)
  have hr' : refStart2 (l * xr / a'.gx) (fun b k i => l * X0 b k i) (fun b => l / v * t0 b) (l / v * time) om' u' = unitRef2 l v r := by
    rw [hr, hgx, mul_div_assoc]
    unfold refStart2 unitRef2
    rw [fieldsFrom2_units hom hu]
    simp only [RefC2.mk.injEq, true_and, and_true]
    refine ⟨?_, ?_⟩
    · funext j G; simp
    · funext b
      unfold nodeInit unitHist
      simp
  obtain ⟨i1, i2, -⟩ := cRef2_units hU hl hv hdx cfl tol A T p hg r
  obtain ⟨-, -, i3⟩ := cRef2_units hU hl hv hdx cfl tol A T' p hg r
  have hind := same_bodies2 hA (unitParams2 l v P) K cfl tol T' (unitProg2 l v p) (unitRef2 l v r)
  have hNA : ∀ b, (A' b).N = (A b).N := fun b => by rw [hA b]; rfl
  obtain ⟨r1, r2, r3, r4, r5⟩ := coupled2_run hxr hcfl htol hK hK0 h ho p (by rw [← hP, ← hr]; exact hp) (by rw [← hP, ← hr]; exact ht)
  obtain ⟨s1, s2, s3, s4, s5⟩ := coupled2_run (mul_pos hl hxr) hcfl htol hK hK0 h' ho' (unitProg2 l v p) (by rw [hP', hr']; exact hind.2.1.2 (i2.2 hp)) (by rw [hP', hr']; exact hind.2.2.2 (i3.2 ht'))
  rw [← hP, ← hr] at r2 r3 r4 r5
  rw [hP', hr', hind.1, i1] at s2 s3 s4 s5
  generalize cRef2 P K cfl tol A p r = f at r2 r3 r4 r5 s2 s3 s4 s5
  intro out out'
  refine ⟨r1, s1, ?_, s3.trans r3.symm, ?_, ?_⟩
  · rw [show out'.1.sim.time = _ from s2, show out.1.sim.time = _ from r2]; rfl
  · intro c q c' q' hc hq hc' hq' hG
    obtain ⟨x1, x2⟩ := r4 c q hc hq
    obtain ⟨y1, y2⟩ := s4 c' q' hc' hq'
    rw [hG] at y1 y2
    refine ⟨?_, fun j => ⟨?_, ?_⟩⟩
    · rw [show out'.1.sim.prim c' q' = _ from y1, show out.1.sim.prim c q = _ from x1]; rfl
    · rw [show out'.1.sim.vel j c' q' = _ from (y2 j).1, show out.1.sim.vel j c q = _ from (x2 j).1]; rfl
    · rw [show out'.1.sim.forcing j c' q' = _ from (y2 j).2, show out.1.sim.forcing j c q = _ from (x2 j).2]; rfl
  · intro b
    obtain ⟨x1, x2⟩ := r5 b
    obtain ⟨y1, y2⟩ := s5 b
    refine ⟨fun k hk i hi => ?_, ?_⟩
    · rw [show (out'.1.ib b).v.gforce k i = _ from y1 k hk i (by rw [hNA]; exact hi), show (out.1.ib b).v.gforce k i = _ from x1 k hk i hi]; rfl
    · rw [show (out'.1.ib b).v.time = _ from y2, show (out.1.ib b).v.time = _ from x2]; rfl

end Ranks

/-! ## The assumptions hold -/

theorem upwind3_units {s v : ℝ} (hv : 0 < v) (w fm f0 f1 f2 : ℝ) : upwind3 (v * w) (s * fm) (s * f0) (s * f1) (s * f2) = s * v * upwind3 w fm f0 f1 f2 := by
  unfold upwind3
  by_cases h : 0 ≤ w
  · rw [if_pos h, if_pos (mul_nonneg hv.le h)]
    ring
  · rw [if_neg h, if_neg (by push Not at h ⊢; exact mul_neg_of_pos_of_neg hv h)]
    ring

/-- upwind advection and central differences meet the assumptions -/
theorem exKern2_units : Units2 exKern2 := by
  refine ⟨?_, fun _ _ => rfl, fun _ _ => rfl, fun _ _ => rfl⟩
  intro a s v f f' hs hv h1 h2
  simp only [exKern2, h1, h2]
  simp only [← mul_add, mul_div_assoc, upwind3_units hv]
  field_simp

/-- The assumptions of `coupled2_units` about grid, flow, body and driver can be met at once, with lengths doubled and velocities tripled: 24 × 24 cells on two ranks and on four, the body lying across a boundary
between ranks, vorticity around it. -/
theorem exUnits2 [NeZero (⟨24, 24, 1, 2, 24, 12, false⟩ : Cart2).gy] [NeZero (⟨24, 24, 1, 2, 24, 12, false⟩ : Cart2).gx]
    [NeZero (⟨24, 24, 1, 4, 24, 6, false⟩ : Cart2).gy] [NeZero (⟨24, 24, 1, 4, 24, 6, false⟩ : Cart2).gx] (K : Kern2) (nu cfl tol : ℝ) :
    let a : SimArgs2 := ⟨24, 24, 1, 2, "navier_stokes_with_forcing", true, 2, .int 2⟩
    let a' : SimArgs2 := { a with px := 4 }
    let P : Params2 := ⟨a.gy, a.gx, 24, nu, widthOf a.width, a.freeStream⟩
    let om' : ℝ → ℝ → ℝ := fun x y => 3 / 2 * exOmC (x / 2) (y / 2)
    let u : Fin 2 → ℝ → ℝ → ℝ := fun _ _ _ => 0
    let A : Unit → Ib2 := fun _ => exBody2
    let r : RefC2 Unit := refStart2 ((24 : ℝ) / a.gx) (fun _ => exPosC) (fun _ => 0) 0 exOmC u
    (∃ S : CSt2 ⟨24, 24, 1, 2, 24, 12, false⟩ Unit, Setup2 a 24 nu cfl A (fun _ => exPosC) (fun _ => 0) 0 exOmC u S) ∧
    (∃ S : CSt2 ⟨24, 24, 1, 4, 24, 6, false⟩ Unit, Setup2 a' (2 * 24) (2 * 3 * nu) cfl (fun b => unitBody2 2 3 (A b)) (fun _ k i => 2 * exPosC k i) (fun _ => 2 / 3 * 0) (2 / 3 * 0) om' u S) ∧
    Given2 exProgP ∧ Proper2 P K cfl tol A exProgP r ∧ Tracked2 ⟨24, 24, 1, 2, 24, 12, false⟩ P K cfl tol A exProgP r ∧ Tracked2 ⟨24, 24, 1, 4, 24, 6, false⟩ P K cfl tol A exProgP r ∧
    (∀ x y, om' (2 * x) (2 * y) = 3 / 2 * exOmC x y) ∧ r.F.om (11, 11) ≠ 0 := by
  intro a a' P om' u A r
  have hdx : P.dx = 1 := by unfold Params2.dx; norm_num [P, a]
  have hd1 : (24 : ℝ) / a.gx = 1 := by norm_num [a]
  have hi : ∀ k ≤ 9, Inside2 24 24 k 1 exBody2 exPosC := by
    intro k hk i hI G hG
    have := exPosC_inside i hI G hG
    unfold Away2 at this ⊢
    push_cast at this ⊢; omega
  have hi' : ∀ k ≤ 9, Inside2 24 24 k (2 * 1) (unitBody2 2 3 exBody2) (fun k i => 2 * exPosC k i) := fun k hk => (inside2_units two_pos 3 24 24 k 1 exBody2 exPosC).2 (hi k hk)
  have hslave : ∀ (b : Unit) l, SlaveSet l (A b).m ((A b).ord l) := by
    intro _ l
    refine ⟨?_, ?_⟩
    · exact (List.nodup_dedup l).filter _
    · intro x; simp [A, exBody2]
  refine ⟨?_, ?_, ?_, ?_, ?_, ?_, ?_, ?_⟩
  · have hfit : Fit2 a ⟨24, 24, 1, 2, 24, 12, false⟩ := ⟨by decide, ⟨by decide, fun _ => ⟨by decide, 2, rfl⟩⟩, rfl, by decide, by decide, by decide, by decide⟩
    obtain ⟨hT, -⟩ := simCheck2_cart' hfit.built
    have hd : simDx2 ⟨24, 24, 1, 2, 24, 12, false⟩ 24 = 1 := by unfold simDx2; norm_num
    obtain ⟨z, hz⟩ := (ibInit2_ok_iff hT (by decide) (by decide) one_pos (g := a.g) (k := 0) (a := exBody2) (X0 := exPosC) (hi 0 (by omega)) 0).2 ⟨rfl, le_refl 2⟩
    refine ⟨⟨initFrom2 ⟨24, 24, 1, 2, 24, 12, false⟩ a.g 24 0 0 0 exOmC u, fun _ => z, []⟩, hfit, rfl, hslave, ?_, ?_, ⟨_, _, rfl⟩, rfl⟩
    · intro _; rw [hd1]; exact hi 0 (by omega)
    · intro _; rw [hd]; exact hz
  · have hfit : Fit2 a' ⟨24, 24, 1, 4, 24, 6, false⟩ := ⟨by decide, ⟨by decide, fun _ => ⟨by decide, 2, rfl⟩⟩, rfl, by decide, by decide, by decide, by decide⟩
    obtain ⟨hT, -⟩ := simCheck2_cart' hfit.built
    have hd : simDx2 ⟨24, 24, 1, 4, 24, 6, false⟩ (2 * 24) = 2 * 1 := by unfold simDx2; norm_num
    have hd3 : (2 * 24 : ℝ) / a'.gx = 2 * 1 := by norm_num [a', a]
    obtain ⟨z, hz⟩ := (ibInit2_ok_iff hT (by decide) (by decide) (by norm_num : (0 : ℝ) < 2 * 1) (g := a'.g) (k := 0) (a := unitBody2 2 3 exBody2) (X0 := fun k i => 2 * exPosC k i) (hi' 0 (by omega)) (2 / 3 * 0)).2 ⟨rfl, le_refl 2⟩
    refine ⟨⟨initFrom2 ⟨24, 24, 1, 4, 24, 6, false⟩ a'.g (2 * 24) (2 / 3 * 0) 0 0 om' u, fun _ => z, []⟩, hfit, rfl, hslave, ?_, ?_, ⟨_, _, rfl⟩, rfl⟩
    · intro _; rw [hd3]; exact hi' 0 (by omega)
    · intro _; rw [hd]; exact hz
  · unfold exProgP
    simp only [Given2]
    exact fun _ => trivial
  · unfold exProgP
    simp only [Proper2, hdx]
    exact ⟨hi 1 (by omega), Or.inl rfl, hi 0 (by omega), Or.inl rfl, hi 1 (by omega), Or.inl rfl, trivial⟩
  · refine tracked2_still P K cfl tol _ (fun _ => exPosC) _ ?_ _ rfl
    unfold exProgP
    simp only [Still2]
    simp
  · refine tracked2_still P K cfl tol _ (fun _ => exPosC) _ ?_ _ rfl
    unfold exProgP
    simp only [Still2]
    simp
  · intro x y
    simp only [om']
    rw [mul_div_cancel_left₀ _ two_ne_zero, mul_div_cancel_left₀ _ two_ne_zero]
  · change (fieldsFrom2 ((24 : ℝ) / a.gx) exOmC u).om (11, 11) ≠ 0
    rw [hd1]
    unfold fieldsFrom2 exOmC
    norm_num

/-- An advection kernel with a wrong power of the velocity does not meet the assumptions. -/
example : ¬ Homog2 fun a f => a * (f (some 0) (0, 0) * f (some 0) (0, 0) * f none (0, 1)) := by
  intro h
  have q := h 1 1 2 (fun _ _ => 1) (fun i _ => match i with | none => 1 | some _ => 2) one_pos two_pos (by intro d; norm_num) (by intro j d; norm_num)
  norm_num at q

end Sopht
