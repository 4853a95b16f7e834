import Verif.Units2D
import Verif.BodyPlace3D

/-!
# Change of units and dynamic similarity, 3D (C115)

The 3D version of `Units2D`. Stable time steps are left out altogether: the 3D simulator adds the fixed small number also to the viscosity (`dt3_units_fails`).
-/

namespace Sopht
open Finset

/-! ## Specification: other units

All lengths are multiplied by `l`, all velocities by `v`, hence all times by `l / v`. -/

/-- Advection that is linear in its factor and in the sizes of field and velocity. -/
def Homog3 (k : ℝ → (Option (Fin 3) → C3 → ℝ) → ℝ) : Prop :=
  ∀ (a s v : ℝ) (f f' : Option (Fin 3) → C3 → ℝ), 0 < s → 0 < v → (∀ d, f' none d = s * f none d) → (∀ j d, f' (some j) d = v * f (some j) d) → k (a / v) f' = s * k a f

/-- What is assumed of the kernels. -/
structure Units3 (K : Kern3) : Prop where
  adv : Homog3 K.adv
  diff : SevenPoint K.diff
  curl : CentralCurl3 K.curl
  upd : CentralCurl3 K.upd
  div : CentralDivKern3 K.div

/-- Fields: the passive scalar times `q`, vorticity or passive vector times `s`, the velocity times `v`. -/
def unitFields3 (q s v : ℝ) (F : Fields3) : Fields3 := { sc := fun G => q * F.sc G, om := fun j G => s * F.om j G, u := fun j G => v * F.u j G }

/-- Width of the domain and viscosity. -/
def unitParams3 (l v : ℝ) (P : Params3) : Params3 := { P with xr := l * P.xr, nu := l * v * P.nu }

/-- An iteration: free stream velocity, and forcing (a velocity per time). -/
noncomputable def unitStep3 (l v : ℝ) (y : StepSpec3) : StepSpec3 := { rule := unitRule l v y.rule, fs := fun j => v * y.fs j, Φ := fun j G => v ^ 2 / l * y.Φ j G }

/-! ## One step -/

section Steps
variable {K : Kern3} {P : Params3} {l v : ℝ}

theorem unitParams3_dx (l v : ℝ) (P : Params3) : (unitParams3 l v P).dx = l * P.dx := by
  unfold unitParams3 Params3.dx
  simp only
  ring

theorem unitParams3_gz (l v : ℝ) (P : Params3) : (unitParams3 l v P).gz = P.gz := rfl

theorem unitParams3_gy (l v : ℝ) (P : Params3) : (unitParams3 l v P).gy = P.gy := rfl

theorem unitParams3_gx (l v : ℝ) (P : Params3) : (unitParams3 l v P).gx = P.gx := rfl

theorem adv3_units (hK : Homog3 K.adv) (hl : 0 < l) (hv : 0 < v) {s : ℝ} (hs : 0 < s) (dt : ℝ) (u : Fin 3 → C3 → ℝ) (om : C3 → ℝ) :
    refAdv3 (unitParams3 l v P) K (l / v * dt) (fun j G => v * u j G) (fun G => s * om G) = fun G => s * refAdv3 P K dt u om G := by
  funext G
  unfold refAdv3
  rw [unitParams3_dx, unitParams3_gz, unitParams3_gy, unitParams3_gx]
  by_cases h : Dom3 P.gz P.gy P.gx G
  · rw [if_pos h, if_pos h]
    have e : -(l / v * dt / (l * P.dx)) = -(dt / P.dx) / v := by
      by_cases h0 : P.dx = 0
      · simp [h0]
      · field_simp
    rw [e, mul_add]
    congr 1
    exact hK _ s v _ _ hs hv (fun d => rfl) (fun j d => rfl)
  · rw [if_neg h, if_neg h]

theorem diff3_units (hK : SevenPoint K.diff) (hl : 0 < l) (hv : 0 < v) (s dt : ℝ) (om : C3 → ℝ) :
    refDiff3 (unitParams3 l v P) K (l / v * dt) (fun G => s * om G) = fun G => s * refDiff3 P K dt om G := by
  funext G
  unfold refDiff3
  rw [unitParams3_dx, unitParams3_gz, unitParams3_gy, unitParams3_gx]
  by_cases h : Dom3 P.gz P.gy P.gx G ∧ ¬ OnEdge3 P.gz P.gy P.gx G
  · rw [if_pos h, if_pos h]
    have e : (unitParams3 l v P).nu * (l / v * dt) / (l * P.dx) / (l * P.dx) = P.nu * dt / P.dx / P.dx := by
      unfold unitParams3
      by_cases h0 : P.dx = 0
      · simp [h0]
      · simp only; field_simp
    rw [e, hK, hK]
    ring
  · rw [if_neg h, if_neg h]

theorem greens3_units (hl : 0 < l) (dx : ℝ) (a b c : ℤ) : greens3 (l * dx) a b c = greens3 dx a b c / l := by
  unfold greens3
  split
  · rw [show 4 * Real.pi * (l * dx) = 4 * Real.pi * dx * l by ring, div_div]
  · have e : ((c : ℝ) * (l * dx)) ^ 2 + ((b : ℝ) * (l * dx)) ^ 2 + ((a : ℝ) * (l * dx)) ^ 2 = l ^ 2 * (((c : ℝ) * dx) ^ 2 + ((b : ℝ) * dx) ^ 2 + ((a : ℝ) * dx) ^ 2) := by ring
    rw [e, Real.sqrt_mul (by positivity), Real.sqrt_sq hl.le]
    simp only [div_eq_mul_inv, mul_inv]
    ring

theorem freeSolution3_units (hl : 0 < l) (dx s : ℝ) (gz gy gx : ℕ) (om : C3 → ℝ) (G : C3) :
    freeSolution3 gz gy gx (l * dx) (fun G => s * om G) G = s * l ^ 2 * freeSolution3 gz gy gx dx om G := by
  unfold freeSolution3
  simp only [greens3_units hl]
  rw [mul_sum]
  refine sum_congr rfl fun k _ => ?_
  rw [mul_sum]
  refine sum_congr rfl fun i _ => ?_
  rw [mul_sum]
  refine sum_congr rfl fun j _ => ?_
  field_simp

theorem vel3_units (hK : CentralCurl3 K.curl) (hl : 0 < l) (hdx : 0 < P.dx) (om : Fin 3 → C3 → ℝ) :
    refVel3 (unitParams3 l v P) K (fun j G => v / l * om j G) = fun j G => v * refVel3 P K om j G := by
  funext j G
  unfold refVel3
  rw [unitParams3_dx, unitParams3_gz, unitParams3_gy, unitParams3_gx]
  by_cases h : Dom3 P.gz P.gy P.gx G ∧ ¬ OnEdge3 P.gz P.gy P.gx G
  · rw [if_pos h, if_pos h]
    have e : ∀ j G, freeSolution3 P.gz P.gy P.gx (l * P.dx) (fun G => v / l * om j G) G = _ := fun j => freeSolution3_units hl P.dx (v / l) P.gz P.gy P.gx (om j)
    simp only [e]
    rw [hK, hK]
    unfold comp3
    fin_cases j
    · simp only [Fin.zero_eta, Matrix.cons_val]
      field_simp
    · simp only [Fin.mk_one, Matrix.cons_val]
      field_simp
    · simp only [Fin.reduceFinMk, Matrix.cons_val]
      field_simp
  · rw [if_neg h, if_neg h, mul_zero]

theorem upd3_units (hK : CentralCurl3 K.upd) (hl : 0 < l) (hv : 0 < v) (dt : ℝ) (Φ om : Fin 3 → C3 → ℝ) :
    refUpd3 (unitParams3 l v P) K (l / v * dt) (fun j G => v ^ 2 / l * Φ j G) (fun j G => v / l * om j G) = fun j G => v / l * refUpd3 P K dt Φ om j G := by
  funext j G
  unfold refUpd3
  rw [unitParams3_dx, unitParams3_gz, unitParams3_gy, unitParams3_gx]
  by_cases h : Dom3 P.gz P.gy P.gx G
  · rw [if_pos h, if_pos h, hK, hK, mul_add]
    congr 1
    have e : l / v * dt / (2 * (l * P.dx)) = dt / (2 * P.dx) / v := by
      by_cases h0 : P.dx = 0
      · simp [h0]
      · field_simp
    rw [e]
    unfold comp3
    fin_cases j
    · simp only [Fin.zero_eta, Matrix.cons_val]
      field_simp
    · simp only [Fin.mk_one, Matrix.cons_val]
      field_simp
    · simp only [Fin.reduceFinMk, Matrix.cons_val]
      field_simp
  · rw [if_neg h, if_neg h]

theorem pen3_units (gz gy gx w : ℕ) (s : ℝ) (F : C3 → ℝ) : serialPen3 false gz gy gx w (fun G => s * F G) = fun G => s * serialPen3 false gz gy gx w F G := by
  funext G
  unfold serialPen3
  simp only [pen1_units]

theorem lap3_units (gz gy gx bw : ℕ) (per : Bool) (a : Fin 3) (s : ℝ) (F : C3 → ℝ) :
    serialLap gz gy gx bw per a (fun G => s * F G) = fun G => s * serialLap gz gy gx bw per a F G := by
  funext G
  unfold serialLap
  split
  · rw [mul_zero]
  · ring

theorem lap3_iter_units (gz gy gx bw : ℕ) (per : Bool) (a : Fin 3) (s : ℝ) (p : ℕ) (F : C3 → ℝ) :
    (serialLap gz gy gx bw per a)^[p] (fun G => s * F G) = fun G => s * (serialLap gz gy gx bw per a)^[p] F G := by
  induction p generalizing F with
  | zero => rfl
  | succ p ih => rw [Function.iterate_succ_apply, lap3_units, ih]; rfl

theorem filter3_units (s : ℝ) (F : C3 → ℝ) : refFilter3 (unitParams3 l v P) (fun G => s * F G) = fun G => s * refFilter3 P F G := by
  have hm : ∀ p, serialMultiplicative P.gz P.gy P.gx 1 false p (fun G => s * F G) = fun G => s * serialMultiplicative P.gz P.gy P.gx 1 false p F G := by
    intro p
    have e : ∀ F : C3 → ℝ, (fun F => serialLap P.gz P.gy P.gx 1 false 2 (serialLap P.gz P.gy P.gx 1 false 1 (serialLap P.gz P.gy P.gx 1 false 0 F)))^[p] (fun G => s * F G) =
        fun G => s * (fun F => serialLap P.gz P.gy P.gx 1 false 2 (serialLap P.gz P.gy P.gx 1 false 1 (serialLap P.gz P.gy P.gx 1 false 0 F)))^[p] F G := by
      induction p with
      | zero => intro F; rfl
      | succ p ih => intro F; rw [Function.iterate_succ_apply, lap3_units, lap3_units, lap3_units, ih]; rfl
    funext G
    unfold serialMultiplicative
    rw [e]
    ring
  have hd : ∀ p a (F : C3 → ℝ), serialConvDir P.gz P.gy P.gx 1 false p a (fun G => s * F G) = fun G => s * serialConvDir P.gz P.gy P.gx 1 false p a F G := by
    intro p a F
    funext G
    unfold serialConvDir
    rw [lap3_iter_units]
    ring
  have hc : ∀ p, serialConvolution P.gz P.gy P.gx 1 false p (fun G => s * F G) = fun G => s * serialConvolution P.gz P.gy P.gx 1 false p F G := by
    intro p
    unfold serialConvolution
    rw [hd, hd, hd]
  unfold refFilter3
  rw [unitParams3_gz, unitParams3_gy, unitParams3_gx, show (unitParams3 l v P).flt = P.flt from rfl]
  cases P.flt with
  | none => rfl
  | some z =>
    obtain ⟨p, ty⟩ := z
    by_cases h : ty = "multiplicative"
    · simp only [if_pos h, hm]
    · simp only [if_neg h, hc]

theorem cross3_units (l v : ℝ) (u om : Fin 3 → C3 → ℝ) : crossF (fun j G => v * u j G) (fun j G => v / l * om j G) = fun j G => v ^ 2 / l * crossF u om j G := by
  funext j G
  unfold crossF
  fin_cases j
  · simp only [Fin.zero_eta, Matrix.cons_val]; ring
  · simp only [Fin.mk_one, Matrix.cons_val]; ring
  · simp only [Fin.reduceFinMk, Matrix.cons_val]; ring

theorem vort3_units (hK : Units3 K) (hl : 0 < l) (hv : 0 < v) (dt q : ℝ) (F : Fields3) :
    refVort3 (unitParams3 l v P) K (l / v * dt) (unitFields3 q (v / l) v F) = fun j G => v / l * refVort3 P K dt F j G := by
  funext j
  unfold refVort3
  have e1 : crossF (unitFields3 q (v / l) v F).u (unitFields3 q (v / l) v F).om = _ := cross3_units l v F.u F.om
  have e2 : refUpd3 (unitParams3 l v P) K (l / v * dt) (fun j G => v ^ 2 / l * crossF F.u F.om j G) (unitFields3 q (v / l) v F).om = _ := upd3_units (P := P) hK.upd hl hv dt (crossF F.u F.om) F.om
  rw [e1, e2, diff3_units hK.diff hl hv, filter3_units]
  exact pen3_units P.gz P.gy P.gx P.w (v / l) _

theorem ns3_units (hK : Units3 K) (hl : 0 < l) (hv : 0 < v) (hdx : 0 < P.dx) (dt : ℝ) (fs : Fin 3 → ℝ) (q : ℝ) (F : Fields3) :
    refNS3 (unitParams3 l v P) K (l / v * dt) (fun j => v * fs j) (unitFields3 q (v / l) v F) = unitFields3 q (v / l) v (refNS3 P K dt fs F) := by
  unfold refNS3
  rw [vort3_units hK hl hv, vel3_units hK.curl hl hdx]
  unfold unitFields3
  simp only [Fields3.mk.injEq, true_and]
  funext j G
  unfold refFree3
  by_cases hf : P.freeStream = true
  · rw [if_pos (show (unitParams3 l v P).freeStream = true from hf), if_pos hf, mul_add]
  · rw [if_neg (show ¬ (unitParams3 l v P).freeStream = true from hf), if_neg hf]

theorem forcing3_units (hK : Units3 K) (hl : 0 < l) (hv : 0 < v) (hdx : 0 < P.dx) (dt : ℝ) (fs : Fin 3 → ℝ) (Φ : Fin 3 → C3 → ℝ) (q : ℝ) (F : Fields3) :
    refForcing3 (unitParams3 l v P) K (l / v * dt) (fun j => v * fs j) (fun j G => v ^ 2 / l * Φ j G) (unitFields3 q (v / l) v F) = unitFields3 q (v / l) v (refForcing3 P K dt fs Φ F) := by
  unfold refForcing3
  rw [← ns3_units hK hl hv hdx]
  congr 1
  have e := upd3_units (P := P) hK.upd hl hv dt Φ F.om
  unfold unitFields3
  simp only
  rw [e]

theorem passive3_units (hK : Units3 K) (hl : 0 < l) (hv : 0 < v) {s : ℝ} (hs : 0 < s) (dt : ℝ) (u : Fin 3 → C3 → ℝ) (f : C3 → ℝ) :
    refDiff3 (unitParams3 l v P) K (l / v * dt) (refAdv3 (unitParams3 l v P) K (l / v * dt) (fun j G => v * u j G) (fun G => s * f G)) = fun G => s * refDiff3 P K dt (refAdv3 P K dt u f) G := by
  rw [adv3_units hK.adv hl hv hs, diff3_units hK.diff hl hv]

theorem step3_units (hK : Units3 K) (hl : 0 < l) (hv : 0 < v) (hdx : 0 < P.dx) {q s : ℝ} (hq : 0 < q) (hs : 0 < s) (ft : String)
    (hft : ft = "navier_stokes" ∨ ft = "navier_stokes_with_forcing" → s = v / l) (dt : ℝ) (fs : Fin 3 → ℝ) (Φ : Fin 3 → C3 → ℝ) (F : Fields3) :
    refStep3 ft (unitParams3 l v P) K (l / v * dt) (fun j => v * fs j) (fun j G => v ^ 2 / l * Φ j G) (unitFields3 q s v F) = unitFields3 q s v (refStep3 ft P K dt fs Φ F) := by
  unfold refStep3
  by_cases h1 : ft = "navier_stokes"
  · rw [if_pos h1, if_pos h1, hft (Or.inl h1)]
    exact ns3_units hK hl hv hdx dt fs q F
  · rw [if_neg h1, if_neg h1]
    by_cases h2 : ft = "navier_stokes_with_forcing"
    · rw [if_pos h2, if_pos h2, hft (Or.inr h2)]
      exact forcing3_units hK hl hv hdx dt fs Φ q F
    · rw [if_neg h2, if_neg h2]
      by_cases h3 : ft = "passive_vector"
      · rw [if_pos h3, if_pos h3]
        unfold refVector3 unitFields3
        simp only [Fields3.mk.injEq, true_and, and_true]
        funext j
        exact passive3_units hK hl hv hs dt F.u (F.om j)
      · rw [if_neg h3, if_neg h3]
        unfold refScalar3 unitFields3
        simp only [Fields3.mk.injEq, and_true]
        exact passive3_units hK hl hv hq dt F.u F.sc

theorem run3_units (hK : Units3 K) (hl : 0 < l) (hv : 0 < v) (hdx : 0 < P.dx) {q s : ℝ} (hq : 0 < q) (hs : 0 < s) (ft : String)
    (hft : ft = "navier_stokes" ∨ ft = "navier_stokes_with_forcing" → s = v / l)
    (cfl tol : ℝ) (ys : List StepSpec3) (hr : ∀ y ∈ ys, GivenRule y.rule) (F : Fields3) (t : ℝ) :
    refRun3 ft (unitParams3 l v P) K cfl tol (ys.map (unitStep3 l v)) (unitFields3 q s v F, l / v * t) =
      (unitFields3 q s v (refRun3 ft P K cfl tol ys (F, t)).1, l / v * (refRun3 ft P K cfl tol ys (F, t)).2) := by
  induction ys generalizing F t with
  | nil => rfl
  | cons y ys ih =>
    simp only [List.map_cons, refRun3]
    have hr1 : GivenRule y.rule := hr y (by simp)
    have e1 : refDt3 (unitParams3 l v P) cfl tol (unitFields3 q s v F) (unitStep3 l v y).rule = l / v * refDt3 P cfl tol F y.rule := by
      obtain ⟨rule, fs, Φ⟩ := y
      cases rule with
      | fixed dt => rfl
      | stable pre => exact hr1.elim
    rw [e1]
    have e2 : refStep3 ft (unitParams3 l v P) K (l / v * refDt3 P cfl tol F y.rule) (unitStep3 l v y).fs (unitStep3 l v y).Φ (unitFields3 q s v F) = _ :=
      step3_units hK hl hv hdx hq hs ft hft (refDt3 P cfl tol F y.rule) y.fs y.Φ F
    rw [e2, ← mul_add]
    exact ih (fun y' hy' => hr y' (by simp [hy'])) _ _

end Steps

/-! ## Bodies -/

section Bodies
variable {B : Type} [DecidableEq B]

/-- A body: node spacing, grid shift and coupling coefficients. -/
noncomputable def unitBody3 (l v : ℝ) (a : Ib3) : Ib3 := { a with stiff := v ^ 2 / l * a.stiff, damp := v * a.damp, lagDx := l * a.lagDx, shift := a.shift.map (l * ·) }

/-- A driver that works in its own units: it converts what it hands to the simulator and what it gets back. It prints in its own units. -/
noncomputable def unitProg3 (l v : ℝ) : Prog3 B → Prog3 B
  | .stop => .stop
  | .interact b X U k => .interact b (fun j i => l * X j i) (fun j i => v * U j i) (unitProg3 l v k)
  | .forces b X U k => .forces b (fun j i => l * X j i) (fun j i => v * U j i) fun f => unitProg3 l v (k fun j i => f j i / (v ^ 2 * l ^ 2))
  | .advance b dt k => .advance b (l / v * dt) (unitProg3 l v k)
  | .flow dt fs k => .flow (l / v * dt) (fun j => v * fs j) (unitProg3 l v k)
  | .stableDt pre k => .stableDt pre fun dt => unitProg3 l v (k (dt / (l / v)))
  | .deviation b k => .deviation b fun e => unitProg3 l v (k (e / l))
  | .maxVort k => .maxVort fun x => unitProg3 l v (k (x / (v / l)))
  | .divNorm k => .divNorm fun x => unitProg3 l v (k (x / (v / l / l * l ^ (1.5 : ℝ))))
  | .ghost k => .ghost (unitProg3 l v k)
  | .out x k => .out x (unitProg3 l v k)

/-- The record of the nodes in the new units: displacements, velocities, time, forces. -/
noncomputable def unitHist3 (l v : ℝ) (h : NodeHist ℝ) : NodeHist ℝ := { P := fun k i => l * h.P k i, V := fun k i => v * h.V k i, t := l / v * h.t, F := fun k i => v ^ 2 * l ^ 2 * h.F k i }

/-- The whole state in the new units. -/
noncomputable def unitRef3 (l v : ℝ) (r : RefC3 B) : RefC3 B :=
  { F := unitFields3 1 (v / l) v r.F, Φ := fun j G => v ^ 2 / l * r.Φ j G, time := l / v * r.time, hist := fun b => unitHist3 l v (r.hist b),
    lastX := fun b k i => l * r.lastX b k i, log := r.log, fresh := r.fresh }

variable {l v : ℝ}

theorem sh3_units (l v dx : ℝ) (a : Ib3) : (unitBody3 l v a).sh (l * dx) = l * a.sh dx := by
  unfold Ib3.sh unitBody3
  cases a.shift with
  | none => simp only [Option.map_none, Option.getD_none]; ring
  | some x => simp only [Option.map_some, Option.getD_some]

theorem window3_units (hl : 0 < l) (dx sh : ℝ) (w : ℕ) (x y z : ℝ) : window3 (l * dx) (l * sh) w (l * x, l * y, l * z) = window3 dx sh w (x, y, z) := by
  unfold window3 winCells
  simp only [cellOf_units hl]

theorem weight3_units (hl : 0 < l) {dx : ℝ} (hdx : 0 < dx) (sh x y z : ℝ) (G : C3) :
    cellWeight3 (l * dx) (l * sh) (cosW3 (l * dx)) (l * x, l * y, l * z) G = cellWeight3 dx sh (cosW3 dx) (x, y, z) G / l ^ 3 := by
  unfold cellWeight3 cosW3
  simp only
  have e : ∀ w a : ℝ, (w * (l * dx) + l * sh - l * a) / (l * dx) = (w * dx + sh - a) / dx := by
    intro w a
    rw [show w * (l * dx) + l * sh - l * a = l * (w * dx + sh - a) by ring, mul_div_mul_left _ _ hl.ne']
  rw [e, e, e]
  field_simp

theorem interp3_units (hl : 0 < l) {dx : ℝ} (hdx : 0 < dx) (v sh : ℝ) (w : ℕ) (F : C3 → ℝ) (x y z : ℝ) :
    interp3 (l * dx) (l * sh) w (cosW3 (l * dx)) (fun G => v * F G) (l * x, l * y, l * z) = v * interp3 dx sh w (cosW3 dx) F (x, y, z) := by
  unfold interp3
  rw [window3_units hl, mul_sum]
  refine sum_congr rfl fun G _ => ?_
  rw [weight3_units hl hdx]
  field_simp

theorem share3_units (hl : 0 < l) {dx : ℝ} (hdx : 0 < dx) (v sh : ℝ) (w : ℕ) (G : C3) (x y z f : ℝ) :
    share3n (l * dx) (l * sh) w (cosW3 (l * dx)) G ((l * x, l * y, l * z), v ^ 2 * l ^ 2 * f) = v ^ 2 / l * share3n dx sh w (cosW3 dx) G ((x, y, z), f) := by
  unfold share3n
  simp only [window3_units hl]
  split
  · rw [weight3_units hl hdx]
    field_simp
  · simp

theorem mismatch3_units (hl : 0 < l) {dx : ℝ} (hdx : 0 < dx) (v : ℝ) (a : Ib3) (u : Fin 3 → C3 → ℝ) (X U : LagField ℝ) :
    mismatch3 (l * dx) (unitBody3 l v a) (fun j G => v * u j G) (fun k i => l * X k i) (fun k i => v * U k i) = fun k i => v * mismatch3 dx a u X U k i := by
  funext k i
  unfold mismatch3
  rw [sh3_units, interp3_units hl hdx]
  ring

theorem lag3_units (hl : 0 < l) {dx : ℝ} (hdx : 0 < dx) (v : ℝ) (a : Ib3) (u : Fin 3 → C3 → ℝ) (X U : LagField ℝ) (h : NodeHist ℝ) :
    refLag3 (l * dx) (unitBody3 l v a) (fun j G => v * u j G) (fun k i => l * X k i) (fun k i => v * U k i) (unitHist3 l v h) = unitHist3 l v (refLag3 dx a u X U h) := by
  unfold refLag3
  rw [mismatch3_units hl hdx]
  unfold unitHist3 unitBody3
  simp only [NodeHist.mk.injEq, true_and, and_true]
  funext k i
  field_simp

theorem spread3_units (hl : 0 < l) {dx : ℝ} (hdx : 0 < dx) (v : ℝ) (a : Ib3) (X f : LagField ℝ) (Φ : Fin 3 → C3 → ℝ) :
    refSpread3 (l * dx) (unitBody3 l v a) (fun k i => l * X k i) (fun k i => v ^ 2 * l ^ 2 * f k i) (fun j G => v ^ 2 / l * Φ j G) = fun j G => v ^ 2 / l * refSpread3 dx a X f Φ j G := by
  funext j G
  unfold refSpread3
  rw [sh3_units]
  simp only [share3_units hl hdx]
  have e : ((List.range (unitBody3 l v a).N).map fun i => v ^ 2 / l * share3n dx (a.sh dx) 2 (cosW3 dx) G ((X 0 i, X 1 i, X 2 i), f j.1 i)).sum =
      v ^ 2 / l * ((List.range a.N).map fun i => share3n dx (a.sh dx) 2 (cosW3 dx) G ((X 0 i, X 1 i, X 2 i), f j.1 i)).sum := by
    rw [← List.sum_map_mul_left]
    rfl
  rw [e, mul_add]
  congr 1
  by_cases hr : a.reset = true
  · rw [if_pos (show (unitBody3 l v a).reset = true from hr), if_pos hr, mul_zero]
  · rw [if_neg (show ¬ (unitBody3 l v a).reset = true from hr), if_neg hr]

theorem update3_units (l v : ℝ) (h : B → NodeHist ℝ) (b : B) (x : NodeHist ℝ) :
    Function.update (fun b => unitHist3 l v (h b)) b (unitHist3 l v x) = fun b' => unitHist3 l v (Function.update h b x b') := by
  funext b'
  by_cases e : b' = b
  · subst e; simp only [Function.update_self]
  · simp only [Function.update_of_ne e]

theorem updateX3_units (l : ℝ) (h : B → LagField ℝ) (b : B) (x : LagField ℝ) :
    Function.update (fun b k i => l * h b k i) b (fun k i => l * x k i) = fun b' k i => l * Function.update h b x b' k i := by
  funext b'
  by_cases e : b' = b
  · subst e; simp only [Function.update_self]
  · simp only [Function.update_of_ne e]

theorem forces3_units (hl : 0 < l) {dx : ℝ} (hdx : 0 < dx) (v : ℝ) (a : Ib3) (b : B) (X U : LagField ℝ) (r : RefC3 B) :
    refForces3 (l * dx) (unitBody3 l v a) b (fun k i => l * X k i) (fun k i => v * U k i) (unitRef3 l v r) = unitRef3 l v (refForces3 dx a b X U r) := by
  unfold refForces3
  have e : refLag3 (l * dx) (unitBody3 l v a) (unitRef3 l v r).F.u (fun k i => l * X k i) (fun k i => v * U k i) ((unitRef3 l v r).hist b) = _ := lag3_units hl hdx v a r.F.u X U (r.hist b)
  rw [e]
  unfold unitRef3
  simp only [update3_units, updateX3_units]
  rfl

theorem full3_units (hl : 0 < l) {dx : ℝ} (hdx : 0 < dx) (v : ℝ) (a : Ib3) (b : B) (X U : LagField ℝ) (r : RefC3 B) :
    refFull3 (l * dx) (unitBody3 l v a) b (fun k i => l * X k i) (fun k i => v * U k i) (unitRef3 l v r) = unitRef3 l v (refFull3 dx a b X U r) := by
  unfold refFull3
  rw [forces3_units hl hdx]
  have e : refLag3 (l * dx) (unitBody3 l v a) (unitRef3 l v r).F.u (fun k i => l * X k i) (fun k i => v * U k i) ((unitRef3 l v r).hist b) = _ := lag3_units hl hdx v a r.F.u X U (r.hist b)
  rw [e]
  have e2 : refSpread3 (l * dx) (unitBody3 l v a) (fun k i => l * X k i) (unitHist3 l v (refLag3 dx a r.F.u X U (r.hist b))).F (unitRef3 l v r).Φ = _ :=
    spread3_units hl hdx v a X (refLag3 dx a r.F.u X U (r.hist b)).F r.Φ
  rw [e2]
  rfl

theorem forceField3_units (hl : 0 < l) (hv : 0 < v) (N : ℕ) (h : NodeHist ℝ) : (fun k i => refForceField3 N (unitHist3 l v h) k i / (v ^ 2 * l ^ 2)) = refForceField3 N h := by
  funext k i
  unfold refForceField3 unitHist3
  simp only
  split
  · field_simp
  · simp

theorem deviation3_units (hl : 0 < l) (v : ℝ) (d N : ℕ) (h : NodeHist ℝ) : refDeviation d N (unitHist3 l v h) = l * refDeviation d N h := by
  unfold refDeviation unitHist3
  simp only [mul_pow]
  simp only [List.sum_map_mul_left, mul_div_assoc]
  rw [Real.sqrt_mul (by positivity), Real.sqrt_sq hl.le]

open Pointwise in
theorem sSup3_units {s : ℝ} (hs : 0 < s) (p : C3 → Prop) (om : Fin 3 → C3 → ℝ) : sSup {x | ∃ j G, p G ∧ x = s * om j G} = s * sSup {x | ∃ j G, p G ∧ x = om j G} := by
  rw [← smul_eq_mul, ← Real.sSup_smul_of_nonneg hs.le]
  congr 1
  ext x
  rw [Set.mem_smul_set]
  constructor
  · rintro ⟨j, G, h, rfl⟩
    exact ⟨_, ⟨j, G, h, rfl⟩, rfl⟩
  · rintro ⟨_, ⟨j, G, h, rfl⟩, rfl⟩
    exact ⟨j, G, h, rfl⟩

/-- a body's advance -/
theorem advance3_units (hl : 0 < l) (hv : 0 < v) (dt : ℝ) (b : B) (r : RefC3 B) :
    ({ unitRef3 l v r with
      hist := Function.update (unitRef3 l v r).hist b { (unitRef3 l v r).hist b with P := fun k i => ((unitRef3 l v r).hist b).P k i + l / v * dt * ((unitRef3 l v r).hist b).V k i, t := ((unitRef3 l v r).hist b).t + l / v * dt } } : RefC3 B) =
    unitRef3 l v { r with
      hist := Function.update r.hist b { r.hist b with P := fun k i => (r.hist b).P k i + dt * (r.hist b).V k i, t := (r.hist b).t + dt } } := by
  unfold unitRef3
  simp only [RefC3.mk.injEq, true_and, and_true]
  rw [← update3_units]
  congr 1
  unfold unitHist3
  simp only [NodeHist.mk.injEq, true_and]
  refine ⟨?_, by ring⟩
  funext k i
  field_simp

variable {K : Kern3} {P : Params3}

theorem div3_units (hK : CentralDivKern3 K.div) (hl : 0 < l) (hv : 0 < v) (hdx : 0 < P.dx) (om : Fin 3 → C3 → ℝ) :
    refDiv3 (unitParams3 l v P) K (fun j G => v / l * om j G) = v / l / l * l ^ (1.5 : ℝ) * refDiv3 P K om := by
  have hs : 0 < v / l / l := div_pos (div_pos hv hl) hl
  have e : ∀ G, serialZero3 P.gz P.gy P.gx false 0 (K.div (1 / (l * P.dx))) (fun j G => v / l * om j G) G = v / l / l * serialZero3 P.gz P.gy P.gx false 0 (K.div (1 / P.dx)) om G := by
    intro G
    unfold serialZero3
    split
    · rw [mul_zero]
    · unfold serialAt3
      rw [hK, hK]
      field_simp
  unfold refDiv3
  rw [unitParams3_dx, unitParams3_gz, unitParams3_gy, unitParams3_gx]
  have e2 : ∑ G ∈ cells3 P.gz P.gy P.gx, serialZero3 P.gz P.gy P.gx false 0 (K.div (1 / (l * P.dx))) (fun j G => v / l * om j G) G ^ 2 =
      (v / l / l) ^ 2 * ∑ G ∈ cells3 P.gz P.gy P.gx, serialZero3 P.gz P.gy P.gx false 0 (K.div (1 / P.dx)) om G ^ 2 := by
    rw [mul_sum]
    refine sum_congr rfl fun G _ => ?_
    rw [e, mul_pow]
  rw [e2, Real.sqrt_mul (by positivity), Real.sqrt_sq hs.le, Real.mul_rpow hl.le hdx.le]
  ring

theorem inside3_units (hl : 0 < l) (v : ℝ) (gz gy gx k : ℕ) (dx : ℝ) (a : Ib3) (X : LagField ℝ) :
    Inside3 gz gy gx k (l * dx) (unitBody3 l v a) (fun k i => l * X k i) ↔ Inside3 gz gy gx k dx a X := by
  unfold Inside3
  simp only [sh3_units, window3_units hl]
  rfl

theorem subblock3_units (hl : 0 < l) (T : Cart3) (dx sh x y z : ℝ) : subblock3 T (l * dx) (l * sh) (l * x, l * y, l * z) = subblock3 T dx sh (x, y, z) := by
  unfold subblock3
  simp only
  have e : ∀ (n : ℝ) (a : ℝ), (l * a - l * sh) / (l * dx * n) = (a - sh) / (dx * n) := by
    intro n a
    rw [← mul_sub, mul_assoc, mul_div_mul_left _ _ hl.ne']
  simp only [e]

theorem mapping3_units (hl : 0 < l) (v : ℝ) (T : Cart3) (dx : ℝ) (a : Ib3) (X : LagField ℝ) : (unitBody3 l v a).mapping T (l * dx) (fun k i => l * X k i) = a.mapping T dx X := by
  unfold Ib3.mapping rankAddress3
  rw [sh3_units]
  have e : (points3 (unitBody3 l v a).N fun k i => l * X k i).map (subblock3 T (l * dx) (l * a.sh dx)) = (points3 a.N X).map (subblock3 T dx (a.sh dx)) := by
    unfold points3
    rw [List.map_map, List.map_map]
    refine List.map_congr_left fun i _ => ?_
    exact subblock3_units hl T dx (a.sh dx) (X 0 i) (X 1 i) (X 2 i)
  simp only [e]

theorem noticed3_units (hl : 0 < l) (v : ℝ) (T : Cart3) (dx : ℝ) (a : Ib3) (X Y : LagField ℝ) :
    Noticed3 T (l * dx) (unitBody3 l v a) (fun k i => l * X k i) (fun k i => l * Y k i) ↔ Noticed3 T dx a X Y := by
  unfold Noticed3
  simp only [mapping3_units hl]

/-- The run in the new units is the run in the old units, converted; bodies stay inside, and remappings are noticed, in both or in neither. -/
theorem cRef3_units (hK : Units3 K) (hl : 0 < l) (hv : 0 < v) (hdx : 0 < P.dx) (cfl tol : ℝ) (A : B → Ib3) (T : Cart3) (p : Prog3 B) (hg : Given3 p) (r : RefC3 B) :
    cRef3 (unitParams3 l v P) K cfl tol (fun b => unitBody3 l v (A b)) (unitProg3 l v p) (unitRef3 l v r) = unitRef3 l v (cRef3 P K cfl tol A p r) ∧
    (Proper3 (unitParams3 l v P) K cfl tol (fun b => unitBody3 l v (A b)) (unitProg3 l v p) (unitRef3 l v r) ↔ Proper3 P K cfl tol A p r) ∧
    (Tracked3 T (unitParams3 l v P) K cfl tol (fun b => unitBody3 l v (A b)) (unitProg3 l v p) (unitRef3 l v r) ↔ Tracked3 T P K cfl tol A p r) := by
  have edx := unitParams3_dx l v P
  induction p generalizing r with
  | stop => exact ⟨rfl, Iff.rfl, Iff.rfl⟩
  | interact b X U k ih =>
    have e := full3_units hl hdx v (A b) b X U r
    obtain ⟨i1, i2, i3⟩ := ih hg (refFull3 P.dx (A b) b X U r)
    simp only [unitProg3, cRef3, Proper3, Tracked3, edx, e]
    exact ⟨i1, and_congr (inside3_units hl v P.gz P.gy P.gx 1 P.dx (A b) X) (and_congr Iff.rfl i2), and_congr (noticed3_units hl v T P.dx (A b) (r.lastX b) X) i3⟩
  | forces b X U k ih =>
    have e := forces3_units hl hdx v (A b) b X U r
    have e2 : refLag3 (l * P.dx) (unitBody3 l v (A b)) (unitRef3 l v r).F.u (fun k i => l * X k i) (fun k i => v * U k i) ((unitRef3 l v r).hist b) = _ := lag3_units hl hdx v (A b) r.F.u X U (r.hist b)
    have e3 := forceField3_units hl hv (A b).N (refLag3 P.dx (A b) r.F.u X U (r.hist b))
    have e4 : (unitBody3 l v (A b)).N = (A b).N := rfl
    obtain ⟨i1, i2, i3⟩ := ih (refForceField3 (A b).N (refLag3 P.dx (A b) r.F.u X U (r.hist b))) (hg _) (refForces3 P.dx (A b) b X U r)
    simp only [unitProg3, cRef3, Proper3, Tracked3, edx, e, e2, e3, e4]
    exact ⟨i1, and_congr (inside3_units hl v P.gz P.gy P.gx 0 P.dx (A b) X) (and_congr Iff.rfl i2), and_congr (noticed3_units hl v T P.dx (A b) (r.lastX b) X) i3⟩
  | advance b dt k ih =>
    have q := ih hg { r with hist := Function.update r.hist b { r.hist b with P := fun k i => (r.hist b).P k i + dt * (r.hist b).V k i, t := (r.hist b).t + dt } }
    rw [← advance3_units hl hv] at q
    exact q
  | flow dt fs k ih =>
    have q := ih hg { r with F := refForcing3 P K dt fs r.Φ r.F, Φ := fun _ _ => 0, time := r.time + dt, fresh := false }
    have e : unitRef3 l v { r with F := refForcing3 P K dt fs r.Φ r.F, Φ := fun _ _ => 0, time := r.time + dt, fresh := false } =
        { unitRef3 l v r with F := refForcing3 (unitParams3 l v P) K (l / v * dt) (fun j => v * fs j) (unitRef3 l v r).Φ (unitRef3 l v r).F, Φ := fun _ _ => 0, time := (unitRef3 l v r).time + l / v * dt, fresh := false } := by
      have e1 : refForcing3 (unitParams3 l v P) K (l / v * dt) (fun j => v * fs j) (unitRef3 l v r).Φ (unitRef3 l v r).F = _ := forcing3_units hK hl hv hdx dt fs r.Φ 1 r.F
      rw [e1]
      unfold unitRef3
      simp only [mul_zero, mul_add]
    rw [e] at q
    exact q
  | stableDt pre k ih => exact hg.elim
  | deviation b k ih =>
    have e : refDeviation 3 (unitBody3 l v (A b)).N ((unitRef3 l v r).hist b) / l = refDeviation 3 (A b).N (r.hist b) := by
      have q : refDeviation 3 (unitBody3 l v (A b)).N ((unitRef3 l v r).hist b) = _ := deviation3_units hl v 3 (A b).N (r.hist b)
      rw [q]
      field_simp
    have q := ih (refDeviation 3 (A b).N (r.hist b)) (hg _) r
    simp only [unitProg3, cRef3, Proper3, Tracked3]
    rw [e]
    exact q
  | maxVort k ih =>
    have hs : 0 < v / l := div_pos hv hl
    have e : sSup {x | ∃ j G, Dom3 (unitParams3 l v P).gz (unitParams3 l v P).gy (unitParams3 l v P).gx G ∧ x = (unitRef3 l v r).F.om j G} / (v / l) = sSup {x | ∃ j G, Dom3 P.gz P.gy P.gx G ∧ x = r.F.om j G} := by
      have q : sSup {x | ∃ j G, Dom3 (unitParams3 l v P).gz (unitParams3 l v P).gy (unitParams3 l v P).gx G ∧ x = (unitRef3 l v r).F.om j G} = _ := sSup3_units hs (Dom3 P.gz P.gy P.gx) r.F.om
      rw [q, mul_div_cancel_left₀ _ hs.ne']
    have q := ih (sSup {x | ∃ j G, Dom3 P.gz P.gy P.gx G ∧ x = r.F.om j G}) (hg _) r
    simp only [unitProg3, cRef3, Proper3, Tracked3]
    rw [e]
    exact q
  | divNorm k ih =>
    have e : refDiv3 (unitParams3 l v P) K (unitRef3 l v r).F.om / (v / l / l * l ^ (1.5 : ℝ)) = refDiv3 P K r.F.om := by
      have q : refDiv3 (unitParams3 l v P) K (unitRef3 l v r).F.om = _ := div3_units hK.div hl hv hdx r.F.om
      have hp : 0 < v / l / l * l ^ (1.5 : ℝ) := mul_pos (div_pos (div_pos hv hl) hl) (Real.rpow_pos_of_pos hl _)
      rw [q, mul_div_cancel_left₀ _ hp.ne']
    have q := ih (refDiv3 P K r.F.om) (hg _) r
    simp only [unitProg3, cRef3, Proper3, Tracked3]
    rw [e]
    exact q
  | ghost k ih => exact ih hg { r with fresh := true }
  | out x k ih => exact ih hg { r with log := r.log ++ [x] }

end Bodies

/-! ## On the ranks -/

section Ranks
variable {T T' : Cart3} [NeZero T.gz] [NeZero T.gy] [NeZero T.gx] [NeZero T'.gz] [NeZero T'.gy] [NeZero T'.gx]

theorem fieldsFrom3_units {l v q s : ℝ} {sc sc' : ℝ → ℝ → ℝ → ℝ} {om om' u u' : Fin 3 → ℝ → ℝ → ℝ → ℝ} (hsc : ∀ x y z, sc' (l * x) (l * y) (l * z) = q * sc x y z)
    (hom : ∀ j x y z, om' j (l * x) (l * y) (l * z) = s * om j x y z) (hu : ∀ j x y z, u' j (l * x) (l * y) (l * z) = v * u j x y z) (dx : ℝ) :
    fieldsFrom3 (l * dx) sc' om' u' = unitFields3 q s v (fieldsFrom3 dx sc om u) := by
  unfold fieldsFrom3 unitFields3 atCentre3
  simp only [Fields3.mk.injEq]
  refine ⟨?_, ?_, ?_⟩
  · funext G
    rw [← hsc]
    congr 1 <;> ring
  · funext j G
    rw [← hom]
    congr 1 <;> ring
  · funext j G
    rw [← hu]
    congr 1 <;> ring

/-- C115: two simulations on the same number of cells, on whatever decompositions; in the second all lengths are `l` times, all velocities `v` times and hence all times `l / v` times those of the first: width of the
domain, viscosity, given time steps, free stream, forcing and initial fields (a passive scalar is `q` times, a passive vector `s` times as large; `s = v / l` if it is the vorticity). Then the second run ends like the
first, after `l / v` times the time, and in every cell of the grid its fields are those of the first times `q`, `s` and `v`. -/
theorem sim3_units {a a' : SimArgs3} (hsame : a' = { a with pz := a'.pz, py := a'.py, px := a'.px, g := a'.g }) (h : Fit3 a T) (h' : Fit3 a' T') {xr : ℝ} (hxr : 0 < xr) {nu : ℝ} (hnu : 0 ≤ nu) {cfl : ℝ} (hcfl : 0 ≤ cfl)
    {tol : ℝ} (htol : 0 < tol) {K : Kern3} (hK : K.Local) (hU : Units3 K) {l v q s : ℝ} (hl : 0 < l) (hv : 0 < v) (hq : 0 < q) (hs : 0 < s)
    (hns : a.flowType = "navier_stokes" ∨ a.flowType = "navier_stokes_with_forcing" → s = v / l)
    (time : ℝ) (dbl0 dbl0' : World C3 C3 ℝ) (conv0 : Dbl3 T → ℂ) (conv0' : Dbl3 T' → ℂ) {sc sc' : ℝ → ℝ → ℝ → ℝ} {om om' u u' : Fin 3 → ℝ → ℝ → ℝ → ℝ}
    (hsc : ∀ x y z, sc' (l * x) (l * y) (l * z) = q * sc x y z)
    (hom : ∀ j x y z, om' j (l * x) (l * y) (l * z) = s * om j x y z) (hu : ∀ j x y z, u' j (l * x) (l * y) (l * z) = v * u j x y z)
    {xs xs' : List StepIn3} {ys : List StepSpec3} (hxy : List.Forall₂ (Means3 a.gz a.gy a.gx T (simCfg3 a xr nu cfl)) xs ys)
    (hxy' : List.Forall₂ (Means3 a'.gz a'.gy a'.gx T' (simCfg3 a' (l * xr) (l * v * nu) cfl)) xs' (ys.map (unitStep3 l v))) (hr : ∀ y ∈ ys, GivenRule y.rule) :
    let out := simLoop3 (simCfg3 a xr nu cfl) K tol xs (initFrom3 T a.g xr time dbl0 conv0 sc om u)
    let out' := simLoop3 (simCfg3 a' (l * xr) (l * v * nu) cfl) K tol xs' (initFrom3 T' a'.g (l * xr) (l / v * time) dbl0' conv0' sc' om' u')
    out.2 = none ∧ out'.2 = none ∧ out'.1.time = l / v * out.1.time ∧
    ∀ c p c' p', Valid3 T c → Inner3 T a.g p → Valid3 T' c' → Inner3 T' a'.g p' → globalIx3 T' a'.g c' p' = globalIx3 T a.g c p →
      out'.1.sc c' p' = q * out.1.sc c p ∧ ∀ j, out'.1.om j c' p' = s * out.1.om j c p ∧ out'.1.vel j c' p' = v * out.1.vel j c p := by
  have hK0 : ∀ r, K.upd r (fun _ _ => 0) = 0 := fun r => by rw [hU.upd]; simp
  obtain ⟨e1, e2, e3⟩ := sim3_run h hxr hnu hcfl htol hK hK0 time dbl0 conv0 sc om u hxy
  obtain ⟨f1, f2, f3⟩ := sim3_run h' (mul_pos hl hxr) (mul_nonneg (mul_nonneg hl.le hv.le) hnu) hcfl htol hK hK0 (l / v * time) dbl0' conv0' sc' om' u' hxy'
  have hgx : a'.gx = a.gx := by rw [hsame]
  have hft : a'.flowType = a.flowType := by rw [hsame]
  have hP : (⟨a'.gz, a'.gy, a'.gx, l * xr, l * v * nu, widthOf a'.width, a'.freeStream, filterNums (filterInUse a')⟩ : Params3) =
      unitParams3 l v ⟨a.gz, a.gy, a.gx, xr, nu, widthOf a.width, a.freeStream, filterNums (filterInUse a)⟩ := by rw [hsame]; rfl
  have hdx : 0 < (⟨a.gz, a.gy, a.gx, xr, nu, widthOf a.width, a.freeStream, filterNums (filterInUse a)⟩ : Params3).dx := by
    obtain ⟨hT, -⟩ := simCheck3_cart h.built
    obtain ⟨-, -, g2, -⟩ := construct3_ok hT
    have : 0 < a.gx := by rw [← g2]; exact Nat.pos_of_ne_zero (NeZero.ne _)
    exact div_pos hxr (by exact_mod_cast this)
  have hF : fieldsFrom3 (l * xr / a'.gx) sc' om' u' = unitFields3 q s v (fieldsFrom3 (xr / a.gx) sc om u) := by
    rw [hgx, mul_div_assoc]
    exact fieldsFrom3_units hsc hom hu _
  rw [hP, hF, hft, run3_units hU hl hv hdx hq hs a.flowType hns cfl tol ys hr] at f2 f3
  intro out out'
  refine ⟨e1, f1, ?_, ?_⟩
  · rw [show out'.1.time = _ from f2, show out.1.time = _ from e2]
  · intro c p c' p' hc hp hc' hp' hG
    obtain ⟨x1, x2⟩ := e3 c p hc hp
    obtain ⟨y1, y2⟩ := f3 c' p' hc' hp'
    rw [hG] at y1 y2
    refine ⟨?_, fun j => ⟨?_, ?_⟩⟩
    · rw [show out'.1.sc c' p' = _ from y1, show out.1.sc c p = _ from x1]; rfl
    · rw [show out'.1.om j c' p' = _ from (y2 j).1, show out.1.om j c p = _ from (x2 j).1]; rfl
    · rw [show out'.1.vel j c' p' = _ from (y2 j).2, show out.1.vel j c p = _ from (x2 j).2]; rfl

variable {B : Type} [DecidableEq B]

/-- C115: the same with immersed bodies, under any driver that gives its time steps: the second driver is the first one, working in its own units and converting what it hands over and gets back (`unitProg3`); the
nodes, their spacing and the coupling coefficients are converted as well (`unitBody3`: stiffness times `v ^ 2 / l`, damping times `v`). The two runs print the same; fields, forcing, times and the forces on all nodes of
all bodies of the second are those of the first in the new units. -/
theorem coupled3_units {a a' : SimArgs3} (hsame : a' = { a with pz := a'.pz, py := a'.py, px := a'.px, g := a'.g }) {xr : ℝ} (hxr : 0 < xr) {nu cfl : ℝ} (hnu : 0 ≤ nu) (hcfl : 0 ≤ cfl) {tol : ℝ} (htol : 0 < tol)
    {K : Kern3} (hK : K.Local) (hU : Units3 K) {l v : ℝ} (hl : 0 < l) (hv : 0 < v)
    {A A' : B → Ib3} (hA : ∀ b, A' b = { unitBody3 l v (A b) with m := (A' b).m, ord := (A' b).ord, junk := (A' b).junk })
    {X0 : B → LagField ℝ} {t0 : B → ℝ} {time : ℝ} {sc sc' : ℝ → ℝ → ℝ → ℝ} {om om' u u' : Fin 3 → ℝ → ℝ → ℝ → ℝ}
    (hsc : ∀ x y z, sc' (l * x) (l * y) (l * z) = sc x y z)
    (hom : ∀ j x y z, om' j (l * x) (l * y) (l * z) = v / l * om j x y z) (hu : ∀ j x y z, u' j (l * x) (l * y) (l * z) = v * u j x y z)
    {S : CSt3 T B} (h : Setup3 a xr A X0 t0 time sc om u S)
    {S' : CSt3 T' B} (h' : Setup3 a' (l * xr) A' (fun b k i => l * X0 b k i) (fun b => l / v * t0 b) (l / v * time) sc' om' u' S')
    {o o' : ℕ → CScheds3} (ho : ∀ n, (o n).Done T a.g) (ho' : ∀ n, (o' n).Done T' a'.g) (p : Prog3 B) (hg : Given3 p)
    {r : RefC3 B} (hr : r = refStart3 (xr / a.gx) X0 t0 time sc om u)
    (hp : Proper3 (a.pars xr nu) K cfl tol A p r) (ht : Tracked3 T (a.pars xr nu) K cfl tol A p r) (ht' : Tracked3 T' (a.pars xr nu) K cfl tol A p r) :
    let out := cRun3 (simCfg3 a xr nu cfl) K tol A o p 0 S
    let out' := cRun3 (simCfg3 a' (l * xr) (l * v * nu) cfl) K tol A' o' (unitProg3 l v p) 0 S'
    out.2 = none ∧ out'.2 = none ∧ out'.1.sim.time = l / v * out.1.sim.time ∧ out'.1.log = out.1.log ∧
    (∀ c q c' q', Valid3 T c → Inner3 T a.g q → Valid3 T' c' → Inner3 T' a'.g q' → globalIx3 T' a'.g c' q' = globalIx3 T a.g c q →
      ∀ j, out'.1.sim.om j c' q' = v / l * out.1.sim.om j c q ∧ out'.1.sim.vel j c' q' = v * out.1.sim.vel j c q ∧ out'.1.sim.forcing j c' q' = v ^ 2 / l * out.1.sim.forcing j c q) ∧
    ∀ b, (∀ k < 3, ∀ i < (A b).N, (out'.1.ib b).v.gforce k i = v ^ 2 * l ^ 2 * (out.1.ib b).v.gforce k i) ∧ (out'.1.ib b).v.time = l / v * (out.1.ib b).v.time := by
  have hK0 : ∀ r, K.upd r (fun _ _ => 0) = 0 := fun r => by rw [hU.upd]; simp
  have hKd : ∀ a, CrossLocal3 1 (K.div a) := by
    intro a f f' hf
    rw [hU.div, hU.div]
    repeat rw [hf _ _ (by simp [Cross3])]
  have hgx : a'.gx = a.gx := by rw [hsame]
  have hP' : a'.pars (l * xr) (l * v * nu) = unitParams3 l v (a.pars xr nu) := by rw [hsame]; rfl
  have hdx : 0 < (a.pars xr nu).dx := by
    obtain ⟨hT, -⟩ := simCheck3_cart h.fit.built
    obtain ⟨-, -, g2, -⟩ := construct3_ok hT
    have : 0 < a.gx := by rw [← g2]; exact Nat.pos_of_ne_zero (NeZero.ne _)
    exact div_pos hxr (by exact_mod_cast this)
  have hr' : refStart3 (l * xr / a'.gx) (fun b k i => l * X0 b k i) (fun b => l / v * t0 b) (l / v * time) sc' om' u' = unitRef3 l v r := by
    rw [hr, hgx, mul_div_assoc]
    unfold refStart3 unitRef3
    rw [fieldsFrom3_units (q := 1) (fun x y z => by rw [hsc, one_mul]) hom hu]
    simp only [RefC3.mk.injEq, true_and, and_true]
    refine ⟨?_, ?_⟩
    · funext j G; simp
    · funext b
      unfold nodeInit unitHist3
      simp
  obtain ⟨i1, i2, -⟩ := cRef3_units hU hl hv hdx cfl tol A T p hg r
  obtain ⟨-, -, i3⟩ := cRef3_units hU hl hv hdx cfl tol A T' p hg r
  have hind := same_bodies3 hA (unitParams3 l v (a.pars xr nu)) K cfl tol T' (unitProg3 l v p) (unitRef3 l v r)
  have hNA : ∀ b, (A' b).N = (A b).N := fun b => by rw [hA b]; rfl
  obtain ⟨r1, r2, r3, r4, r5⟩ := coupled3_run hxr hnu hcfl htol hK hKd hK0 h ho p (by rw [← hr]; exact hp) (by rw [← hr]; exact ht)
  obtain ⟨s1, s2, s3, s4, s5⟩ := coupled3_run (mul_pos hl hxr) (mul_nonneg (mul_nonneg hl.le hv.le) hnu) hcfl htol hK hKd hK0 h' ho' (unitProg3 l v p) (by rw [hP', hr']; exact hind.2.1.2 (i2.2 hp))
    (by rw [hP', hr']; exact hind.2.2.2 (i3.2 ht'))
  rw [← hr] at r2 r3 r4 r5
  rw [hP', hr', hind.1, i1] at s2 s3 s4 s5
  generalize cRef3 (a.pars xr nu) K cfl tol A p r = f at r2 r3 r4 r5 s2 s3 s4 s5
  intro out out'
  refine ⟨r1, s1, ?_, s3.trans r3.symm, ?_, ?_⟩
  · rw [show out'.1.sim.time = _ from s2, show out.1.sim.time = _ from r2]; rfl
  · intro c q c' q' hc hq hc' hq' hG j
    obtain ⟨x1, x2, x3⟩ := r4 c q hc hq j
    obtain ⟨y1, y2, y3⟩ := s4 c' q' hc' hq' j
    rw [hG] at y1 y2 y3
    refine ⟨?_, ?_, ?_⟩
    · rw [show out'.1.sim.om j c' q' = _ from y1, show out.1.sim.om j c q = _ from x1]; rfl
    · rw [show out'.1.sim.vel j c' q' = _ from y2, show out.1.sim.vel j c q = _ from x2]; rfl
    · rw [show out'.1.sim.forcing j c' q' = _ from y3, show out.1.sim.forcing j c q = _ from x3]; rfl
  · intro b
    obtain ⟨x1, x2⟩ := r5 b
    obtain ⟨y1, y2⟩ := s5 b
    refine ⟨fun k hk i hi => ?_, ?_⟩
    · rw [show (out'.1.ib b).v.gforce k i = _ from y1 k hk i (by rw [hNA]; exact hi), show (out.1.ib b).v.gforce k i = _ from x1 k hk i hi]; rfl
    · rw [show (out'.1.ib b).v.time = _ from y2, show (out.1.ib b).v.time = _ from x2]; rfl

end Ranks

/-! ## The assumptions hold -/

/-- upwind advection and central differences meet the assumptions -/
theorem exKern3_units : Units3 exKern3 := by
  refine ⟨?_, fun _ _ => rfl, fun _ _ => rfl, fun _ _ => rfl, fun _ _ => rfl⟩
  intro a s v f f' hs hv h1 h2
  simp only [exKern3, h1, h2]
  simp only [← mul_add, mul_div_assoc, upwind3_units hv, ← mul_sub, ← mul_sum]
  field_simp

/-- The assumptions of `coupled3_units` about grid, flow, body and driver can be met at once, with lengths doubled and velocities tripled: 32 × 32 × 32 cells split along x and along y, with different ghost sizes, the
body lying across a boundary between ranks, vorticity around it. -/
theorem exUnits3 [NeZero (⟨32, 32, 32, 1, 1, 2, 32, 32, 16, false⟩ : Cart3).gz] [NeZero (⟨32, 32, 32, 1, 1, 2, 32, 32, 16, false⟩ : Cart3).gy]
    [NeZero (⟨32, 32, 32, 1, 1, 2, 32, 32, 16, false⟩ : Cart3).gx] [NeZero (⟨32, 32, 32, 1, 2, 1, 32, 16, 32, false⟩ : Cart3).gz] [NeZero (⟨32, 32, 32, 1, 2, 1, 32, 16, 32, false⟩ : Cart3).gy]
    [NeZero (⟨32, 32, 32, 1, 2, 1, 32, 16, 32, false⟩ : Cart3).gx] (K : Kern3) (nu cfl tol : ℝ) (sc : ℝ → ℝ → ℝ → ℝ) :
    let a : SimArgs3 := ⟨32, 32, 32, 1, 1, 2, "navier_stokes_with_forcing", true, none, false, 2, .int 2⟩
    let a' : SimArgs3 := { a with py := 2, px := 1, g := 3 }
    let sc' : ℝ → ℝ → ℝ → ℝ := fun x y z => sc (x / 2) (y / 2) (z / 2)
    let om' : Fin 3 → ℝ → ℝ → ℝ → ℝ := fun j x y z => 3 / 2 * exOmD j (x / 2) (y / 2) (z / 2)
    let u : Fin 3 → ℝ → ℝ → ℝ → ℝ := fun _ _ _ _ => 0
    let A : Unit → Ib3 := fun _ => exBody3
    let r : RefC3 Unit := refStart3 ((32 : ℝ) / a.gx) (fun _ => exPosD) (fun _ => 0) 0 sc exOmD u
    (∃ S : CSt3 ⟨32, 32, 32, 1, 1, 2, 32, 32, 16, false⟩ Unit, Setup3 a 32 A (fun _ => exPosD) (fun _ => 0) 0 sc exOmD u S) ∧
    (∃ S : CSt3 ⟨32, 32, 32, 1, 2, 1, 32, 16, 32, false⟩ Unit, Setup3 a' (2 * 32) (fun b => unitBody3 2 3 (A b)) (fun _ k i => 2 * exPosD k i) (fun _ => 2 / 3 * 0) (2 / 3 * 0) sc' om' u S) ∧
    Given3 exProgQ ∧ Proper3 (a.pars 32 nu) K cfl tol A exProgQ r ∧ Tracked3 ⟨32, 32, 32, 1, 1, 2, 32, 32, 16, false⟩ (a.pars 32 nu) K cfl tol A exProgQ r ∧
    Tracked3 ⟨32, 32, 32, 1, 2, 1, 32, 16, 32, false⟩ (a.pars 32 nu) K cfl tol A exProgQ r ∧
    (∀ x y z, sc' (2 * x) (2 * y) (2 * z) = sc x y z) ∧ (∀ j x y z, om' j (2 * x) (2 * y) (2 * z) = 3 / 2 * exOmD j x y z) ∧ ∀ j, r.F.om j (15, 15, 15) ≠ 0 := by
  intro a a' sc' om' u A r
  have hdx : (a.pars 32 nu).dx = 1 := by unfold Params3.dx; norm_num [SimArgs3.pars, a]
  have hd1 : (32 : ℝ) / a.gx = 1 := by norm_num [a]
  have hi : ∀ k ≤ 13, Inside3 32 32 32 k 1 exBody3 exPosD := by
    intro k hk i hI G hG
    have := exPosD_inside i hI G hG
    unfold Away3 at this ⊢
    push_cast at this ⊢; omega
  have hi' : ∀ k ≤ 13, Inside3 32 32 32 k (2 * 1) (unitBody3 2 3 exBody3) (fun k i => 2 * exPosD k i) := fun k hk => (inside3_units two_pos 3 32 32 32 k 1 exBody3 exPosD).2 (hi k hk)
  have hslave : ∀ (b : Unit) l, SlaveSet l (A b).m ((A b).ord l) := by
    intro _ l
    refine ⟨?_, ?_⟩
    · exact (List.nodup_dedup l).filter _
    · intro x; simp [A, exBody3]
  refine ⟨?_, ?_, ?_, ?_, ?_, ?_, ?_, ?_, ?_⟩
  · have hfit : Fit3 a ⟨32, 32, 32, 1, 1, 2, 32, 32, 16, false⟩ := by
      refine ⟨by decide, (by intro h; cases h), fun _ => ⟨by decide, by decide, ⟨2, rfl, by decide, by decide, by decide, by decide⟩, by unfold EvenTopo3; decide, ?_⟩⟩
      intro o ty hf
      simp only [filterInUse, if_true, Option.getD_none, Option.some.injEq, Prod.mk.injEq, PyNum.int.injEq, a] at hf
      omega
    obtain ⟨hT, -⟩ := simCheck3_cart hfit.built
    have hd : simDx3 ⟨32, 32, 32, 1, 1, 2, 32, 32, 16, false⟩ 32 = 1 := by unfold simDx3; norm_num
    obtain ⟨z, hz⟩ := (ibInit3_ok_iff hT (by decide) (by decide) (by decide) one_pos (g := a.g) (k := 0) (a := exBody3) (X0 := exPosD) (hi 0 (by omega)) 0).2 ⟨rfl, le_refl 2⟩
    refine ⟨⟨initFrom3 ⟨32, 32, 32, 1, 1, 2, 32, 32, 16, false⟩ a.g 32 0 0 0 sc exOmD u, fun _ => z, []⟩, hfit, rfl, hslave, ?_, ?_, ⟨_, _, rfl⟩, rfl⟩
    · intro _; rw [hd1]; exact hi 0 (by omega)
    · intro _; rw [hd]; exact hz
  · have hfit : Fit3 a' ⟨32, 32, 32, 1, 2, 1, 32, 16, 32, false⟩ := by
      refine ⟨by decide, (by intro h; cases h), fun _ => ⟨by decide, by decide, ⟨2, rfl, by decide, by decide, by decide, by decide⟩, by unfold EvenTopo3; decide, ?_⟩⟩
      intro o ty hf
      simp only [filterInUse, if_true, Option.getD_none, Option.some.injEq, Prod.mk.injEq, PyNum.int.injEq, a', a] at hf
      omega
    obtain ⟨hT, -⟩ := simCheck3_cart hfit.built
    have hd : simDx3 ⟨32, 32, 32, 1, 2, 1, 32, 16, 32, false⟩ (2 * 32) = 2 * 1 := by unfold simDx3; norm_num
    have hd3 : (2 * 32 : ℝ) / a'.gx = 2 * 1 := by norm_num [a', a]
    obtain ⟨z, hz⟩ := (ibInit3_ok_iff hT (by decide) (by decide) (by decide) (by norm_num : (0 : ℝ) < 2 * 1) (g := a'.g) (k := 0) (a := unitBody3 2 3 exBody3) (X0 := fun k i => 2 * exPosD k i) (hi' 0 (by omega)) (2 / 3 * 0)).2
      ⟨rfl, by decide⟩
    refine ⟨⟨initFrom3 ⟨32, 32, 32, 1, 2, 1, 32, 16, 32, false⟩ a'.g (2 * 32) (2 / 3 * 0) 0 0 sc' om' u, fun _ => z, []⟩, hfit, rfl, hslave, ?_, ?_, ⟨_, _, rfl⟩, rfl⟩
    · intro _; rw [hd3]; exact hi' 0 (by omega)
    · intro _; rw [hd]; exact hz
  · unfold exProgQ
    simp only [Given3]
    exact fun _ _ => trivial
  · unfold exProgQ
    simp only [Proper3, hdx]
    exact ⟨hi 1 (by omega), Or.inl rfl, hi 0 (by omega), Or.inl rfl, hi 1 (by omega), Or.inl rfl, trivial⟩
  · refine tracked3_still (a.pars 32 nu) K cfl tol _ (fun _ => exPosD) _ ?_ _ rfl
    unfold exProgQ
    simp only [Still3]
    simp
  · refine tracked3_still (a.pars 32 nu) K cfl tol _ (fun _ => exPosD) _ ?_ _ rfl
    unfold exProgQ
    simp only [Still3]
    simp
  · intro x y z
    simp only [sc']
    repeat rw [mul_div_cancel_left₀ _ two_ne_zero]
  · intro j x y z
    simp only [om']
    repeat rw [mul_div_cancel_left₀ _ two_ne_zero]
  · intro j
    change (fieldsFrom3 ((32 : ℝ) / a.gx) sc exOmD u).om j (15, 15, 15) ≠ 0
    rw [hd1]
    unfold fieldsFrom3 atCentre3 exOmD
    norm_num

/-- Stable time steps do not change their units, not even if velocities keep theirs: the diffusion limit of the 3D simulator has the small number added to the viscosity. -/
theorem dt3_units_fails : ∃ (P : Params3) (F : Fields3) (cfl tol l : ℝ), 0 < tol ∧ 0 < l ∧
    refDt3 (unitParams3 l 1 P) cfl tol (unitFields3 1 (1 / l) 1 F) (.stable 1) ≠ l / 1 * refDt3 P cfl tol F (.stable 1) := by
  refine ⟨⟨1, 1, 1, 1, 0, 0, false, none⟩, ⟨fun _ => 0, fun _ _ => 0, fun _ _ => 0⟩, 1, 1, 2, one_pos, two_pos, ?_⟩
  have hm : ∀ u : Fin 3 → C3 → ℝ, (∀ j G, u j G = 0) → maxVel3 1 1 1 u = 0 := by
    intro u hu
    unfold maxVel3
    have : {x : ℝ | ∃ G, Dom3 1 1 1 G ∧ x = |u 0 G| + |u 1 G| + |u 2 G|} = {0} := by
      ext x
      simp only [hu, abs_zero, add_zero, Set.mem_ofPred_eq, Set.mem_singleton_iff]
      exact ⟨fun ⟨_, _, h⟩ => h, fun h => ⟨(0, 0, 0), by unfold Dom3; decide, h⟩⟩
    rw [this, csSup_singleton]
  unfold refDt3
  simp only [unitParams3, unitFields3, Params3.dx]
  rw [hm _ (by intro j G; simp), hm _ (by intro j G; rfl)]
  norm_num

end Sopht
