import Verif.Conserve2D

/-!
# Mirror images and exchange of the axes, 2D

No new code is modelled: theorems about `Sim2D`, under assumptions on the kernels of the `sopht` package (`OneDim2` and those of `Conserve2D`).

A simulation whose initial fields, free stream and forcing are the mirror image of those of another one (or those with x and y exchanged) stays the mirror image of it,
whatever the decompositions of the two.  An axis, a sign or a side treated differently from the others anywhere (kernels and their order, boundary treatment, penalty zones,
Poisson solve, time step control) would break this.
-/

namespace Sopht
open Finset

/-- Advection by one and the same one-dimensional scheme along both axes (`f none` is the advected field, `f (some 0)` the velocity along x); the scheme does not prefer a
direction and changes the sign of its result with that of the advected field. -/
def OneDim2 (k : ℝ → (Option (Fin 2) → C2 → ℝ) → ℝ) : Prop :=
  ∃ φ : (ℤ → ℝ) → (ℤ → ℝ) → ℝ,
    (∀ a f, k a f = a * (φ (fun n => f none (0, n)) (fun n => f (some 0) (0, n)) + φ (fun n => f none (n, 0)) fun n => f (some 1) (n, 0))) ∧
    (∀ w v, φ (fun n => w (-n)) (fun n => -v (-n)) = φ w v) ∧ ∀ w v, φ (fun n => -w n) v = -φ w v

/-! ## Symmetries of the run on the global grid -/

/-- A map of cells and what it does to fields: the advected field gets the sign `s`, component `j` of a vector is `t j` times component `perm j` of the original. -/
structure Sym2 where
  cell : C2 → C2
  lin : C2 → C2
  s : ℝ
  perm : Fin 2 → Fin 2
  t : Fin 2 → ℝ

/-- The image of fields, of a vector, of an iteration. -/
def Sym2.vec (σ : Sym2) (u : Fin 2 → C2 → ℝ) : Fin 2 → C2 → ℝ := fun j G => σ.t j * u (σ.perm j) (σ.cell G)
def Sym2.scal (σ : Sym2) (f : C2 → ℝ) : C2 → ℝ := fun G => σ.s * f (σ.cell G)
def Sym2.fields (σ : Sym2) (F : Fields2) : Fields2 := { om := σ.scal F.om, u := σ.vec F.u }
def Sym2.step (σ : Sym2) (y : StepSpec2) : StepSpec2 := { rule := y.rule, fs := fun j => σ.t j * y.fs (σ.perm j), Φ := σ.vec y.Φ }

/-- What makes it a symmetry of the passive scalar step from parameters `P` to `P'`. -/
structure Sym2.Scalar (σ : Sym2) (K : Kern2) (P P' : Params2) : Prop where
  add : ∀ G d : C2, σ.cell (G.1 + d.1, G.2 + d.2) = ((σ.cell G).1 + (σ.lin d).1, (σ.cell G).2 + (σ.lin d).2)
  onto : ∀ G, ∃ G', σ.cell G' = G
  dom : ∀ G, Dom2 P'.gy P'.gx G ↔ Dom2 P.gy P.gx (σ.cell G)
  edge : ∀ G, OnEdge2 P'.gy P'.gx G ↔ OnEdge2 P.gy P.gx (σ.cell G)
  dx : P'.dx = P.dx
  nu : P'.nu = P.nu
  fs : P'.freeStream = P.freeStream
  abs : ∀ v : Fin 2 → ℝ, |σ.t 0 * v (σ.perm 0)| + |σ.t 1 * v (σ.perm 1)| = |v 0| + |v 1|
  adv : ∀ a f f', (∀ d, f' none d = σ.s * f none (σ.lin d)) → (∀ j d, f' (some j) d = σ.t j * f (some (σ.perm j)) (σ.lin d)) → K.adv a f' = σ.s * K.adv a f
  diff : ∀ a f f', (∀ d, f' () d = σ.s * f () (σ.lin d)) → K.diff a f' = σ.s * K.diff a f

/-- … and of the Navier-Stokes step. -/
structure Sym2.Flow (σ : Sym2) (K : Kern2) (P P' : Params2) : Prop where
  curl : ∀ a f f', (∀ d, f' () d = σ.s * f () (σ.lin d)) → ∀ j, (![(K.curl a f').1, (K.curl a f').2] : Fin 2 → ℝ) j = σ.t j * (![(K.curl a f).1, (K.curl a f).2] : Fin 2 → ℝ) (σ.perm j)
  upd : ∀ a f f', (∀ j d, f' j d = σ.t j * f (σ.perm j) (σ.lin d)) → K.upd a f' = σ.s * K.upd a f
  solve : ∀ om G, freeSolution2 P'.gy P'.gx P'.dx (σ.scal om) G = σ.s * freeSolution2 P.gy P.gx P.dx om (σ.cell G)
  pen : ∀ om, serialPen2 false P'.gy P'.gx P'.w (σ.scal om) = σ.scal (serialPen2 false P.gy P.gx P.w om)

section
variable {σ : Sym2} {K : Kern2} {P P' : Params2}

theorem Sym2.Scalar.maxVel (h : σ.Scalar K P P') (u : Fin 2 → C2 → ℝ) : maxVel2 P'.gy P'.gx (σ.vec u) = maxVel2 P.gy P.gx u := by
  unfold maxVel2
  congr 1
  ext x
  constructor
  · rintro ⟨G, hG, rfl⟩
    exact ⟨σ.cell G, (h.dom G).1 hG, h.abs fun j => u j (σ.cell G)⟩
  · rintro ⟨G, hG, rfl⟩
    obtain ⟨G', rfl⟩ := h.onto G
    exact ⟨G', (h.dom G').2 hG, (h.abs fun j => u j (σ.cell G')).symm⟩

theorem Sym2.Scalar.dt (h : σ.Scalar K P P') (cfl tol : ℝ) (F : Fields2) (r : DtRule) : refDt2 P' cfl tol (σ.fields F) r = refDt2 P cfl tol F r := by
  cases r with
  | fixed dt => rfl
  | stable pre =>
    unfold refDt2
    have := h.maxVel F.u
    simp only [Sym2.fields, this, h.dx, h.nu]

theorem Sym2.Scalar.adv' (h : σ.Scalar K P P') (dt : ℝ) (u : Fin 2 → C2 → ℝ) (om : C2 → ℝ) :
    refAdv2 P' K dt (σ.vec u) (σ.scal om) = σ.scal (refAdv2 P K dt u om) := by
  funext G
  unfold refAdv2
  unfold Sym2.scal
  simp only [h.dom G, h.dx]
  split
  · rw [mul_add]
    congr 1
    apply h.adv
    · intro d
      simp only [h.add G d]
    · intro j d
      simp only [Sym2.vec, h.add G d]
  · rfl

theorem Sym2.Scalar.diff' (h : σ.Scalar K P P') (dt : ℝ) (om : C2 → ℝ) : refDiff2 P' K dt (σ.scal om) = σ.scal (refDiff2 P K dt om) := by
  funext G
  unfold refDiff2
  unfold Sym2.scal
  simp only [h.dom G, h.edge G, h.dx, h.nu]
  split
  · rw [mul_add]
    congr 1
    apply h.diff
    intro d
    simp only [h.add G d]
  · rfl

theorem Sym2.Scalar.scalar (h : σ.Scalar K P P') (dt : ℝ) (F : Fields2) : refScalar2 P' K dt (σ.fields F) = σ.fields (refScalar2 P K dt F) := by
  unfold refScalar2 Sym2.fields
  simp only [h.adv', h.diff']

theorem Sym2.Flow.vel (h : σ.Scalar K P P') (hf : σ.Flow K P P') (om : C2 → ℝ) :
    (![fun G => (refVel2 P' K (σ.scal om) G).1, fun G => (refVel2 P' K (σ.scal om) G).2] : Fin 2 → C2 → ℝ) =
      σ.vec ![fun G => (refVel2 P K om G).1, fun G => (refVel2 P K om G).2] := by
  have e : ∀ (P : Params2) (om : C2 → ℝ) (j : Fin 2) (G : C2), (![fun G => (refVel2 P K om G).1, fun G => (refVel2 P K om G).2] : Fin 2 → C2 → ℝ) j G =
      (![(refVel2 P K om G).1, (refVel2 P K om G).2] : Fin 2 → ℝ) j := by
    intro P om j G
    fin_cases j <;> rfl
  funext j G
  unfold Sym2.vec
  rw [e, e]
  unfold refVel2
  simp only [h.dom G, h.edge G, h.dx]
  split
  · apply hf.curl
    intro d
    have q := hf.solve om (G.1 + d.1, G.2 + d.2)
    rw [h.dx, h.add G d] at q
    exact q
  · generalize σ.perm j = k
    fin_cases j <;> fin_cases k <;> simp

theorem Sym2.Flow.ns (h : σ.Scalar K P P') (hf : σ.Flow K P P') (dt : ℝ) (fs : Fin 2 → ℝ) (F : Fields2) :
    refNS2 P' K dt (fun j => σ.t j * fs (σ.perm j)) (σ.fields F) = σ.fields (refNS2 P K dt fs F) := by
  unfold refNS2 Sym2.fields
  simp only [h.adv', h.diff', hf.pen, Sym2.Flow.vel h hf]
  congr 1
  funext j G
  unfold refFree2 Sym2.vec
  simp only [h.fs]
  split
  · ring
  · rfl

theorem Sym2.Flow.force (h : σ.Scalar K P P') (hf : σ.Flow K P P') (dt : ℝ) (Φ : Fin 2 → C2 → ℝ) (om : C2 → ℝ) :
    refForce2 P' K dt (σ.vec Φ) (σ.scal om) = σ.scal (refForce2 P K dt Φ om) := by
  funext G
  unfold refForce2
  unfold Sym2.scal
  simp only [h.dom G, h.dx]
  split
  · rw [mul_add]
    congr 1
    apply hf.upd
    intro j d
    simp only [Sym2.vec, h.add G d]
  · rfl

/-- The image of the run is the run of the image. -/
theorem sym2_run (h : σ.Scalar K P P') {ft : String} (hft : ft ∈ flowTypes2) (hf : ft ≠ "passive_scalar" → σ.Flow K P P') (cfl tol : ℝ) (ys : List StepSpec2) (F : Fields2) (time : ℝ) :
    refRun2 ft P' K cfl tol (ys.map σ.step) (σ.fields F, time) =
      (σ.fields (refRun2 ft P K cfl tol ys (F, time)).1, (refRun2 ft P K cfl tol ys (F, time)).2) := by
  induction ys generalizing F time with
  | nil => rfl
  | cons y ys ih =>
    simp only [List.map_cons, refRun2]
    have e : refStep2 ft P' K (refDt2 P' cfl tol (σ.fields F) (σ.step y).rule) (σ.step y).fs (σ.step y).Φ (σ.fields F) =
        σ.fields (refStep2 ft P K (refDt2 P cfl tol F y.rule) y.fs y.Φ F) := by
      have hdt : refDt2 P' cfl tol (σ.fields F) (σ.step y).rule = refDt2 P cfl tol F y.rule := h.dt cfl tol F y.rule
      rw [hdt]
      unfold refStep2
      split
      · rename_i e
        exact Sym2.Flow.ns h (hf (by rw [e]; decide)) _ _ _
      · split
        · rename_i e
          have hf := hf (by rw [e]; decide)
          unfold refForcing2
          have e1 := Sym2.Flow.force h hf (refDt2 P cfl tol F y.rule) y.Φ F.om
          have e2 := Sym2.Flow.ns h hf (refDt2 P cfl tol F y.rule) y.fs { F with om := refForce2 P K (refDt2 P cfl tol F y.rule) y.Φ F.om }
          rw [← e2]
          unfold Sym2.fields
          simp only [Sym2.step, e1]
        · exact h.scalar _ _
    rw [e]
    have hdt : refDt2 P' cfl tol (σ.fields F) (σ.step y).rule = refDt2 P cfl tol F y.rule := h.dt cfl tol F y.rule
    rw [hdt]
    exact ih _ _

end

/-! ## Penalty zones -/

/-- Penalising a line multiplies the value of one of its cells. -/
theorem serialPen1_form (per : Bool) (N w : ℕ) : ∃ (c : ℤ → ℝ) (k : ℤ → ℤ), ∀ U j, serialPen1 per N w U j = c j * U (k j) := by
  by_cases h : per = true ∨ w = 0
  · exact ⟨fun _ => 1, id, fun U j => by unfold serialPen1; rw [if_pos h, one_mul]; rfl⟩
  · refine ⟨fun j => (if (N : ℤ) - w ≤ j then (if (N : ℤ) - w < w then ramp w (N - w) else 1) * ramp w (N - 1 - j) else if j < w then ramp w j else 1),
      fun j => if (N : ℤ) - w ≤ j then (if (N : ℤ) - w < w then (w : ℤ) - 1 else N - w) else if j < w then (w : ℤ) - 1 else j, fun U j => ?_⟩
    unfold serialPen1
    rw [if_neg h]
    dsimp only
    split <;> split <;> ring

theorem serialPen1_scale (per : Bool) (N w : ℕ) (s : ℝ) (U : ℤ → ℝ) (j : ℤ) : serialPen1 per N w (fun j => s * U j) j = s * serialPen1 per N w U j := by
  obtain ⟨c, k, h⟩ := serialPen1_form per N w
  rw [h, h]
  ring

/-- Front and back are treated alike (penalty zones that do not overlap). -/
theorem serialPen1_mirror (per : Bool) {N w : ℕ} (hw : 2 * w ≤ N) (U : ℤ → ℝ) (j : ℤ) : serialPen1 per N w (fun j => U (N - 1 - j)) j = serialPen1 per N w U (N - 1 - j) := by
  unfold serialPen1
  split
  · rfl
  · dsimp only
    by_cases h1 : (N : ℤ) - w ≤ j
    · rw [if_pos h1, if_neg (by omega), if_neg (by omega), if_pos (by omega)]
      congr 2
      omega
    · rw [if_neg h1]
      by_cases h2 : j < w
      · rw [if_pos h2, if_pos (by omega), if_neg (by omega)]
        congr 2 <;> omega
      · rw [if_neg h2, if_neg (by omega), if_neg (by omega)]

theorem serialPen2_scale (gy gx w : ℕ) (s : ℝ) (F : C2 → ℝ) (G : C2) : serialPen2 false gy gx w (fun G => s * F G) G = s * serialPen2 false gy gx w F G := by
  unfold serialPen2
  simp only [serialPen1_scale]

theorem serialPen2_transpose (gy gx w : ℕ) (F : C2 → ℝ) (G : C2) : serialPen2 false gx gy w (fun G => F (G.2, G.1)) G = serialPen2 false gy gx w F (G.2, G.1) := by
  obtain ⟨c, k, h⟩ := serialPen1_form false gx w
  obtain ⟨c', k', h'⟩ := serialPen1_form false gy w
  unfold serialPen2
  simp only [h, h']
  ring

theorem serialPen2_mirror_x {gy gx w : ℕ} (hw : 2 * w ≤ gx) (F : C2 → ℝ) (G : C2) :
    serialPen2 false gy gx w (fun G => F (G.1, gx - 1 - G.2)) G = serialPen2 false gy gx w F (G.1, gx - 1 - G.2) := by
  unfold serialPen2
  have := fun j => serialPen1_mirror false hw (fun i => F (j, i)) G.2
  simp only [this]

theorem serialPen2_mirror_y {gy gx w : ℕ} (hw : 2 * w ≤ gy) (F : C2 → ℝ) (G : C2) :
    serialPen2 false gy gx w (fun G => F (gy - 1 - G.1, G.2)) G = serialPen2 false gy gx w F (gy - 1 - G.1, G.2) := by
  unfold serialPen2
  exact serialPen1_mirror false hw (fun j => serialPen1 false gx w (fun i => F (j, i)) G.2) G.1

/-! ## Poisson solve -/

theorem sum_range_mirror (n : ℕ) (f : ℤ → ℝ) : ∑ j ∈ range n, f ((n : ℤ) - 1 - (j : ℕ)) = ∑ j ∈ range n, f (j : ℕ) := by
  rw [← Finset.sum_range_reflect (fun j : ℕ => f (j : ℤ)) n]
  refine Finset.sum_congr rfl fun j hj => ?_
  rw [Finset.mem_range] at hj
  congr 1
  omega

theorem greens2_swap (dx : ℝ) (a b : ℤ) : greens2 dx a b = greens2 dx b a := by
  unfold greens2
  rw [add_comm]
  exact if_congr and_comm rfl rfl

theorem freeSolution2_scale (gy gx : ℕ) (dx s : ℝ) (F : C2 → ℝ) (G : C2) : freeSolution2 gy gx dx (fun G => s * F G) G = s * freeSolution2 gy gx dx F G := by
  unfold freeSolution2
  simp only [Finset.mul_sum]
  refine Finset.sum_congr rfl fun i _ => Finset.sum_congr rfl fun j _ => ?_
  ring

theorem freeSolution2_transpose (gy gx : ℕ) (dx : ℝ) (F : C2 → ℝ) (G : C2) :
    freeSolution2 gx gy dx (fun G => F (G.2, G.1)) G = freeSolution2 gy gx dx F (G.2, G.1) := by
  unfold freeSolution2
  rw [Finset.sum_comm]
  refine Finset.sum_congr rfl fun i _ => Finset.sum_congr rfl fun j _ => ?_
  rw [greens2_swap]

theorem freeSolution2_mirror_x (gy gx : ℕ) (dx : ℝ) (F : C2 → ℝ) (G : C2) :
    freeSolution2 gy gx dx (fun G => F (G.1, gx - 1 - G.2)) G = freeSolution2 gy gx dx F (G.1, gx - 1 - G.2) := by
  unfold freeSolution2
  refine Finset.sum_congr rfl fun i _ => ?_
  rw [← sum_range_mirror gx fun j => F (i, j) * greens2 dx |G.1 - i| |(gx : ℤ) - 1 - G.2 - j| * dx ^ 2]
  refine Finset.sum_congr rfl fun j _ => ?_
  simp only
  rw [show (gx : ℤ) - 1 - G.2 - ((gx : ℤ) - 1 - j) = -(G.2 - j) by ring, abs_neg]

theorem freeSolution2_mirror_y (gy gx : ℕ) (dx : ℝ) (F : C2 → ℝ) (G : C2) :
    freeSolution2 gy gx dx (fun G => F (gy - 1 - G.1, G.2)) G = freeSolution2 gy gx dx F (gy - 1 - G.1, G.2) := by
  have h := freeSolution2_mirror_x gx gy dx (fun G => F (G.2, G.1)) (G.2, G.1)
  have h1 := freeSolution2_transpose gx gy dx (fun G => F (gy - 1 - G.2, G.1)) G
  have h2 := freeSolution2_transpose gx gy dx (fun G => F (G.2, G.1)) (gy - 1 - G.1, G.2)
  exact h1.trans (h.trans h2.symm)

/-! ## The three symmetries -/

/-- Under a mirror the vorticity changes its sign, a scalar does not. -/
def mirrorSign (ft : String) : ℝ := if ft = "passive_scalar" then 1 else -1

theorem mirrorSign_cases (ft : String) : mirrorSign ft = 1 ∨ mirrorSign ft = -1 := by
  unfold mirrorSign
  split
  · exact Or.inl rfl
  · exact Or.inr rfl

/-- Mirror image at the middle of the x axis. -/
def mirX2 (gx : ℕ) (s : ℝ) : Sym2 := { cell := fun G => (G.1, gx - 1 - G.2), lin := fun d => (d.1, -d.2), s, perm := id, t := ![-1, 1] }
/-- Mirror image at the middle of the y axis. -/
def mirY2 (gy : ℕ) (s : ℝ) : Sym2 := { cell := fun G => (gy - 1 - G.1, G.2), lin := fun d => (-d.1, d.2), s, perm := id, t := ![1, -1] }
/-- Exchange of x and y. -/
def swap2 (s : ℝ) : Sym2 := { cell := fun G => (G.2, G.1), lin := fun d => (d.2, d.1), s, perm := fun j => 1 - j, t := fun _ => 1 }

theorem phi_sign {φ : (ℤ → ℝ) → (ℤ → ℝ) → ℝ} (h : ∀ w v, φ (fun n => -w n) v = -φ w v) {s : ℝ} (hs : s = 1 ∨ s = -1) (w v : ℤ → ℝ) :
    φ (fun n => s * w n) v = s * φ w v := by
  rcases hs with rfl | rfl
  · simp
  · simp only [neg_mul, one_mul, h]

theorem phi_mirror {φ : (ℤ → ℝ) → (ℤ → ℝ) → ℝ} (hm : ∀ w v, φ (fun n => w (-n)) (fun n => -v (-n)) = φ w v) (h : ∀ w v, φ (fun n => -w n) v = -φ w v)
    {s : ℝ} (hs : s = 1 ∨ s = -1) (w v : ℤ → ℝ) : φ (fun n => s * w (-n)) (fun n => -1 * v (-n)) = s * φ w v := by
  rw [phi_sign h hs (fun n => w (-n))]
  simp only [neg_mul, one_mul, hm]

theorem mirX2_scalar {K : Kern2} (hd : FivePoint K.diff) (ha : OneDim2 K.adv) {s : ℝ} (hs : s = 1 ∨ s = -1) (P : Params2) : (mirX2 P.gx s).Scalar K P P where
  add := by
    intro G d
    simp only [mirX2]
    congr 1
    ring
  onto := fun G => ⟨(G.1, P.gx - 1 - G.2), by simp only [mirX2, sub_sub_cancel]⟩
  dom := by
    intro G
    simp only [mirX2, Dom2]
    omega
  edge := by
    intro G
    simp only [mirX2, OnEdge2]
    omega
  dx := rfl
  nu := rfl
  fs := rfl
  abs := by
    intro v
    simp [mirX2]
  adv := by
    intro a f f' h1 h2
    obtain ⟨φ, e, hm, hn⟩ := ha
    rw [e, e]
    simp only [h1, h2, mirX2]
    have q1 := phi_mirror hm hn hs (fun n => f none (0, n)) fun n => f (some 0) (0, n)
    have q2 := phi_sign hn hs (fun n => f none (n, 0)) fun n => f (some 1) (n, 0)
    simp only [id, Matrix.cons_val_zero, Matrix.cons_val_one, neg_zero, one_mul, q1, q2]
    ring
  diff := by
    intro a f f' h1
    rw [hd, hd]
    simp only [h1, mirX2, neg_neg, neg_zero]
    ring

theorem mirY2_scalar {K : Kern2} (hd : FivePoint K.diff) (ha : OneDim2 K.adv) {s : ℝ} (hs : s = 1 ∨ s = -1) (P : Params2) : (mirY2 P.gy s).Scalar K P P where
  add := by
    intro G d
    simp only [mirY2]
    congr 1
    ring
  onto := fun G => ⟨(P.gy - 1 - G.1, G.2), by simp only [mirY2, sub_sub_cancel]⟩
  dom := by
    intro G
    simp only [mirY2, Dom2]
    omega
  edge := by
    intro G
    simp only [mirY2, OnEdge2]
    omega
  dx := rfl
  nu := rfl
  fs := rfl
  abs := by
    intro v
    simp [mirY2]
  adv := by
    intro a f f' h1 h2
    obtain ⟨φ, e, hm, hn⟩ := ha
    rw [e, e]
    simp only [h1, h2, mirY2]
    have q1 := phi_sign hn hs (fun n => f none (0, n)) fun n => f (some 0) (0, n)
    have q2 := phi_mirror hm hn hs (fun n => f none (n, 0)) fun n => f (some 1) (n, 0)
    simp only [id, Matrix.cons_val_zero, Matrix.cons_val_one, neg_zero, one_mul, q1, q2]
    ring
  diff := by
    intro a f f' h1
    rw [hd, hd]
    simp only [h1, mirY2, neg_neg, neg_zero]
    ring

/-- The parameters of the simulation with the axes exchanged: same cell size. -/
noncomputable def Params2.swap (P : Params2) : Params2 := { P with gy := P.gx, gx := P.gy, xr := P.xr * (P.gy / P.gx) }

theorem Params2.swap_dx {P : Params2} (h : P.gy ≠ 0) : P.swap.dx = P.dx := by
  unfold Params2.swap Params2.dx
  simp only
  have : (P.gy : ℝ) ≠ 0 := by exact_mod_cast h
  field_simp

theorem swap2_scalar {K : Kern2} (hd : FivePoint K.diff) (ha : OneDim2 K.adv) {s : ℝ} (hs : s = 1 ∨ s = -1) {P : Params2} (hP : P.gy ≠ 0) : (swap2 s).Scalar K P P.swap where
  add := fun _ _ => rfl
  onto := fun G => ⟨(G.2, G.1), rfl⟩
  dom := by
    intro G
    simp only [swap2, Dom2, Params2.swap]
    omega
  edge := by
    intro G
    simp only [swap2, OnEdge2, Params2.swap]
    omega
  dx := Params2.swap_dx hP
  nu := rfl
  fs := rfl
  abs := by
    intro v
    simp [swap2, add_comm]
  adv := by
    intro a f f' h1 h2
    obtain ⟨φ, e, hm, hn⟩ := ha
    rw [e, e]
    simp only [h1, h2, swap2]
    have q1 := phi_sign hn hs (fun n => f none (0, n)) fun n => f (some 0) (0, n)
    have q2 := phi_sign hn hs (fun n => f none (n, 0)) fun n => f (some 1) (n, 0)
    simp only [sub_zero, sub_self, one_mul, q1, q2]
    ring
  diff := by
    intro a f f' h1
    rw [hd, hd]
    simp only [h1, swap2]
    ring

theorem mirX2_flow {K : Kern2} (hu : CentralRot2 K.upd) (hc : CentralCurl2 K.curl) {P : Params2} (hw : 2 * P.w ≤ P.gx) : (mirX2 P.gx (-1)).Flow K P P where
  curl := by
    intro a f f' h j
    rw [hc, hc]
    simp only [h, mirX2]
    fin_cases j <;> simp only [neg_neg, neg_zero, Fin.isValue, Fin.zero_eta, Fin.mk_one, Matrix.cons_val_zero, Matrix.cons_val_one, id] <;> ring
  upd := by
    intro a f f' h
    rw [hu, hu]
    simp only [h, mirX2, neg_neg, neg_zero, Matrix.cons_val_zero, Matrix.cons_val_one, id]
    ring
  solve := by
    intro om G
    have e := freeSolution2_scale P.gy P.gx P.dx (-1) (fun G => om (G.1, P.gx - 1 - G.2)) G
    rw [freeSolution2_mirror_x] at e
    exact e
  pen := by
    intro om
    funext G
    have e := serialPen2_scale P.gy P.gx P.w (-1) (fun G => om (G.1, P.gx - 1 - G.2)) G
    rw [serialPen2_mirror_x hw] at e
    exact e

theorem mirY2_flow {K : Kern2} (hu : CentralRot2 K.upd) (hc : CentralCurl2 K.curl) {P : Params2} (hw : 2 * P.w ≤ P.gy) : (mirY2 P.gy (-1)).Flow K P P where
  curl := by
    intro a f f' h j
    rw [hc, hc]
    simp only [h, mirY2]
    fin_cases j <;> simp only [neg_neg, neg_zero, Fin.isValue, Fin.zero_eta, Fin.mk_one, Matrix.cons_val_zero, Matrix.cons_val_one, id] <;> ring
  upd := by
    intro a f f' h
    rw [hu, hu]
    simp only [h, mirY2, neg_neg, neg_zero, Matrix.cons_val_zero, Matrix.cons_val_one, id]
    ring
  solve := by
    intro om G
    have e := freeSolution2_scale P.gy P.gx P.dx (-1) (fun G => om (P.gy - 1 - G.1, G.2)) G
    rw [freeSolution2_mirror_y] at e
    exact e
  pen := by
    intro om
    funext G
    have e := serialPen2_scale P.gy P.gx P.w (-1) (fun G => om (P.gy - 1 - G.1, G.2)) G
    rw [serialPen2_mirror_y hw] at e
    exact e

theorem swap2_flow {K : Kern2} (hu : CentralRot2 K.upd) (hc : CentralCurl2 K.curl) {P : Params2} (hP : P.gy ≠ 0) : (swap2 (-1)).Flow K P P.swap where
  curl := by
    intro a f f' h j
    rw [hc, hc]
    simp only [h, swap2]
    fin_cases j <;> simp only [sub_zero, sub_self, Fin.isValue, Fin.zero_eta, Fin.mk_one, Matrix.cons_val_zero, Matrix.cons_val_one] <;> ring
  upd := by
    intro a f f' h
    rw [hu, hu]
    simp only [h, swap2, sub_zero, sub_self]
    ring
  solve := by
    intro om G
    rw [Params2.swap_dx hP]
    have e := freeSolution2_scale P.gx P.gy P.dx (-1) (fun G => om (G.2, G.1)) G
    rw [freeSolution2_transpose] at e
    exact e
  pen := by
    intro om
    funext G
    have e := serialPen2_scale P.gx P.gy P.w (-1) (fun G => om (G.2, G.1)) G
    rw [serialPen2_transpose] at e
    exact e

/-! ## On the ranks -/

/-- The iteration of the simulation mirrored at the middle of the x axis. -/
def mirrorXStep2 (gx : ℕ) (y : StepSpec2) : StepSpec2 :=
  { rule := y.rule, fs := ![-y.fs 0, y.fs 1], Φ := ![fun G => -y.Φ 0 (G.1, gx - 1 - G.2), fun G => y.Φ 1 (G.1, gx - 1 - G.2)] }

/-- The iteration of the simulation mirrored at the middle of the y axis. -/
def mirrorYStep2 (gy : ℕ) (y : StepSpec2) : StepSpec2 :=
  { rule := y.rule, fs := ![y.fs 0, -y.fs 1], Φ := ![fun G => y.Φ 0 (gy - 1 - G.1, G.2), fun G => -y.Φ 1 (gy - 1 - G.1, G.2)] }

/-- The iteration of the simulation with x and y exchanged. -/
def swapStep2 (y : StepSpec2) : StepSpec2 :=
  { rule := y.rule, fs := ![y.fs 1, y.fs 0], Φ := ![fun G => y.Φ 1 (G.2, G.1), fun G => y.Φ 0 (G.2, G.1)] }

theorem mirX2_step (gx : ℕ) (s : ℝ) : (mirX2 gx s).step = mirrorXStep2 gx := by
  funext y
  unfold Sym2.step mirrorXStep2 Sym2.vec mirX2
  congr 1
  · funext j; fin_cases j <;> simp
  · funext j G; fin_cases j <;> simp

theorem mirY2_step (gy : ℕ) (s : ℝ) : (mirY2 gy s).step = mirrorYStep2 gy := by
  funext y
  unfold Sym2.step mirrorYStep2 Sym2.vec mirY2
  congr 1
  · funext j; fin_cases j <;> simp
  · funext j G; fin_cases j <;> simp

theorem swap2_step (s : ℝ) : (swap2 s).step = swapStep2 := by
  funext y
  unfold Sym2.step swapStep2 Sym2.vec swap2
  congr 1
  · funext j; fin_cases j <;> simp
  · funext j G; fin_cases j <;> simp

section Ranks
variable {T T' : Cart2} [NeZero T.gy] [NeZero T.gx] [NeZero T'.gy] [NeZero T'.gx]

omit [NeZero T'.gy] [NeZero T'.gx] in
theorem fit2_pos {a : SimArgs2} (h : Fit2 a T) : a.gy ≠ 0 ∧ a.gx ≠ 0 := by
  obtain ⟨hT, -⟩ := simCheck2_cart' h.built
  obtain ⟨e1, e2, -⟩ := construct2_ok hT
  rw [← e1, ← e2]
  exact ⟨NeZero.ne _, NeZero.ne _⟩

/-- C94: the mirror image (at the middle of the x axis) of a simulation, on any other decomposition, is a simulation of the mirror image: the same time, in the mirrored
cell the opposite vorticity (a passive scalar: the same value), the opposite velocity along x and the same velocity along y. -/
theorem sim2_mirror_x {a a' : SimArgs2} (hsame : a' = { a with py := a'.py, px := a'.px }) (h : Fit2 a T) (h' : Fit2 a' T') (hw : 2 * widthOf a.width ≤ a.gx)
    {xr : ℝ} (hxr : 0 < xr) (nu : ℝ) {cfl : ℝ} (hcfl : 0 ≤ cfl) {tol : ℝ} (htol : 0 < tol)
    {K : Kern2} (hK : K.Local) (hd : FivePoint K.diff) (ha : OneDim2 K.adv) (hu : CentralRot2 K.upd) (hc : CentralCurl2 K.curl)
    (time : ℝ) (dbl0 dbl0' : World C2 C2 ℝ) (conv0 : Dbl2 T → ℂ) (conv0' : Dbl2 T' → ℂ) (om : ℝ → ℝ → ℝ) (u : Fin 2 → ℝ → ℝ → ℝ) {xs xs' : List StepIn2} {ys : List StepSpec2}
    (hxy : List.Forall₂ (Means2 a.gy a.gx T (simCfg2 a T xr nu cfl)) xs ys)
    (hxy' : List.Forall₂ (Means2 a'.gy a'.gx T' (simCfg2 a' T' xr nu cfl)) xs' (ys.map (mirrorXStep2 a.gx))) :
    let out := simLoop2 (simCfg2 a T xr nu cfl) K tol xs (initFrom2 T a.g xr time dbl0 conv0 om u)
    let out' := simLoop2 (simCfg2 a' T' xr nu cfl) K tol xs' (initFrom2 T' a'.g xr time dbl0' conv0' (fun x y => mirrorSign a.flowType * om (xr - x) y)
      ![fun x y => -u 0 (xr - x) y, fun x y => u 1 (xr - x) y])
    out.2 = none ∧ out'.2 = none ∧ out'.1.time = out.1.time ∧
    ∀ c p c' p', Valid2 T c → Inner2 T ((2 : ℕ) : ℤ) p → Valid2 T' c' → Inner2 T' ((2 : ℕ) : ℤ) p' →
      (globalIx2 T' ((2 : ℕ) : ℤ) c' p').1 = (globalIx2 T ((2 : ℕ) : ℤ) c p).1 → (globalIx2 T' ((2 : ℕ) : ℤ) c' p').2 = a.gx - 1 - (globalIx2 T ((2 : ℕ) : ℤ) c p).2 →
      out'.1.prim c' p' = mirrorSign a.flowType * out.1.prim c p ∧ out'.1.vel 0 c' p' = -out.1.vel 0 c p ∧ out'.1.vel 1 c' p' = out.1.vel 1 c p := by
  obtain ⟨n1, n2⟩ := fit2_pos h
  have hK0 : ∀ r, K.upd r (fun _ _ => 0) = 0 := fun r => by rw [hu]; ring
  obtain ⟨r1, r2, r3⟩ := sim2_run h hxr nu hcfl htol hK hK0 time dbl0 conv0 om u hxy
  obtain ⟨s1, s2, s3⟩ := sim2_run h' hxr nu hcfl htol hK hK0 time dbl0' conv0' (fun x y => mirrorSign a.flowType * om (xr - x) y)
      ![fun x y => -u 0 (xr - x) y, fun x y => u 1 (xr - x) y] hxy'
  have e1 : fieldsFrom2 (xr / a.gx) (fun x y => mirrorSign a.flowType * om (xr - x) y) ![fun x y => -u 0 (xr - x) y, fun x y => u 1 (xr - x) y] =
      (mirX2 a.gx (mirrorSign a.flowType)).fields (fieldsFrom2 (xr / a.gx) om u) := by
    have hx : ∀ n : ℤ, xr - ((n : ℝ) + 1 / 2) * (xr / a.gx) = (((a.gx - 1 - n : ℤ) : ℝ) + 1 / 2) * (xr / a.gx) := by
      intro n
      have : (a.gx : ℝ) ≠ 0 := by exact_mod_cast n2
      push_cast
      field_simp
      ring
    unfold Sym2.fields Sym2.scal Sym2.vec mirX2 fieldsFrom2
    simp only
    congr 1
    · funext G
      rw [hx]
    · funext j G
      fin_cases j <;> simp only [Fin.zero_eta, Fin.mk_one, Fin.isValue, Matrix.cons_val_zero, Matrix.cons_val_one, id, hx] <;> ring
  have e : refRun2 a'.flowType ⟨a'.gy, a'.gx, xr, nu, widthOf a'.width, a'.freeStream⟩ K cfl tol (ys.map (mirrorXStep2 a.gx)) (fieldsFrom2 (xr / a'.gx)
      (fun x y => mirrorSign a.flowType * om (xr - x) y) ![fun x y => -u 0 (xr - x) y, fun x y => u 1 (xr - x) y], time) =
      ((mirX2 a.gx (mirrorSign a.flowType)).fields (refRun2 a.flowType ⟨a.gy, a.gx, xr, nu, widthOf a.width, a.freeStream⟩ K cfl tol ys (fieldsFrom2 (xr / a.gx) om u, time)).1,
        (refRun2 a.flowType ⟨a.gy, a.gx, xr, nu, widthOf a.width, a.freeStream⟩ K cfl tol ys (fieldsFrom2 (xr / a.gx) om u, time)).2) := by
    rw [hsame]
    simp only
    rw [e1, ← mirX2_step a.gx (mirrorSign a.flowType)]
    refine sym2_run (mirX2_scalar hd ha (mirrorSign_cases _) ⟨a.gy, a.gx, xr, nu, widthOf a.width, a.freeStream⟩) (simCheck2_cart' h.built).2 (fun hf => ?_) cfl tol ys _ time
    rw [show mirrorSign a.flowType = -1 from if_neg hf]
    exact mirX2_flow (P := ⟨a.gy, a.gx, xr, nu, widthOf a.width, a.freeStream⟩) hu hc hw
  rw [e] at s2 s3
  intro out out'
  refine ⟨r1, s1, s2.trans r2.symm, ?_⟩
  intro c p c' p' hc hp hc' hp' hG1 hG2
  obtain ⟨q1, q2⟩ := r3 c p hc hp
  obtain ⟨t1, t2⟩ := s3 c' p' hc' hp'
  have hG : (mirX2 a.gx (mirrorSign a.flowType)).cell (globalIx2 T' ((2 : ℕ) : ℤ) c' p') = globalIx2 T ((2 : ℕ) : ℤ) c p := by
    simp only [mirX2]
    exact Prod.ext hG1 (by simp only; omega)
  refine ⟨?_, ?_, ?_⟩
  · rw [t1, q1, ← hG]; rfl
  · rw [t2 0, q2 0, ← hG]
    simp [Sym2.fields, Sym2.vec, mirX2]
  · rw [t2 1, q2 1, ← hG]
    simp [Sym2.fields, Sym2.vec, mirX2]

/-- C94: the same for the mirror image at the middle of the y axis (`y_range` is `x_range` times `gy / gx`). -/
theorem sim2_mirror_y {a a' : SimArgs2} (hsame : a' = { a with py := a'.py, px := a'.px }) (h : Fit2 a T) (h' : Fit2 a' T') (hw : 2 * widthOf a.width ≤ a.gy)
    {xr yr : ℝ} (hxr : 0 < xr) (hyr : yr = xr * (a.gy / a.gx)) (nu : ℝ) {cfl : ℝ} (hcfl : 0 ≤ cfl) {tol : ℝ} (htol : 0 < tol)
    {K : Kern2} (hK : K.Local) (hd : FivePoint K.diff) (ha : OneDim2 K.adv) (hu : CentralRot2 K.upd) (hc : CentralCurl2 K.curl)
    (time : ℝ) (dbl0 dbl0' : World C2 C2 ℝ) (conv0 : Dbl2 T → ℂ) (conv0' : Dbl2 T' → ℂ) (om : ℝ → ℝ → ℝ) (u : Fin 2 → ℝ → ℝ → ℝ) {xs xs' : List StepIn2} {ys : List StepSpec2}
    (hxy : List.Forall₂ (Means2 a.gy a.gx T (simCfg2 a T xr nu cfl)) xs ys)
    (hxy' : List.Forall₂ (Means2 a'.gy a'.gx T' (simCfg2 a' T' xr nu cfl)) xs' (ys.map (mirrorYStep2 a.gy))) :
    let out := simLoop2 (simCfg2 a T xr nu cfl) K tol xs (initFrom2 T a.g xr time dbl0 conv0 om u)
    let out' := simLoop2 (simCfg2 a' T' xr nu cfl) K tol xs' (initFrom2 T' a'.g xr time dbl0' conv0' (fun x y => mirrorSign a.flowType * om x (yr - y))
      ![fun x y => u 0 x (yr - y), fun x y => -u 1 x (yr - y)])
    out.2 = none ∧ out'.2 = none ∧ out'.1.time = out.1.time ∧
    ∀ c p c' p', Valid2 T c → Inner2 T ((2 : ℕ) : ℤ) p → Valid2 T' c' → Inner2 T' ((2 : ℕ) : ℤ) p' →
      (globalIx2 T' ((2 : ℕ) : ℤ) c' p').1 = a.gy - 1 - (globalIx2 T ((2 : ℕ) : ℤ) c p).1 → (globalIx2 T' ((2 : ℕ) : ℤ) c' p').2 = (globalIx2 T ((2 : ℕ) : ℤ) c p).2 →
      out'.1.prim c' p' = mirrorSign a.flowType * out.1.prim c p ∧ out'.1.vel 0 c' p' = out.1.vel 0 c p ∧ out'.1.vel 1 c' p' = -out.1.vel 1 c p := by
  obtain ⟨n1, n2⟩ := fit2_pos h
  have hK0 : ∀ r, K.upd r (fun _ _ => 0) = 0 := fun r => by rw [hu]; ring
  obtain ⟨r1, r2, r3⟩ := sim2_run h hxr nu hcfl htol hK hK0 time dbl0 conv0 om u hxy
  obtain ⟨s1, s2, s3⟩ := sim2_run h' hxr nu hcfl htol hK hK0 time dbl0' conv0' (fun x y => mirrorSign a.flowType * om x (yr - y))
      ![fun x y => u 0 x (yr - y), fun x y => -u 1 x (yr - y)] hxy'
  have e1 : fieldsFrom2 (xr / a.gx) (fun x y => mirrorSign a.flowType * om x (yr - y)) ![fun x y => u 0 x (yr - y), fun x y => -u 1 x (yr - y)] =
      (mirY2 a.gy (mirrorSign a.flowType)).fields (fieldsFrom2 (xr / a.gx) om u) := by
    have hx : ∀ n : ℤ, yr - ((n : ℝ) + 1 / 2) * (xr / a.gx) = (((a.gy - 1 - n : ℤ) : ℝ) + 1 / 2) * (xr / a.gx) := by
      intro n
      have : (a.gx : ℝ) ≠ 0 := by exact_mod_cast n2
      rw [hyr]
      push_cast
      field_simp
      ring
    unfold Sym2.fields Sym2.scal Sym2.vec mirY2 fieldsFrom2
    simp only
    congr 1
    · funext G
      rw [hx]
    · funext j G
      fin_cases j <;> simp only [Fin.zero_eta, Fin.mk_one, Fin.isValue, Matrix.cons_val_zero, Matrix.cons_val_one, id, hx] <;> ring
  have e : refRun2 a'.flowType ⟨a'.gy, a'.gx, xr, nu, widthOf a'.width, a'.freeStream⟩ K cfl tol (ys.map (mirrorYStep2 a.gy)) (fieldsFrom2 (xr / a'.gx)
      (fun x y => mirrorSign a.flowType * om x (yr - y)) ![fun x y => u 0 x (yr - y), fun x y => -u 1 x (yr - y)], time) =
      ((mirY2 a.gy (mirrorSign a.flowType)).fields (refRun2 a.flowType ⟨a.gy, a.gx, xr, nu, widthOf a.width, a.freeStream⟩ K cfl tol ys (fieldsFrom2 (xr / a.gx) om u, time)).1,
        (refRun2 a.flowType ⟨a.gy, a.gx, xr, nu, widthOf a.width, a.freeStream⟩ K cfl tol ys (fieldsFrom2 (xr / a.gx) om u, time)).2) := by
    rw [hsame]
    simp only
    rw [e1, ← mirY2_step a.gy (mirrorSign a.flowType)]
    refine sym2_run (mirY2_scalar hd ha (mirrorSign_cases _) ⟨a.gy, a.gx, xr, nu, widthOf a.width, a.freeStream⟩) (simCheck2_cart' h.built).2 (fun hf => ?_) cfl tol ys _ time
    rw [show mirrorSign a.flowType = -1 from if_neg hf]
    exact mirY2_flow (P := ⟨a.gy, a.gx, xr, nu, widthOf a.width, a.freeStream⟩) hu hc hw
  rw [e] at s2 s3
  intro out out'
  refine ⟨r1, s1, s2.trans r2.symm, ?_⟩
  intro c p c' p' hc hp hc' hp' hG1 hG2
  obtain ⟨q1, q2⟩ := r3 c p hc hp
  obtain ⟨t1, t2⟩ := s3 c' p' hc' hp'
  have hG : (mirY2 a.gy (mirrorSign a.flowType)).cell (globalIx2 T' ((2 : ℕ) : ℤ) c' p') = globalIx2 T ((2 : ℕ) : ℤ) c p := by
    simp only [mirY2]
    exact Prod.ext (by simp only; omega) hG2
  refine ⟨?_, ?_, ?_⟩
  · rw [t1, q1, ← hG]; rfl
  · rw [t2 0, q2 0, ← hG]
    simp [Sym2.fields, Sym2.vec, mirY2]
  · rw [t2 1, q2 1, ← hG]
    simp [Sym2.fields, Sym2.vec, mirY2]

/-- C94: a simulation with x and y exchanged (grid, fields, free stream, forcing; `x_range` such that the cells have the same size), on any decomposition, is the simulation
with x and y exchanged. -/
theorem sim2_swap_axes {a a' : SimArgs2} (hsame : a' = { a with gy := a.gx, gx := a.gy, py := a'.py, px := a'.px }) (h : Fit2 a T) (h' : Fit2 a' T')
    {xr xr' : ℝ} (hxr : 0 < xr) (hxr' : xr' = xr * (a.gy / a.gx)) (nu : ℝ) {cfl : ℝ} (hcfl : 0 ≤ cfl) {tol : ℝ} (htol : 0 < tol)
    {K : Kern2} (hK : K.Local) (hd : FivePoint K.diff) (ha : OneDim2 K.adv) (hu : CentralRot2 K.upd) (hc : CentralCurl2 K.curl)
    (time : ℝ) (dbl0 dbl0' : World C2 C2 ℝ) (conv0 : Dbl2 T → ℂ) (conv0' : Dbl2 T' → ℂ) (om : ℝ → ℝ → ℝ) (u : Fin 2 → ℝ → ℝ → ℝ) {xs xs' : List StepIn2} {ys : List StepSpec2}
    (hxy : List.Forall₂ (Means2 a.gy a.gx T (simCfg2 a T xr nu cfl)) xs ys)
    (hxy' : List.Forall₂ (Means2 a'.gy a'.gx T' (simCfg2 a' T' xr' nu cfl)) xs' (ys.map swapStep2)) :
    let out := simLoop2 (simCfg2 a T xr nu cfl) K tol xs (initFrom2 T a.g xr time dbl0 conv0 om u)
    let out' := simLoop2 (simCfg2 a' T' xr' nu cfl) K tol xs' (initFrom2 T' a'.g xr' time dbl0' conv0' (fun x y => mirrorSign a.flowType * om y x)
      ![fun x y => u 1 y x, fun x y => u 0 y x])
    out.2 = none ∧ out'.2 = none ∧ out'.1.time = out.1.time ∧
    ∀ c p c' p', Valid2 T c → Inner2 T ((2 : ℕ) : ℤ) p → Valid2 T' c' → Inner2 T' ((2 : ℕ) : ℤ) p' →
      (globalIx2 T' ((2 : ℕ) : ℤ) c' p').1 = (globalIx2 T ((2 : ℕ) : ℤ) c p).2 → (globalIx2 T' ((2 : ℕ) : ℤ) c' p').2 = (globalIx2 T ((2 : ℕ) : ℤ) c p).1 →
      out'.1.prim c' p' = mirrorSign a.flowType * out.1.prim c p ∧ out'.1.vel 0 c' p' = out.1.vel 1 c p ∧ out'.1.vel 1 c' p' = out.1.vel 0 c p := by
  obtain ⟨n1, n2⟩ := fit2_pos h
  have m1 : (0 : ℝ) < a.gy := by exact_mod_cast Nat.pos_of_ne_zero n1
  have m2 : (0 : ℝ) < a.gx := by exact_mod_cast Nat.pos_of_ne_zero n2
  have hK0 : ∀ r, K.upd r (fun _ _ => 0) = 0 := fun r => by rw [hu]; ring
  have hxr1 : 0 < xr' := by rw [hxr']; positivity
  obtain ⟨r1, r2, r3⟩ := sim2_run h hxr nu hcfl htol hK hK0 time dbl0 conv0 om u hxy
  obtain ⟨s1, s2, s3⟩ := sim2_run h' hxr1 nu hcfl htol hK hK0 time dbl0' conv0' (fun x y => mirrorSign a.flowType * om y x)
      ![fun x y => u 1 y x, fun x y => u 0 y x] hxy'
  have e1 : fieldsFrom2 (xr' / a.gy) (fun x y => mirrorSign a.flowType * om y x) ![fun x y => u 1 y x, fun x y => u 0 y x] =
      (swap2 (mirrorSign a.flowType)).fields (fieldsFrom2 (xr / a.gx) om u) := by
    have hx : xr' / a.gy = xr / a.gx := by
      rw [hxr']
      field_simp
    rw [hx]
    unfold Sym2.fields Sym2.scal Sym2.vec swap2 fieldsFrom2
    simp only
    congr 1
    funext j G
    fin_cases j <;> simp
  have e : refRun2 a'.flowType ⟨a'.gy, a'.gx, xr', nu, widthOf a'.width, a'.freeStream⟩ K cfl tol (ys.map swapStep2) (fieldsFrom2 (xr' / a'.gx)
      (fun x y => mirrorSign a.flowType * om y x) ![fun x y => u 1 y x, fun x y => u 0 y x], time) =
      ((swap2 (mirrorSign a.flowType)).fields (refRun2 a.flowType ⟨a.gy, a.gx, xr, nu, widthOf a.width, a.freeStream⟩ K cfl tol ys (fieldsFrom2 (xr / a.gx) om u, time)).1,
        (refRun2 a.flowType ⟨a.gy, a.gx, xr, nu, widthOf a.width, a.freeStream⟩ K cfl tol ys (fieldsFrom2 (xr / a.gx) om u, time)).2) := by
    rw [hsame]
    simp only
    rw [e1, ← swap2_step (mirrorSign a.flowType), hxr']
    refine sym2_run (P := ⟨a.gy, a.gx, xr, nu, widthOf a.width, a.freeStream⟩) (P' := Params2.swap ⟨a.gy, a.gx, xr, nu, widthOf a.width, a.freeStream⟩)
      (swap2_scalar hd ha (mirrorSign_cases _) n1) (simCheck2_cart' h.built).2 (fun hf => ?_) cfl tol ys _ time
    rw [show mirrorSign a.flowType = -1 from if_neg hf]
    exact swap2_flow (P := ⟨a.gy, a.gx, xr, nu, widthOf a.width, a.freeStream⟩) hu hc n1
  rw [e] at s2 s3
  intro out out'
  refine ⟨r1, s1, s2.trans r2.symm, ?_⟩
  intro c p c' p' hc hp hc' hp' hG1 hG2
  obtain ⟨q1, q2⟩ := r3 c p hc hp
  obtain ⟨t1, t2⟩ := s3 c' p' hc' hp'
  have hG : (swap2 (mirrorSign a.flowType)).cell (globalIx2 T' ((2 : ℕ) : ℤ) c' p') = globalIx2 T ((2 : ℕ) : ℤ) c p := by
    simp only [swap2]
    exact Prod.ext hG2 hG1
  refine ⟨?_, ?_, ?_⟩
  · rw [t1, q1, ← hG]; rfl
  · rw [t2 0, q2 1, ← hG]
    simp [Sym2.fields, Sym2.vec, swap2]
  · rw [t2 1, q2 0, ← hG]
    simp [Sym2.fields, Sym2.vec, swap2]

end Ranks

/-! ## Examples -/

/-- the kernels of `Conserve2D` (third order upwind advection) use one scheme along both axes -/
example : OneDim2 exKern2.adv := by
  refine ⟨fun w v => upwind3 ((v 0 + v 1) / 2) (w (-1)) (w 0) (w 1) (w 2) - upwind3 ((v (-1) + v 0) / 2) (w (-2)) (w (-1)) (w 0) (w 1), fun _ _ => rfl, ?_, ?_⟩
  · intro w v
    have hu : ∀ v a b c d : ℝ, upwind3 (-v) d c b a = -upwind3 v a b c d := by
      intro v a b c d
      unfold upwind3
      rcases lt_trichotomy v 0 with h | h | h
      · rw [if_pos (by linarith), if_neg (by linarith)]; ring
      · subst h; simp
      · rw [if_neg (by linarith), if_pos (by linarith)]; ring
    have e1 := hu ((v (-1) + v 0) / 2) (w (-2)) (w (-1)) (w 0) (w 1)
    have e2 := hu ((v 0 + v 1) / 2) (w (-1)) (w 0) (w 1) (w 2)
    simp only [neg_neg, neg_zero]
    rw [show (-v 0 + -v (-1)) / 2 = -((v (-1) + v 0) / 2) by ring, show (-v 1 + -v 0) / 2 = -((v 0 + v 1) / 2) by ring, e1, e2]
    ring
  · intro w v
    have hu : ∀ v a b c d : ℝ, upwind3 v (-a) (-b) (-c) (-d) = -upwind3 v a b c d := by
      intro v a b c d
      unfold upwind3
      split <;> ring
    simp only [hu]
    ring

/-- a scheme that always takes the value on the left prefers a direction -/
example : ¬ ∀ w v : ℤ → ℝ, (fun w v : ℤ → ℝ => v 0 * (w 0 - w (-1))) (fun n => w (-n)) (fun n => -v (-n)) = (fun w v : ℤ → ℝ => v 0 * (w 0 - w (-1))) w v := by
  intro h
  have := h (fun n => n ^ 2) fun _ => 1
  norm_num at this

/-- a grid of 16 × 8 cells on two ranks and its image with the axes exchanged on one -/
example : Fit2 ⟨16, 8, 1, 2, "navier_stokes_with_forcing", true, 2, .int 2⟩ ⟨16, 8, 1, 2, 16, 4, false⟩ ∧
    Fit2 ⟨8, 16, 1, 1, "navier_stokes_with_forcing", true, 2, .int 2⟩ ⟨8, 16, 1, 1, 8, 16, false⟩ := by
  refine ⟨⟨by decide, ⟨by decide, fun _ => ⟨by decide, 2, rfl⟩⟩, rfl, by decide, by decide, by decide, by decide⟩,
    ⟨by decide, ⟨by decide, fun _ => ⟨by decide, 2, rfl⟩⟩, rfl, by decide, by decide, by decide, by decide⟩⟩

/-- the mirror image of a forcing confined to the inside is confined to the inside -/
example (y : StepSpec2) (h : Confined2 16 8 y.Φ) : Confined2 16 8 (mirrorXStep2 8 y).Φ := by
  intro j G hG
  have : ∀ i, y.Φ i (G.1, ((8 : ℕ) : ℤ) - 1 - G.2) = 0 := fun i => h i _ (by unfold Away2 at hG ⊢; simp only at hG ⊢; omega)
  fin_cases j <;> simp only [mirrorXStep2, Fin.zero_eta, Fin.mk_one, Matrix.cons_val_zero, Matrix.cons_val_one, this, neg_zero]

end Sopht
