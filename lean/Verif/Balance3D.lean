import Verif.Interactor3DRun
import Verif.Balance2D

/-! # Momentum and power balance of the interaction with immersed bodies, 3D (C76)

What an interactor puts on the grid is what it exerts on its nodes: in any state a driver can reach, the integral of the forcing field grows by the sum of the nodal
forces, and the power of the forcing on the flow is the power of the nodal forces at the flow velocity of the nodes. -/

namespace Sopht

open Finset

variable {gz gy gx pz py px : ℕ} {T : Cart3} {B : Type} [DecidableEq B]

/-- pairing of a field with what the nodes of a body inside the domain share out -/
theorem share_pairing3 {dx : ℝ} {a : Ib3} {X : LagField ℝ} {k : ℕ} (hin : Inside3 gz gy gx k dx a X) (u : C3 → ℝ) (f : ℕ → ℝ) :
    dx ^ 3 * ∑ G ∈ Ico (0 : ℤ) gz ×ˢ Ico (0 : ℤ) gy ×ˢ Ico (0 : ℤ) gx,
      ((List.range a.N).map fun i => share3n dx (a.sh dx) 2 (cosW3 dx) G ((X 0 i, X 1 i, X 2 i), f i)).sum * u G =
      nodeTotal a.N fun i => f i * interp3 dx (a.sh dx) 2 (cosW3 dx) u (X 0 i, X 1 i, X 2 i) := by
  have e : ∀ G, ((List.range a.N).map fun i => share3n dx (a.sh dx) 2 (cosW3 dx) G ((X 0 i, X 1 i, X 2 i), f i)).sum * u G =
      ∑ i ∈ range a.N, share3n dx (a.sh dx) 2 (cosW3 dx) G ((X 0 i, X 1 i, X 2 i), f i) * u G := by
    intro G
    rw [sum_list_range, sum_mul]
  rw [sum_congr rfl fun G _ => e G, sum_comm, mul_sum]
  unfold nodeTotal
  apply sum_congr rfl
  intro i hi
  rw [mem_range] at hi
  have hsub : window3 dx (a.sh dx) 2 (X 0 i, X 1 i, X 2 i) ⊆ Ico (0 : ℤ) gz ×ˢ Ico (0 : ℤ) gy ×ˢ Ico (0 : ℤ) gx := by
    intro G hG
    have hA := hin i hi G hG
    unfold Away3 at hA
    rw [mem_product, mem_product, mem_Ico, mem_Ico, mem_Ico]
    omega
  unfold interp3
  dsimp only
  rw [mul_sum, mul_sum, ← sum_subset hsub]
  · apply sum_congr rfl
    intro G hG
    unfold share3n
    rw [if_pos hG]; ring
  · intro G _ hG
    unfold share3n
    rw [if_neg hG]; ring

theorem interp3_one {dx : ℝ} (hdx : 0 < dx) (shift : ℝ) (x : ℝ × ℝ × ℝ) : interp3 dx shift 2 (cosW3 dx) (fun _ => 1) x = 1 := by
  unfold interp3
  simp only [one_mul]
  exact cosine_sum3 hdx shift x

theorem innerTotal3_eq {g : ℕ} (hT : mkCart3 gz gy gx pz py px false = .ok T) {A : C3 → C3 → ℝ} {f : C3 → ℝ}
    (h : ∀ c p, Valid3 T c → Inner3 T (g : ℤ) p → A c p = f (globalIx3 T (g : ℤ) c p)) :
    innerTotal3 T g A = ∑ G ∈ Ico (0 : ℤ) gz ×ˢ Ico (0 : ℤ) gy ×ˢ Ico (0 : ℤ) gx, f G := by
  rw [← sum_blocks3 hT g f]
  unfold innerTotal3
  apply sum_congr rfl; intro c hc
  apply sum_congr rfl; intro p hp
  exact h c p (mem_rankSet3.1 hc) (mem_innerSet3.1 hp)

variable [NeZero T.gz] [NeZero T.gy] [NeZero T.gx]

/-- C76: constructor, any driver program and any message schedules, then one more call of an interactor whose body is inside the domain.  The integral of the forcing
field (cell volume times the sum over the inner cells of all ranks) is that of before, or zero if the interactor resets the field, plus the sum of the forces the
master holds; the power of the forcing (forcing times velocity) is that of before, or zero, plus the sum over the nodes of force times flow velocity, which is the
velocity `U` of the node plus the velocity mismatch `V` the ranks hold. -/
theorem interact3_balance {a : SimArgs3} {xr : ℝ} (hxr : 0 < xr) {nu cfl : ℝ} (hnu : 0 ≤ nu) (hcfl : 0 ≤ cfl) {tol : ℝ} (htol : 0 < tol) {K : Kern3} (hK : K.Local)
    (hKd : ∀ a, CrossLocal3 1 (K.div a)) (hK0 : ∀ r, K.upd r (fun _ _ => 0) = 0) {A : B → Ib3} {X0 : B → LagField ℝ} {t0 : B → ℝ} {time : ℝ} {sc : ℝ → ℝ → ℝ → ℝ} {om u : Fin 3 → ℝ → ℝ → ℝ → ℝ}
    {S0 : CSt3 T B} (h : Setup3 a xr A X0 t0 time sc om u S0) {o : ℕ → CScheds3} (ho : ∀ n, (o n).Done T a.g) (p : Prog3 B)
    (hp : Proper3 (a.pars xr nu) K cfl tol A p (refStart3 (xr / a.gx) X0 t0 time sc om u))
    (ht : Tracked3 T (a.pars xr nu) K cfl tol A p (refStart3 (xr / a.gx) X0 t0 time sc om u))
    (b : B) (X U : LagField ℝ) {s : List Ev} (hs : Complete (multiMsgs3 T a.g true ([0, 1, 2] : List (Fin 3))) s)
    (hauto : (A b).auto = true ∨ (cRef3 (a.pars xr nu) K cfl tol A p (refStart3 (xr / a.gx) X0 t0 time sc om u)).fresh = true)
    (hin : Inside3 a.gz a.gy a.gx 0 (xr / a.gx) (A b) X)
    (hn : Noticed3 T (xr / a.gx) (A b) ((cRef3 (a.pars xr nu) K cfl tol A p
      (refStart3 (xr / a.gx) X0 t0 time sc om u)).lastX b) X) :
    let dx := xr / a.gx
    let S := (cRun3 (simCfg3 a xr nu cfl) K tol A o p 0 S0).1
    ∃ sim ib, fullInteract3 (simCfg3 a xr nu cfl) (A b) s X U S.sim (S.ib b) = .ok (sim, ib) ∧
      (∀ k : Fin 3, dx ^ 3 * innerTotal3 T a.g (sim.forcing k) =
        (if (A b).reset then 0 else dx ^ 3 * innerTotal3 T a.g (S.sim.forcing k)) + nodeTotal (A b).N fun i => ib.v.gforce k i) ∧
      ∃ V : LagField ℝ, (∀ k < 3, ∀ (r : C3) (j i : ℕ), (whereEq ib.v.addr r)[j]? = some i → ib.v.velM r k j = V k i) ∧
        ∀ k : Fin 3, dx ^ 3 * innerTotal3 T a.g (fun c q => sim.forcing k c q * sim.vel k c q) =
          (if (A b).reset then 0 else dx ^ 3 * innerTotal3 T a.g (fun c q => S.sim.forcing k c q * S.sim.vel k c q)) +
            nodeTotal (A b).N fun i => ib.v.gforce k i * (U k i + V k i) := by
  obtain ⟨hT, -⟩ := simCheck3_cart h.fit.built
  obtain ⟨e0, e1, e2, -⟩ := construct3_ok hT
  obtain ⟨-, hS, hA⟩ := coupled3_holds hxr hnu hcfl htol hK hKd hK0 h ho p hp ht
  have hns : isNS a.flowType = true := by rw [h.flowType]; rfl
  have hgood := h.fit.good xr nu cfl hns
  have hdx' : simDx3 T xr = xr / a.gx := by unfold simDx3; rw [e2]
  have hgx0 : T.gx ≠ 0 := NeZero.ne _
  have hdx : 0 < xr / (a.gx : ℝ) := div_pos hxr (by rw [← e2]; exact_mod_cast Nat.pos_of_ne_zero hgx0)
  have hfull : (simCfg3 a xr nu cfl).full = true := by unfold Cfg3.full; change decide (a.flowType = _) = true; rw [h.flowType]; simp
  have hnz := hgood.nz
  have hny := hgood.ny
  have hnx := hgood.nx
  intro dx S
  set R := cRef3 (a.pars xr nu) K cfl tol A p (refStart3 (xr / a.gx) X0 t0 time sc om u) with hR
  obtain ⟨vel, f, ib, hrun, hu, -, hb, hΦ⟩ := fullInteract3_holds hT (C := simCfg3 a xr nu cfl) (g := a.g) rfl (hA b).2 hfull hgood.gz hgood.gy hgood.gx hdx hdx' (hA b).1 hs
    hS.sim.u (hauto.imp_right hS.fresh) hin (U := U) hn (hS.ib b) hS.force
  have hI := hS.sim.u
  have hvin : ∀ k c q, Valid3 T c → Inner3 T (a.g : ℤ) q → vel k c q = R.F.u k (globalIx3 T (a.g : ℤ) c q) := fun k c q hc hq =>
    hu k c q hc (inArr_of_inner3 hq) (Or.inl hq)
  have hvin0 : ∀ k c q, Valid3 T c → Inner3 T (a.g : ℤ) q → S.sim.vel k c q = R.F.u k (globalIx3 T (a.g : ℤ) c q) := fun k c q hc hq =>
    hI k c q hc (inArr_of_inner3 hq) (Or.inl hq)
  have hforce : ∀ k : Fin 3, ∀ i < (A b).N, ib.v.gforce k i = (refLag3 dx (A b) R.F.u X U (R.hist b)).F k i := fun k i hi => hb.stores.force k.1 k.2 i hi
  -- pairing of the new forcing with any field
  have pair : ∀ (k : Fin 3) (w : C3 → ℝ),
      dx ^ 3 * ∑ G ∈ Ico (0 : ℤ) a.gz ×ˢ Ico (0 : ℤ) a.gy ×ˢ Ico (0 : ℤ) a.gx, refSpread3 dx (A b) X (refLag3 dx (A b) R.F.u X U (R.hist b)).F R.Φ k G * w G =
        (if (A b).reset then 0 else dx ^ 3 * ∑ G ∈ Ico (0 : ℤ) a.gz ×ˢ Ico (0 : ℤ) a.gy ×ˢ Ico (0 : ℤ) a.gx, R.Φ k G * w G) +
          nodeTotal (A b).N fun i => ib.v.gforce k i * interp3 dx ((A b).sh dx) 2 (cosW3 dx) w (X 0 i, X 1 i, X 2 i) := by
    intro k w
    unfold refSpread3
    simp only [add_mul, sum_add_distrib, mul_add]
    rw [share_pairing3 hin]
    congr 1
    · split
      · simp
      · rfl
    · unfold nodeTotal
      apply sum_congr rfl
      intro i hi
      dsimp only
      rw [hforce k i (mem_range.1 hi)]
  refine ⟨_, ib, hrun, ?_, mismatch3 dx (A b) R.F.u X U, fun k hk r j i hij => hb.stores.vel k hk r j i hij, ?_⟩
  · intro k
    have p1 := pair k fun _ => 1
    have hone : ∀ x, interp3 dx ((A b).sh dx) 2 (cosW3 dx) (fun _ => 1) x = 1 := interp3_one hdx _
    simp only [mul_one, hone] at p1
    rw [innerTotal3_eq hT fun c q hc hq => (hΦ k c q hc).1 hq, innerTotal3_eq (g := a.g) hT fun c q hc hq => (hS.force k c q hc).1 hq]
    exact p1
  · intro k
    have p1 := pair k (R.F.u k)
    rw [innerTotal3_eq (g := a.g) hT (A := fun c q => f k c q * vel k c q)
      (f := fun G => refSpread3 dx (A b) X (refLag3 dx (A b) R.F.u X U (R.hist b)).F R.Φ k G * R.F.u k G)
      fun c q hc hq => congrArg₂ (· * ·) ((hΦ k c q hc).1 hq) (hvin k c q hc hq),
      innerTotal3_eq (g := a.g) hT (A := fun c q => S.sim.forcing k c q * S.sim.vel k c q) (f := fun G => R.Φ k G * R.F.u k G)
      fun c q hc hq => congrArg₂ (· * ·) ((hS.force k c q hc).1 hq) (hvin0 k c q hc hq)]
    refine p1.trans ?_
    congr 1
    unfold nodeTotal
    apply sum_congr rfl
    intro i _
    unfold mismatch3
    rw [axis3_coe]
    ring

/-- One rank, two nodes, one call after the driver of `exProg3`: the hypotheses about the body are met by a body that stays where it is. -/
example (P : Params3) (hP : P.gz = 8 ∧ P.gy = 16 ∧ P.gx = 8 ∧ P.dx = 1) (K : Kern3) (cfl tol : ℝ) (T : Cart3) (r : RefC3 Unit) (hr : r.lastX = fun _ => exPos3) :
    exBody3.auto = true ∧ Inside3 8 16 8 0 1 exBody3 exPos3 ∧ Noticed3 T 1 exBody3 ((cRef3 P K cfl tol (fun _ => exBody3) exProg3 r).lastX ()) exPos3 := by
  refine ⟨rfl, ?_, ?_⟩
  · intro i hI G hG
    have := exBody3_inside i hI G hG
    unfold Away3 at this ⊢
    push_cast at this ⊢; omega
  · have : (cRef3 P K cfl tol (fun _ => exBody3) exProg3 r).lastX () = exPos3 := by
      unfold exProg3
      simp [cRef3, refFull3, refForces3]
    rw [this]
    intro l l' h1 h2
    rw [h1] at h2
    exact Or.inl (Except.ok.inj h2).symm

end Sopht
