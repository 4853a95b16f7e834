import Verif.Interactor2DRun
import Verif.WeightsProps

/-! # Momentum and power balance of the interaction with immersed bodies, 2D (C76)

What an interactor puts on the grid is what it exerts on its nodes: in any state a driver can reach, the integral of the forcing field grows by the sum of the nodal
forces, and the power of the forcing on the flow is the power of the nodal forces at the flow velocity of the nodes. -/

namespace Sopht

open Finset

variable {gy gx py px : ℕ} {T : Cart2} {B : Type} [DecidableEq B]

/-- Sum of `f` over the nodes of a body. -/
def nodeTotal (N : ℕ) (f : ℕ → ℝ) : ℝ := ∑ i ∈ range N, f i

theorem sum_list_range (N : ℕ) (f : ℕ → ℝ) : ((List.range N).map f).sum = ∑ i ∈ range N, f i := by
  induction N with
  | zero => simp
  | succ n ih => rw [List.range_succ, List.map_append, List.sum_append, ih, sum_range_succ]; simp

/-- pairing of a field with what the nodes of a body inside the domain share out -/
theorem share_pairing2 {dx : ℝ} {a : Ib2} {X : LagField ℝ} {k : ℕ} (hin : Inside2 gy gx k dx a X) (u : C2 → ℝ) (f : ℕ → ℝ) :
    dx ^ 2 * ∑ G ∈ Ico (0 : ℤ) gy ×ˢ Ico (0 : ℤ) gx,
      ((List.range a.N).map fun i => share2n dx (a.sh dx) 2 (cosW2 dx) G ((X 0 i, X 1 i), f i)).sum * u G =
      nodeTotal a.N fun i => f i * interp2 dx (a.sh dx) 2 (cosW2 dx) u (X 0 i, X 1 i) := by
  have e : ∀ G, ((List.range a.N).map fun i => share2n dx (a.sh dx) 2 (cosW2 dx) G ((X 0 i, X 1 i), f i)).sum * u G =
      ∑ i ∈ range a.N, share2n dx (a.sh dx) 2 (cosW2 dx) G ((X 0 i, X 1 i), f i) * u G := by
    intro G
    rw [sum_list_range, sum_mul]
  rw [sum_congr rfl fun G _ => e G, sum_comm, mul_sum]
  unfold nodeTotal
  apply sum_congr rfl
  intro i hi
  rw [mem_range] at hi
  have hsub : window2 dx (a.sh dx) 2 (X 0 i, X 1 i) ⊆ Ico (0 : ℤ) gy ×ˢ Ico (0 : ℤ) gx := by
    intro G hG
    obtain ⟨a1, a2, a3, a4⟩ := hin i hi G hG
    rw [mem_product, mem_Ico, mem_Ico]
    omega
  unfold interp2
  dsimp only
  rw [mul_sum, mul_sum, ← sum_subset hsub]
  · apply sum_congr rfl
    intro G hG
    unfold share2n
    rw [if_pos hG]; ring
  · intro G _ hG
    unfold share2n
    rw [if_neg hG]; ring

theorem interp2_one {dx : ℝ} (hdx : 0 < dx) (shift : ℝ) (x : ℝ × ℝ) : interp2 dx shift 2 (cosW2 dx) (fun _ => 1) x = 1 := by
  unfold interp2
  simp only [one_mul]
  exact cosine_sum2 hdx shift x

theorem innerTotal2_eq (hT : mkCart2 gy gx py px false = .ok T) {A : C2 → C2 → ℝ} {f : C2 → ℝ}
    (h : ∀ c p, Valid2 T c → Inner2 T ((2 : ℕ) : ℤ) p → A c p = f (globalIx2 T ((2 : ℕ) : ℤ) c p)) :
    innerTotal2 T 2 A = ∑ G ∈ Ico (0 : ℤ) gy ×ˢ Ico (0 : ℤ) gx, f G := by
  rw [← sum_blocks2 hT 2 f]
  unfold innerTotal2
  apply sum_congr rfl; intro c hc
  apply sum_congr rfl; intro p hp
  exact h c p (mem_rankSet2.1 hc) (mem_innerSet2.1 hp)

variable [NeZero T.gy] [NeZero T.gx]

/-- C76: constructor, any driver program and any message schedules, then one more call of an interactor whose body is inside the domain.  The integral of the forcing
field (cell area times the sum over the inner cells of all ranks) is that of before, or zero if the interactor resets the field, plus the sum of the forces the
master holds; the power of the forcing (forcing times velocity) is that of before, or zero, plus the sum over the nodes of force times flow velocity, which is the
velocity `U` of the node plus the velocity mismatch `V` the ranks hold. -/
theorem interact2_balance {a : SimArgs2} {xr : ℝ} (hxr : 0 < xr) {nu cfl : ℝ} (hcfl : 0 ≤ cfl) {tol : ℝ} (htol : 0 < tol) {K : Kern2} (hK : K.Local)
    (hK0 : ∀ r, K.upd r (fun _ _ => 0) = 0) {A : B → Ib2} {X0 : B → LagField ℝ} {t0 : B → ℝ} {time : ℝ} {om : ℝ → ℝ → ℝ} {u : Fin 2 → ℝ → ℝ → ℝ}
    {S0 : CSt2 T B} (h : Setup2 a xr nu cfl A X0 t0 time om u S0) {o : ℕ → CScheds2} (ho : ∀ n, (o n).Done T (simCfg2 a T xr nu cfl).d) (p : Prog2 B)
    (hp : Proper2 ⟨a.gy, a.gx, xr, nu, widthOf a.width, a.freeStream⟩ K cfl tol A p (refStart2 (xr / a.gx) X0 t0 time om u))
    (ht : Tracked2 T ⟨a.gy, a.gx, xr, nu, widthOf a.width, a.freeStream⟩ K cfl tol A p (refStart2 (xr / a.gx) X0 t0 time om u))
    (b : B) (X U : LagField ℝ) {s : List Ev} (hs : Complete (multiMsgs2 T 2 false ([0, 1] : List (Fin 2))) s) 
    (hauto : (A b).auto = true ∨ (cRef2 ⟨a.gy, a.gx, xr, nu, widthOf a.width, a.freeStream⟩ K cfl tol A p (refStart2 (xr / a.gx) X0 t0 time om u)).fresh = true)
    (hin : Inside2 a.gy a.gx 0 (xr / a.gx) (A b) X)
    (hn : Noticed2 T (xr / a.gx) (A b) ((cRef2 ⟨a.gy, a.gx, xr, nu, widthOf a.width, a.freeStream⟩ K cfl tol A p
      (refStart2 (xr / a.gx) X0 t0 time om u)).lastX b) X) :
    let dx := xr / a.gx
    let S := (cRun2 (simCfg2 a T xr nu cfl) K tol A o p 0 S0).1
    ∃ sim ib, fullInteract2 (simCfg2 a T xr nu cfl) (A b) s X U S.sim (S.ib b) = .ok (sim, ib) ∧
      (∀ k : Fin 2, dx ^ 2 * innerTotal2 T 2 (sim.forcing k) =
        (if (A b).reset then 0 else dx ^ 2 * innerTotal2 T 2 (S.sim.forcing k)) + nodeTotal (A b).N fun i => ib.v.gforce k i) ∧
      ∃ V : LagField ℝ, (∀ k < 2, ∀ (r : C2) (j i : ℕ), (whereEq ib.v.addr r)[j]? = some i → ib.v.velM r k j = V k i) ∧
        ∀ k : Fin 2, dx ^ 2 * innerTotal2 T 2 (fun c q => sim.forcing k c q * sim.vel k c q) =
          (if (A b).reset then 0 else dx ^ 2 * innerTotal2 T 2 (fun c q => S.sim.forcing k c q * S.sim.vel k c q)) +
            nodeTotal (A b).N fun i => ib.v.gforce k i * (U k i + V k i) := by
  obtain ⟨hT, -⟩ := simCheck2_cart' h.fit.built
  obtain ⟨e1, e2, -⟩ := construct2_ok hT
  obtain ⟨-, hS, hA⟩ := coupled2_holds hxr hcfl htol hK hK0 h ho p hp ht
  obtain ⟨gn, hd⟩ := h.fit.dbl xr nu cfl (by change a.flowType ≠ _; rw [h.flowType]; simp)
  have hslab : T.py = 1 ∨ T.px = 1 := by
    rcases doublingInit2_ok hd with ⟨-, h⟩ | ⟨-, h⟩
    · exact Or.inr h
    · exact Or.inl h
  have hdx' : simDx2 T xr = xr / a.gx := by unfold simDx2; rw [e2]
  have hgx0 : T.gx ≠ 0 := NeZero.ne _
  have hdx : 0 < xr / (a.gx : ℝ) := div_pos hxr (by rw [← e2]; exact_mod_cast Nat.pos_of_ne_zero hgx0)
  have hny := h.fit.ny
  have hnx := h.fit.nx
  intro dx S
  set R := cRef2 ⟨a.gy, a.gx, xr, nu, widthOf a.width, a.freeStream⟩ K cfl tol A p (refStart2 (xr / a.gx) X0 t0 time om u) with hR
  obtain ⟨vel, f, ib, hrun, hu, -, hb, hΦ⟩ := fullInteract2_holds hT (C := simCfg2 a T xr nu cfl) h.fit.g (by omega) (by omega) hslab hdx hdx' (hA b) hs
    hS.sim.u (hauto.imp_right hS.fresh) hin (U := U) hn (hS.ib b) hS.force
  have hI := hS.sim.u
  have hvin : ∀ k c q, Valid2 T c → Inner2 T ((2 : ℕ) : ℤ) q → vel k c q = R.F.u k (globalIx2 T ((2 : ℕ) : ℤ) c q) := fun k c q hc hq =>
    hu k c q hc (inArr_of_inner2 hq) (Or.inl hq)
  have hvin0 : ∀ k c q, Valid2 T c → Inner2 T ((2 : ℕ) : ℤ) q → S.sim.vel k c q = R.F.u k (globalIx2 T ((2 : ℕ) : ℤ) c q) := fun k c q hc hq =>
    hI k c q hc (inArr_of_inner2 hq) (Or.inl hq)
  have hforce : ∀ k : Fin 2, ∀ i < (A b).N, ib.v.gforce k i = (refLag2 dx (A b) R.F.u X U (R.hist b)).F k i := fun k i hi => hb.stores.force k.1 k.2 i hi
  -- pairing of the new forcing with any field
  have pair : ∀ (k : Fin 2) (w : C2 → ℝ),
      dx ^ 2 * ∑ G ∈ Ico (0 : ℤ) a.gy ×ˢ Ico (0 : ℤ) a.gx, refSpread2 dx (A b) X (refLag2 dx (A b) R.F.u X U (R.hist b)).F R.Φ k G * w G =
        (if (A b).reset then 0 else dx ^ 2 * ∑ G ∈ Ico (0 : ℤ) a.gy ×ˢ Ico (0 : ℤ) a.gx, R.Φ k G * w G) +
          nodeTotal (A b).N fun i => ib.v.gforce k i * interp2 dx ((A b).sh dx) 2 (cosW2 dx) w (X 0 i, X 1 i) := by
    intro k w
    unfold refSpread2
    simp only [add_mul, sum_add_distrib, mul_add]
    rw [share_pairing2 hin]
    congr 1
    · split
      · simp
      · rfl
    · unfold nodeTotal
      apply sum_congr rfl
      intro i hi
      dsimp only
      rw [hforce k i (mem_range.1 hi)]
  refine ⟨_, ib, hrun, ?_, mismatch2 dx (A b) R.F.u X U, fun k hk r j i hij => hb.stores.vel k hk r j i hij, ?_⟩
  · intro k
    have p1 := pair k fun _ => 1
    have hone : ∀ x, interp2 dx ((A b).sh dx) 2 (cosW2 dx) (fun _ => 1) x = 1 := interp2_one hdx _
    simp only [mul_one, hone] at p1
    rw [innerTotal2_eq hT fun c q hc hq => (hΦ k c q hc).1 hq, innerTotal2_eq hT fun c q hc hq => (hS.force k c q hc).1 hq]
    exact p1
  · intro k
    have p1 := pair k (R.F.u k)
    rw [innerTotal2_eq hT (A := fun c q => f k c q * vel k c q)
      (f := fun G => refSpread2 dx (A b) X (refLag2 dx (A b) R.F.u X U (R.hist b)).F R.Φ k G * R.F.u k G)
      fun c q hc hq => congrArg₂ (· * ·) ((hΦ k c q hc).1 hq) (hvin k c q hc hq),
      innerTotal2_eq hT (A := fun c q => S.sim.forcing k c q * S.sim.vel k c q) (f := fun G => R.Φ k G * R.F.u k G)
      fun c q hc hq => congrArg₂ (· * ·) ((hS.force k c q hc).1 hq) (hvin0 k c q hc hq)]
    refine p1.trans ?_
    congr 1
    unfold nodeTotal
    apply sum_congr rfl
    intro i _
    unfold mismatch2
    rw [comp2_coe]
    ring

/-- One rank, two nodes, one call after the driver of `exProg2`: the hypotheses about the body are met by a body that stays where it is. -/
example (P : Params2) (hP : P.gy = 16 ∧ P.gx = 8 ∧ P.dx = 1) (K : Kern2) (cfl tol : ℝ) (T : Cart2) (r : RefC2 Unit) (hr : r.lastX = fun _ => exPos2) :
    exBody2.auto = true ∧ Inside2 16 8 0 1 exBody2 exPos2 ∧ Noticed2 T 1 exBody2 ((cRef2 P K cfl tol (fun _ => exBody2) exProg2 r).lastX ()) exPos2 := by
  refine ⟨rfl, ?_, ?_⟩
  · intro i hI G hG
    have := exBody2_inside i hI G hG
    unfold Away2 at this ⊢
    push_cast at this ⊢; omega
  · have : (cRef2 P K cfl tol (fun _ => exBody2) exProg2 r).lastX () = exPos2 := by
      unfold exProg2
      simp [cRef2, refFull2, refForces2]
    rw [this]
    intro l l' h1 h2
    rw [h1] at h2
    exact Or.inl (Except.ok.inj h2).symm

end Sopht
