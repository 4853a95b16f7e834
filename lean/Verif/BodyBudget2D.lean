import Verif.Interactor2DRun
import Verif.Conserve2D

/-!
# Circulation and divergence with immersed bodies, 2D (C111)

`Conserve2D` treats flows whose forcing field is given. Here the forcing comes from immersed bodies: any driver program (`Prog2`) that lets bodies interact with the flow
(immersed_body_flow_interaction_mpi.py:114-180), asks for stable time steps, and advances bodies and flow.
-/

namespace Sopht
open Finset

variable {B : Type} [DecidableEq B]

/-! ## What the theorems speak about -/

/-- Number of calls of `flow_sim.time_step` along a run of the driver. -/
noncomputable def flowSteps2 (P : Params2) (K : Kern2) (cfl tol : ℝ) (A : B → Ib2) : Prog2 B → RefC2 B → ℕ
  | .stop, _ => 0
  | .interact b X U k, r => flowSteps2 P K cfl tol A k (refFull2 P.dx (A b) b X U r)
  | .forces b X U k, r => flowSteps2 P K cfl tol A (k (refForceField (A b).N (refLag2 P.dx (A b) r.F.u X U (r.hist b)))) (refForces2 P.dx (A b) b X U r)
  | .advance b dt k, r => flowSteps2 P K cfl tol A k
      { r with hist := Function.update r.hist b { r.hist b with P := fun k i => (r.hist b).P k i + dt * (r.hist b).V k i, t := (r.hist b).t + dt } }
  | .flow dt fs k, r => 1 + flowSteps2 P K cfl tol A k
      { r with F := refForcing2 P K dt fs r.Φ r.F, Φ := fun _ _ => 0, time := r.time + dt, fresh := false }
  | .stableDt pre k, r => flowSteps2 P K cfl tol A (k (refDt2 P cfl tol r.F (.stable pre))) r
  | .deviation b k, r => flowSteps2 P K cfl tol A (k (refDeviation 2 (A b).N (r.hist b))) r
  | .maxVort k, r => flowSteps2 P K cfl tol A (k (sSup {x | ∃ G, Dom2 P.gy P.gx G ∧ x = r.F.om G})) r
  | .ghost k, r => flowSteps2 P K cfl tol A k { r with fresh := true }
  | .out x k, r => flowSteps2 P K cfl tol A k { r with log := r.log ++ [x] }

/-- Along a run of the driver, whenever a body forces the flow, all cells around its nodes are at least `m` cells away from the sides. -/
def Apart2 (P : Params2) (K : Kern2) (cfl tol : ℝ) (A : B → Ib2) (m : ℕ) : Prog2 B → RefC2 B → Prop
  | .stop, _ => True
  | .interact b X U k, r => Inside2 P.gy P.gx m P.dx (A b) X ∧ Apart2 P K cfl tol A m k (refFull2 P.dx (A b) b X U r)
  | .forces b X U k, r => Apart2 P K cfl tol A m (k (refForceField (A b).N (refLag2 P.dx (A b) r.F.u X U (r.hist b)))) (refForces2 P.dx (A b) b X U r)
  | .advance b dt k, r => Apart2 P K cfl tol A m k
      { r with hist := Function.update r.hist b { r.hist b with P := fun k i => (r.hist b).P k i + dt * (r.hist b).V k i, t := (r.hist b).t + dt } }
  | .flow dt fs k, r => Apart2 P K cfl tol A m k
      { r with F := refForcing2 P K dt fs r.Φ r.F, Φ := fun _ _ => 0, time := r.time + dt, fresh := false }
  | .stableDt pre k, r => Apart2 P K cfl tol A m (k (refDt2 P cfl tol r.F (.stable pre))) r
  | .deviation b k, r => Apart2 P K cfl tol A m (k (refDeviation 2 (A b).N (r.hist b))) r
  | .maxVort k, r => Apart2 P K cfl tol A m (k (sSup {x | ∃ G, Dom2 P.gy P.gx G ∧ x = r.F.om G})) r
  | .ghost k, r => Apart2 P K cfl tol A m k { r with fresh := true }
  | .out x k, r => Apart2 P K cfl tol A m k { r with log := r.log ++ [x] }

/-! ## On the global grid -/

/-- Forces spread from nodes stay near the nodes. -/
theorem spread2_within {gy gx m : ℕ} {dx : ℝ} {a : Ib2} {X : LagField ℝ} (h : Inside2 gy gx m dx a X) (f : LagField ℝ) {Φ : Fin 2 → C2 → ℝ}
    (hΦ : ∀ j, Within2 gy gx m (Φ j)) (j : Fin 2) : Within2 gy gx m (refSpread2 dx a X f Φ j) := by
  intro G hG
  unfold refSpread2
  have e : ((List.range a.N).map fun i => share2n dx (a.sh dx) 2 (cosW2 dx) G ((X 0 i, X 1 i), f j.1 i)).sum = 0 := by
    apply List.sum_eq_zero
    intro x hx
    obtain ⟨i, hi, rfl⟩ := List.mem_map.1 hx
    unfold share2n
    rw [if_neg]
    exact fun hw => hG (h i (List.mem_range.1 hi) G hw)
  rw [e, hΦ j G hG, ite_self, add_zero]

/-- Any driver program. -/
theorem cRef2_total {P : Params2} {K : Kern2} (hd : FivePoint K.diff) (ha : FluxForm2 K.adv) (hu : CentralRot2 K.upd) (cfl tol : ℝ) (A : B → Ib2) (m : ℕ) (p : Prog2 B) :
    ∀ r : RefC2 B, Apart2 P K cfl tol A m p r → max P.w 1 + 3 * flowSteps2 P K cfl tol A p r + 1 ≤ m → (∀ j, Within2 P.gy P.gx m (r.Φ j)) →
      Within2 P.gy P.gx (max P.w 1 + 3 * flowSteps2 P K cfl tol A p r) r.F.om →
      total2 P.gy P.gx (cRef2 P K cfl tol A p r).F.om = total2 P.gy P.gx r.F.om := by
  induction p with
  | stop => intro r _ _ _ _; rfl
  | interact b X U k ih => intro r h hm hΦ hom; exact ih _ h.2 hm (spread2_within h.1 _ hΦ) hom
  | forces b X U k ih => intro r h hm hΦ hom; exact ih _ _ h hm hΦ hom
  | advance b dt k ih => intro r h hm hΦ hom; exact ih _ h hm hΦ hom
  | flow dt fs k ih =>
    intro r h hm hΦ hom
    rw [flowSteps2] at hm hom
    obtain ⟨s1, s2⟩ := step2_total (P := P) hd ha hu "navier_stokes_with_forcing" (k := max P.w 1 + 3 * flowSteps2 P K cfl tol A k
      { r with F := refForcing2 P K dt fs r.Φ r.F, Φ := fun _ _ => 0, time := r.time + dt, fresh := false }) (by omega) (by omega) dt fs
      (fun j => (hΦ j).mono (by omega)) (hom.mono (by omega))
    exact (ih _ h (by omega) (fun _ _ _ => rfl) s1).trans s2
  | stableDt pre k ih => intro r h hm hΦ hom; exact ih _ _ h hm hΦ hom
  | deviation b k ih => intro r h hm hΦ hom; exact ih _ _ h hm hΦ hom
  | maxVort k ih => intro r h hm hΦ hom; exact ih _ _ h hm hΦ hom
  | ghost k ih => intro r h hm hΦ hom; exact ih _ h hm hΦ hom
  | out x k ih => intro r h hm hΦ hom; exact ih _ h hm hΦ hom

/-- After the last flow step the velocity is a curl plus the free stream. -/
theorem cRef2_velocity {P : Params2} {K : Kern2} (cfl tol : ℝ) (A : B → Ib2) (p : Prog2 B) :
    ∀ r : RefC2 B, (0 < flowSteps2 P K cfl tol A p r ∨ ∃ om fs, r.F.u = refFree2 P fs ![fun G => (refVel2 P K om G).1, fun G => (refVel2 P K om G).2]) →
      ∃ om fs, (cRef2 P K cfl tol A p r).F.u = refFree2 P fs ![fun G => (refVel2 P K om G).1, fun G => (refVel2 P K om G).2] := by
  induction p with
  | stop => intro r h; exact h.resolve_left (by simp [flowSteps2])
  | interact b X U k ih => intro r h; exact ih _ h
  | forces b X U k ih => intro r h; exact ih _ _ h
  | advance b dt k ih => intro r h; exact ih _ h
  | flow dt fs k ih => intro r _; exact ih _ (Or.inr ⟨_, _, rfl⟩)
  | stableDt pre k ih => intro r h; exact ih _ _ h
  | deviation b k ih => intro r h; exact ih _ _ h
  | maxVort k ih => intro r h; exact ih _ _ h
  | ghost k ih => intro r h; exact ih _ h
  | out x k ih => intro r h; exact ih _ h

/-! ## On any number of ranks -/

section Ranks
variable {T : Cart2} [NeZero T.gy] [NeZero T.gx]

/-- **C111 (2D)** Immersed bodies of any number, shape, motion and stiffness create no net circulation: whatever the driver does, the sum of the vorticity over the inner cells of
all ranks does not change, as long as bodies and vorticity are so far from the sides that nothing can have reached them (three cells per flow step) or the penalty zone. -/
theorem circulation_bodies2 {a : SimArgs2} {xr : ℝ} (hxr : 0 < xr) {nu cfl : ℝ} (hcfl : 0 ≤ cfl) {tol : ℝ} (htol : 0 < tol) {K : Kern2} (hK : K.Local)
    (hd : FivePoint K.diff) (ha : FluxForm2 K.adv) (hu : CentralRot2 K.upd) {A : B → Ib2} {X0 : B → LagField ℝ} {t0 : B → ℝ} {time : ℝ} {om : ℝ → ℝ → ℝ}
    {u : Fin 2 → ℝ → ℝ → ℝ} {S : CSt2 T B} (h : Setup2 a xr nu cfl A X0 t0 time om u S) {o : ℕ → CScheds2} (ho : ∀ n, (o n).Done T (simCfg2 a T xr nu cfl).d) (p : Prog2 B)
    (hp : Proper2 ⟨a.gy, a.gx, xr, nu, widthOf a.width, a.freeStream⟩ K cfl tol A p (refStart2 (xr / a.gx) X0 t0 time om u))
    (ht : Tracked2 T ⟨a.gy, a.gx, xr, nu, widthOf a.width, a.freeStream⟩ K cfl tol A p (refStart2 (xr / a.gx) X0 t0 time om u)) {n : ℕ}
    (hn : flowSteps2 ⟨a.gy, a.gx, xr, nu, widthOf a.width, a.freeStream⟩ K cfl tol A p (refStart2 (xr / a.gx) X0 t0 time om u) ≤ n)
    (hX : Apart2 ⟨a.gy, a.gx, xr, nu, widthOf a.width, a.freeStream⟩ K cfl tol A (max (widthOf a.width) 1 + 3 * n + 1) p (refStart2 (xr / a.gx) X0 t0 time om u))
    (hom : Within2 a.gy a.gx (max (widthOf a.width) 1 + 3 * n) (fieldsFrom2 (xr / a.gx) om u).om) :
    let out := cRun2 (simCfg2 a T xr nu cfl) K tol A o p 0 S
    out.2 = none ∧ innerTotal2 T 2 out.1.sim.prim = innerTotal2 T 2 S.sim.prim := by
  obtain ⟨hT, -⟩ := simCheck2_cart' h.fit.built
  have hK0 : ∀ r, K.upd r (fun _ _ => 0) = 0 := fun r => by rw [hu]; ring
  obtain ⟨r1, r2, -⟩ := coupled2_holds hxr hcfl htol hK hK0 h ho p hp ht
  obtain ⟨dbl0, conv0, hsim⟩ := h.sim
  have hinit := initFrom2_holds hT (simCfg2 a T xr nu cfl) time dbl0 conv0 om u
  intro out
  refine ⟨r1, ?_⟩
  rw [innerTotal2_blocks hT (F := (fieldsFrom2 (xr / a.gx) om u).om) (v := S.sim.prim),
    innerTotal2_blocks hT (fun c q hc hq => r2.sim.om c q hc (inArr_of_inner2 hq) (Or.inl hq))]
  · refine cRef2_total hd ha hu cfl tol A _ p _ hX ?_ (fun _ _ _ => rfl) (Within2.mono hom ?_)
    · simp only; omega
    · simp only; omega
  · intro c q hc hq
    have := hinit.om c q hc (inArr_of_inner2 hq) (Or.inl hq)
    rw [hsim, h.fit.g]
    exact this

/-- **C111 (2D, divergence)** After any driver program with at least one flow step the central divergence of the velocity vanishes in every cell at least two cells away from the
sides: bodies, wherever they are, neither push volume in nor suck it out, also across the boundaries between ranks. -/
theorem solenoidal_bodies2 {a : SimArgs2} {xr : ℝ} (hxr : 0 < xr) {nu cfl : ℝ} (hcfl : 0 ≤ cfl) {tol : ℝ} (htol : 0 < tol) {K : Kern2} (hK : K.Local)
    (hK0 : ∀ r, K.upd r (fun _ _ => 0) = 0) (hc : CentralCurl2 K.curl) {A : B → Ib2} {X0 : B → LagField ℝ} {t0 : B → ℝ} {time : ℝ} {om : ℝ → ℝ → ℝ}
    {u : Fin 2 → ℝ → ℝ → ℝ} {S : CSt2 T B} (h : Setup2 a xr nu cfl A X0 t0 time om u S) {o : ℕ → CScheds2} (ho : ∀ n, (o n).Done T (simCfg2 a T xr nu cfl).d) (p : Prog2 B)
    (hp : Proper2 ⟨a.gy, a.gx, xr, nu, widthOf a.width, a.freeStream⟩ K cfl tol A p (refStart2 (xr / a.gx) X0 t0 time om u))
    (ht : Tracked2 T ⟨a.gy, a.gx, xr, nu, widthOf a.width, a.freeStream⟩ K cfl tol A p (refStart2 (xr / a.gx) X0 t0 time om u))
    (hn : 0 < flowSteps2 ⟨a.gy, a.gx, xr, nu, widthOf a.width, a.freeStream⟩ K cfl tol A p (refStart2 (xr / a.gx) X0 t0 time om u)) (U : Fin 2 → C2 → ℝ)
    (hU : ∀ j, Blocks2 T 2 (U j) ((cRun2 (simCfg2 a T xr nu cfl) K tol A o p 0 S).1.sim.vel j)) :
    (cRun2 (simCfg2 a T xr nu cfl) K tol A o p 0 S).2 = none ∧ ∀ G, Away2 a.gy a.gx 2 G → centralDiv2 U G = 0 := by
  obtain ⟨hT, -⟩ := simCheck2_cart' h.fit.built
  obtain ⟨r1, r2, -⟩ := coupled2_holds hxr hcfl htol hK hK0 h ho p hp ht
  obtain ⟨om', fs, hv⟩ := cRef2_velocity cfl tol A p _ (Or.inl hn)
  refine ⟨r1, ?_⟩
  have hUG : ∀ j G, Dom2 a.gy a.gx G → U j G = refFree2 ⟨a.gy, a.gx, xr, nu, widthOf a.width, a.freeStream⟩ fs ![fun G => (refVel2 ⟨a.gy, a.gx, xr, nu, widthOf a.width, a.freeStream⟩ K om' G).1,
      fun G => (refVel2 ⟨a.gy, a.gx, xr, nu, widthOf a.width, a.freeStream⟩ K om' G).2] j G := by
    intro j G hG
    obtain ⟨c', p', hc', hp', rfl⟩ := domain_owned2 hT 2 ((dom2_iff hT G).1 hG)
    rw [← hU j c' p' hc' hp', r2.sim.u j c' p' hc' (inArr_of_inner2 hp') (Or.inl hp'), hv]
  intro G hG
  rw [← vel2_solenoidal (P := ⟨a.gy, a.gx, xr, nu, widthOf a.width, a.freeStream⟩) hc om' fs hG]
  unfold Away2 at hG
  unfold centralDiv2
  rw [hUG 0 _ ?_, hUG 0 _ ?_, hUG 1 _ ?_, hUG 1 _ ?_] <;> unfold Dom2 <;> simp only <;> omega

end Ranks

/-! ## Examples -/

/-- the nodes of `exBody2` in the middle of a 24 × 24 domain -/
noncomputable def exPosC : LagField ℝ := fun k i => if k = 0 then (if i = 0 then 11.7 else 12.2) else (if i = 0 then 11.5 else 12)

theorem exPosC_inside : Inside2 24 24 9 1 exBody2 exPosC := by
  have f1 : ⌊(11.7 : ℝ)⌋ = 11 := by norm_num [Int.floor_eq_iff]
  have f2 : ⌊(12.2 : ℝ)⌋ = 12 := by norm_num [Int.floor_eq_iff]
  have f3 : ⌊(11.5 : ℝ)⌋ = 11 := by norm_num [Int.floor_eq_iff]
  have f4 : ⌊(12 : ℝ)⌋ = 12 := by norm_num
  intro i hi G hG
  change i < 2 at hi
  unfold window2 winCells cellOf at hG
  simp only [Finset.mem_product, Finset.mem_Ioc, Ib2.sh, exBody2, Option.getD_some, sub_zero, div_one] at hG
  unfold Away2
  interval_cases i <;> simp only [exPosC, if_true, if_false, one_ne_zero] at hG
  · rw [f1, f3] at hG; push_cast at hG ⊢; omega
  · rw [f2, f4] at hG; push_cast at hG ⊢; omega

/-- Two flow steps, each after an interaction, with time step and body velocity depending on what was computed. -/
noncomputable def exProgC : Prog2 Unit :=
  .stableDt 0.5 fun dt => .interact () exPosC (fun _ _ => 0) <| .advance () dt <| .flow dt (fun _ => 1) <| .forces () exPosC (fun _ _ => 0) fun f =>
    .interact () exPosC (fun k _ => f k 0) <| .flow (dt / 2) (fun _ => 1) .stop

/-- A patch of vorticity in the middle. -/
noncomputable def exOmC : ℝ → ℝ → ℝ := fun x y => if 9 ≤ x ∧ x ≤ 15 ∧ 9 ≤ y ∧ y ≤ 15 then x else 0

/-- All hypotheses of `circulation_bodies2` and `solenoidal_bodies2` about flow, body and driver can be met at once on two ranks, the body lying across the boundary between
them. -/
theorem exBudget2 [NeZero (⟨24, 24, 1, 2, 24, 12, false⟩ : Cart2).gy] [NeZero (⟨24, 24, 1, 2, 24, 12, false⟩ : Cart2).gx] (K : Kern2) (nu cfl tol : ℝ) (u : Fin 2 → ℝ → ℝ → ℝ) :
    let a : SimArgs2 := ⟨24, 24, 1, 2, "navier_stokes_with_forcing", true, 2, .int 2⟩
    let P : Params2 := ⟨a.gy, a.gx, 24, nu, widthOf a.width, a.freeStream⟩
    let r0 : RefC2 Unit := refStart2 ((24 : ℝ) / a.gx) (fun _ => exPosC) (fun _ => 0) 0 exOmC u
    (∃ S : CSt2 ⟨24, 24, 1, 2, 24, 12, false⟩ Unit, Setup2 a 24 nu cfl (fun _ => exBody2) (fun _ => exPosC) (fun _ => 0) 0 exOmC u S) ∧
    Proper2 P K cfl tol (fun _ => exBody2) exProgC r0 ∧ Tracked2 ⟨24, 24, 1, 2, 24, 12, false⟩ P K cfl tol (fun _ => exBody2) exProgC r0 ∧
    flowSteps2 P K cfl tol (fun _ => exBody2) exProgC r0 = 2 ∧ Apart2 P K cfl tol (fun _ => exBody2) (max (widthOf a.width) 1 + 3 * 2 + 1) exProgC r0 ∧
    Within2 a.gy a.gx (max (widthOf a.width) 1 + 3 * 2) (fieldsFrom2 ((24 : ℝ) / a.gx) exOmC u).om ∧ (fieldsFrom2 ((24 : ℝ) / a.gx) exOmC u).om (11, 11) ≠ 0 := by
  intro a P r0
  have hw : widthOf a.width = 2 := rfl
  have hdx : P.dx = 1 := by unfold Params2.dx; norm_num [P, a]
  have hd' : (24 : ℝ) / a.gx = 1 := by norm_num [a]
  have hi : ∀ k ≤ 9, Inside2 24 24 k 1 exBody2 exPosC := by
    intro k hk i hI G hG
    have := exPosC_inside i hI G hG
    unfold Away2 at this ⊢
    push_cast at this ⊢; omega
  refine ⟨?_, ?_, ?_, ?_, ?_, ?_, ?_⟩
  · have hfit : Fit2 a ⟨24, 24, 1, 2, 24, 12, false⟩ := ⟨by decide, ⟨by decide, fun _ => ⟨by decide, 2, rfl⟩⟩, rfl, by decide, by decide, by decide, by decide⟩
    obtain ⟨hT, -⟩ := simCheck2_cart' hfit.built
    have hd : simDx2 ⟨24, 24, 1, 2, 24, 12, false⟩ 24 = 1 := by unfold simDx2; norm_num
    obtain ⟨s, hs⟩ := (ibInit2_ok_iff hT (by decide) (by decide) one_pos (g := a.g) (k := 0) (a := exBody2) (X0 := exPosC) (hi 0 (by omega)) 0).2 ⟨rfl, le_refl 2⟩
    refine ⟨⟨initFrom2 ⟨24, 24, 1, 2, 24, 12, false⟩ a.g 24 0 0 0 exOmC u, fun _ => s, []⟩, hfit, rfl, ?_, ?_, ?_, ⟨_, _, rfl⟩, rfl⟩
    · intro _ l
      refine ⟨?_, ?_⟩
      · exact (List.nodup_dedup l).filter _
      · intro x; simp [exBody2]
    · intro _; rw [hd']; exact hi 0 (by omega)
    · intro _; rw [hd]; exact hs
  · unfold exProgC
    simp only [Proper2, hdx]
    exact ⟨hi 1 (by omega), Or.inl rfl, hi 0 (by omega), Or.inl rfl, hi 1 (by omega), Or.inl rfl, trivial⟩
  · refine tracked2_still P K cfl tol _ (fun _ => exPosC) _ ?_ _ rfl
    unfold exProgC
    simp only [Still2]
    simp
  · unfold exProgC
    simp only [flowSteps2]
  · unfold exProgC
    simp only [Apart2, hdx, hw]
    exact ⟨hi 9 (by omega), hi 9 (by omega), trivial⟩
  · rw [hd', hw]
    intro G hG
    unfold fieldsFrom2 exOmC
    simp only [mul_one]
    rw [if_neg]
    rintro ⟨h1, h2, h3, h4⟩
    apply hG
    have q1 : (17 / 2 : ℝ) ≤ G.2 := by linarith
    have q2 : (G.2 : ℝ) ≤ 29 / 2 := by linarith
    have q3 : (17 / 2 : ℝ) ≤ G.1 := by linarith
    have q4 : (G.1 : ℝ) ≤ 29 / 2 := by linarith
    have z1 : (8 : ℤ) ≤ G.2 := by exact_mod_cast (by linarith : (8 : ℝ) ≤ G.2)
    have z2 : G.2 ≤ (15 : ℤ) := by exact_mod_cast (by linarith : (G.2 : ℝ) ≤ 15)
    have z3 : (8 : ℤ) ≤ G.1 := by exact_mod_cast (by linarith : (8 : ℝ) ≤ G.1)
    have z4 : G.1 ≤ (15 : ℤ) := by exact_mod_cast (by linarith : (G.1 : ℝ) ≤ 15)
    unfold Away2
    simp only [a]
    push_cast
    omega
  · rw [hd']
    unfold fieldsFrom2 exOmC
    norm_num

end Sopht
