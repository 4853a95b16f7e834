import Verif.Interactor3DRun
import Verif.Conserve3DProps

/-!
# Circulation, divergence of vorticity and of velocity with immersed bodies, 3D (C111)

The 3D counterpart of `BodyBudget2D`: any driver program with immersed bodies (immersed_body_flow_interaction_mpi.py:114-180).
-/

namespace Sopht
open Finset

variable {B : Type} [DecidableEq B]

/-! ## What the theorems speak about -/

/-- Number of calls of `flow_sim.time_step` along a run of the driver. -/
noncomputable def flowSteps3 (P : Params3) (K : Kern3) (cfl tol : ℝ) (A : B → Ib3) : Prog3 B → RefC3 B → ℕ
  | .stop, _ => 0
  | .interact b X U k, r => flowSteps3 P K cfl tol A k (refFull3 P.dx (A b) b X U r)
  | .forces b X U k, r => flowSteps3 P K cfl tol A (k (refForceField3 (A b).N (refLag3 P.dx (A b) r.F.u X U (r.hist b)))) (refForces3 P.dx (A b) b X U r)
  | .advance b dt k, r => flowSteps3 P K cfl tol A k
      { r with hist := Function.update r.hist b { r.hist b with P := fun k i => (r.hist b).P k i + dt * (r.hist b).V k i, t := (r.hist b).t + dt } }
  | .flow dt fs k, r => 1 + flowSteps3 P K cfl tol A k
      { r with F := refForcing3 P K dt fs r.Φ r.F, Φ := fun _ _ => 0, time := r.time + dt, fresh := false }
  | .stableDt pre k, r => flowSteps3 P K cfl tol A (k (refDt3 P cfl tol r.F (.stable pre))) r
  | .deviation b k, r => flowSteps3 P K cfl tol A (k (refDeviation 3 (A b).N (r.hist b))) r
  | .maxVort k, r => flowSteps3 P K cfl tol A (k (sSup {x | ∃ j G, Dom3 P.gz P.gy P.gx G ∧ x = r.F.om j G})) r
  | .divNorm k, r => flowSteps3 P K cfl tol A (k (refDiv3 P K r.F.om)) r
  | .ghost k, r => flowSteps3 P K cfl tol A k { r with fresh := true }
  | .out x k, r => flowSteps3 P K cfl tol A k { r with log := r.log ++ [x] }

/-- Along a run of the driver, whenever a body forces the flow, all cells around its nodes are at least `m` cells away from the sides. -/
def Apart3 (P : Params3) (K : Kern3) (cfl tol : ℝ) (A : B → Ib3) (m : ℕ) : Prog3 B → RefC3 B → Prop
  | .stop, _ => True
  | .interact b X U k, r => Inside3 P.gz P.gy P.gx m P.dx (A b) X ∧ Apart3 P K cfl tol A m k (refFull3 P.dx (A b) b X U r)
  | .forces b X U k, r => Apart3 P K cfl tol A m (k (refForceField3 (A b).N (refLag3 P.dx (A b) r.F.u X U (r.hist b)))) (refForces3 P.dx (A b) b X U r)
  | .advance b dt k, r => Apart3 P K cfl tol A m k
      { r with hist := Function.update r.hist b { r.hist b with P := fun k i => (r.hist b).P k i + dt * (r.hist b).V k i, t := (r.hist b).t + dt } }
  | .flow dt fs k, r => Apart3 P K cfl tol A m k
      { r with F := refForcing3 P K dt fs r.Φ r.F, Φ := fun _ _ => 0, time := r.time + dt, fresh := false }
  | .stableDt pre k, r => Apart3 P K cfl tol A m (k (refDt3 P cfl tol r.F (.stable pre))) r
  | .deviation b k, r => Apart3 P K cfl tol A m (k (refDeviation 3 (A b).N (r.hist b))) r
  | .maxVort k, r => Apart3 P K cfl tol A m (k (sSup {x | ∃ j G, Dom3 P.gz P.gy P.gx G ∧ x = r.F.om j G})) r
  | .divNorm k, r => Apart3 P K cfl tol A m (k (refDiv3 P K r.F.om)) r
  | .ghost k, r => Apart3 P K cfl tol A m k { r with fresh := true }
  | .out x k, r => Apart3 P K cfl tol A m k { r with log := r.log ++ [x] }

/-! ## On the global grid -/

theorem within3_le {gz gy gx k l : ℕ} {f : C3 → ℝ} (h : Within3 gz gy gx k f) (hl : l ≤ k) : Within3 gz gy gx l f :=
  within3_sup.2 ((within3_sup.1 h).mono (by simp only; omega) (by simp only; omega) (by simp only; omega))

/-- Forces spread from nodes stay near the nodes. -/
theorem spread3_within {gz gy gx m : ℕ} {dx : ℝ} {a : Ib3} {X : LagField ℝ} (h : Inside3 gz gy gx m dx a X) (f : LagField ℝ) {Φ : Fin 3 → C3 → ℝ}
    (hΦ : ∀ j, Within3 gz gy gx m (Φ j)) (j : Fin 3) : Within3 gz gy gx m (refSpread3 dx a X f Φ j) := by
  intro G hG
  unfold refSpread3
  have e : ((List.range a.N).map fun i => share3n dx (a.sh dx) 2 (cosW3 dx) G ((X 0 i, X 1 i, X 2 i), f j.1 i)).sum = 0 := by
    apply List.sum_eq_zero
    intro x hx
    obtain ⟨i, hi, rfl⟩ := List.mem_map.1 hx
    unfold share3n
    rw [if_neg]
    exact fun hw => hG (h i (List.mem_range.1 hi) G hw)
  rw [e, hΦ j G hG, ite_self, add_zero]

/-- Any driver program. -/
theorem cRef3_kept {P : Params3} {K : Kern3} (hd : SevenPoint K.diff) (ha : FluxForm3 K.adv) (hu : CentralCurl3 K.upd) (ho : ∀ p ty, P.flt = some (p, ty) → 1 ≤ p) (cfl tol : ℝ)
    (A : B → Ib3) (m : ℕ) (p : Prog3 B) :
    ∀ r : RefC3 B, Apart3 P K cfl tol A m p r → max P.w 1 + (3 + fltOrder P.flt) * flowSteps3 P K cfl tol A p r + 1 ≤ m → (∀ j, Within3 P.gz P.gy P.gx m (r.Φ j)) →
      (∀ j, Within3 P.gz P.gy P.gx (max P.w 1 + (3 + fltOrder P.flt) * flowSteps3 P K cfl tol A p r) (r.F.om j)) →
      (∀ j, Within3 P.gz P.gy P.gx (max P.w 1) ((cRef3 P K cfl tol A p r).F.om j)) ∧
      (∀ j, total3 P.gz P.gy P.gx ((cRef3 P K cfl tol A p r).F.om j) = total3 P.gz P.gy P.gx (r.F.om j)) ∧
      ((∀ G, centralDiv3 r.F.om G = 0) → ∀ G, centralDiv3 (cRef3 P K cfl tol A p r).F.om G = 0) := by
  induction p with
  | stop => intro r _ _ _ hom; exact ⟨fun j => within3_le (hom j) (Nat.le_add_right _ _), fun _ => rfl, fun h0 => h0⟩
  | interact b X U k ih => intro r h hm hΦ hom; exact ih _ h.2 hm (spread3_within h.1 _ hΦ) hom
  | forces b X U k ih => intro r h hm hΦ hom; exact ih _ _ h hm hΦ hom
  | advance b dt k ih => intro r h hm hΦ hom; exact ih _ h hm hΦ hom
  | flow dt fs k ih =>
    intro r h hm hΦ hom
    rw [flowSteps3] at hm hom
    have ih' := ih { r with F := refForcing3 P K dt fs r.Φ r.F, Φ := fun _ _ => 0, time := r.time + dt, fresh := false } h
    generalize flowSteps3 P K cfl tol A k { r with F := refForcing3 P K dt fs r.Φ r.F, Φ := fun _ _ => 0, time := r.time + dt, fresh := false } = n at hm hom ih'
    have hlen : max P.w 1 + (3 + fltOrder P.flt) * (1 + n) = max P.w 1 + (3 + fltOrder P.flt) * n + 3 + fltOrder P.flt := by ring
    rw [hlen] at hm hom
    obtain ⟨s1, -⟩ := step3_kept (P := P) hd ha hu "navier_stokes_with_forcing" (fun _ => ho) (k := max P.w 1 + (3 + fltOrder P.flt) * n) (by omega) (by omega) dt fs
      (fun j => within3_le (hΦ j) hm) (F := r.F)
    obtain ⟨w1, w2, w3⟩ := s1 hom
    obtain ⟨v1, v2, v3⟩ := ih' (by omega) (fun _ _ _ => rfl) w1
    exact ⟨v1, fun j => (v2 j).trans (w2 j), fun h0 => v3 (w3 rfl h0)⟩
  | stableDt pre k ih => intro r h hm hΦ hom; exact ih _ _ h hm hΦ hom
  | deviation b k ih => intro r h hm hΦ hom; exact ih _ _ h hm hΦ hom
  | maxVort k ih => intro r h hm hΦ hom; exact ih _ _ h hm hΦ hom
  | divNorm k ih => intro r h hm hΦ hom; exact ih _ _ h hm hΦ hom
  | ghost k ih => intro r h hm hΦ hom; exact ih _ h hm hΦ hom
  | out x k ih => intro r h hm hΦ hom; exact ih _ h hm hΦ hom

/-- After the last flow step the velocity is a curl plus the free stream. -/
theorem cRef3_velocity {P : Params3} {K : Kern3} (cfl tol : ℝ) (A : B → Ib3) (p : Prog3 B) :
    ∀ r : RefC3 B, (0 < flowSteps3 P K cfl tol A p r ∨ ∃ om fs, r.F.u = refFree3 P fs (refVel3 P K om)) →
      ∃ om fs, (cRef3 P K cfl tol A p r).F.u = refFree3 P fs (refVel3 P K om) := by
  induction p with
  | stop => intro r h; exact h.resolve_left (by simp [flowSteps3])
  | interact b X U k ih => intro r h; exact ih _ h
  | forces b X U k ih => intro r h; exact ih _ _ h
  | advance b dt k ih => intro r h; exact ih _ h
  | flow dt fs k ih => intro r _; exact ih _ (Or.inr ⟨_, _, rfl⟩)
  | stableDt pre k ih => intro r h; exact ih _ _ h
  | deviation b k ih => intro r h; exact ih _ _ h
  | maxVort k ih => intro r h; exact ih _ _ h
  | divNorm k ih => intro r h; exact ih _ _ h
  | ghost k ih => intro r h; exact ih _ h
  | out x k ih => intro r h; exact ih _ h

/-! ## On any number of ranks -/

section Ranks
variable {T : Cart3} [NeZero T.gz] [NeZero T.gy] [NeZero T.gx]

/-- **C111 (3D)** Immersed bodies of any number, shape, motion and stiffness create no net circulation: whatever the driver does, the sum of each component of the vorticity over the
inner cells of all ranks does not change, and divergence free vorticity stays divergence free in every cell, as long as bodies and vorticity are so far from the sides that nothing
can have reached them or the penalty zone. -/
theorem circulation_bodies3 {a : SimArgs3} {xr : ℝ} (hxr : 0 < xr) {nu cfl : ℝ} (hnu : 0 ≤ nu) (hcfl : 0 ≤ cfl) {tol : ℝ} (htol : 0 < tol) {K : Kern3} (hK : K.Local)
    (hKd : ∀ a, CrossLocal3 1 (K.div a)) (hd : SevenPoint K.diff) (ha : FluxForm3 K.adv) (hu : CentralCurl3 K.upd) {A : B → Ib3} {X0 : B → LagField ℝ} {t0 : B → ℝ} {time : ℝ}
    {sc : ℝ → ℝ → ℝ → ℝ} {om u : Fin 3 → ℝ → ℝ → ℝ → ℝ} {S : CSt3 T B} (h : Setup3 a xr A X0 t0 time sc om u S) {o : ℕ → CScheds3} (ho : ∀ n, (o n).Done T a.g) (p : Prog3 B)
    (hp : Proper3 (a.pars xr nu) K cfl tol A p (refStart3 (xr / a.gx) X0 t0 time sc om u))
    (ht : Tracked3 T (a.pars xr nu) K cfl tol A p (refStart3 (xr / a.gx) X0 t0 time sc om u)) {n : ℕ}
    (hn : flowSteps3 (a.pars xr nu) K cfl tol A p (refStart3 (xr / a.gx) X0 t0 time sc om u) ≤ n)
    (hX : Apart3 (a.pars xr nu) K cfl tol A (max (widthOf a.width) 1 + reach3 a * n + 1) p (refStart3 (xr / a.gx) X0 t0 time sc om u))
    (hom : ∀ j, Within3 a.gz a.gy a.gx (max (widthOf a.width) 1 + reach3 a * n) (atCentre3 (xr / a.gx) (om j))) :
    let out := cRun3 (simCfg3 a xr nu cfl) K tol A o p 0 S
    out.2 = none ∧ (∀ j, innerTotal3 T a.g (out.1.sim.om j) = innerTotal3 T a.g (S.sim.om j)) ∧
    ((∀ G, centralDiv3 (fun j => atCentre3 (xr / a.gx) (om j)) G = 0) →
      ∃ W : Fin 3 → C3 → ℝ, (∀ j, Holds3 T a.g (W j) (out.1.sim.om j)) ∧ (∀ j, Within3 a.gz a.gy a.gx (max (widthOf a.width) 1) (W j)) ∧ ∀ G, centralDiv3 W G = 0) := by
  obtain ⟨hT, -⟩ := simCheck3_cart h.fit.built
  have hns : isNS a.flowType = true := by rw [h.flowType]; rfl
  have hK0 : ∀ r, K.upd r (fun _ _ => 0) = 0 := fun r => by rw [hu]; simp
  obtain ⟨r1, r2, -⟩ := coupled3_holds hxr hnu hcfl htol hK hKd hK0 h ho p hp ht
  obtain ⟨dbl0, conv0, hsim⟩ := h.sim
  have hinit := initFrom3_holds hT (simCfg3 a xr nu cfl) time dbl0 conv0 sc om u
  have hle : reach3 a * flowSteps3 (a.pars xr nu) K cfl tol A p (refStart3 (xr / a.gx) X0 t0 time sc om u) ≤ reach3 a * n := Nat.mul_le_mul_left _ hn
  obtain ⟨k1, k2, k3⟩ := cRef3_kept (P := a.pars xr nu) hd ha hu (fit3_order h.fit hns) cfl tol A _ p _ hX
    (by change max (widthOf a.width) 1 + reach3 a * _ + 1 ≤ _; omega) (fun _ _ _ => rfl)
    (fun j => within3_le (hom j) (by change max (widthOf a.width) 1 + reach3 a * _ ≤ _; omega))
  intro out
  have hH : ∀ j, Holds3 T a.g ((cRef3 (a.pars xr nu) K cfl tol A p (refStart3 (xr / a.gx) X0 t0 time sc om u)).F.om j) (out.1.sim.om j) :=
    fun j c q hc hq => r2.sim.om j c q hc (inArr_of_inner3 hq) (Or.inl hq)
  refine ⟨r1, fun j => ?_, fun h0 => ⟨_, hH, k1, k3 h0⟩⟩
  rw [innerTotal3_holds hT (g := a.g) (F := atCentre3 (xr / a.gx) (om j)) (v := S.sim.om j), innerTotal3_holds hT (hH j)]
  · exact k2 j
  · intro c q hc hq
    rw [hsim]
    exact hinit.om j c q hc (inArr_of_inner3 hq) (Or.inl hq)

/-- **C111 (3D, divergence)** After any driver program with at least one flow step the central divergence of the velocity vanishes in every cell at least two cells away from the
sides, wherever the bodies are, also across the boundaries between ranks. -/
theorem solenoidal_bodies3 {a : SimArgs3} {xr : ℝ} (hxr : 0 < xr) {nu cfl : ℝ} (hnu : 0 ≤ nu) (hcfl : 0 ≤ cfl) {tol : ℝ} (htol : 0 < tol) {K : Kern3} (hK : K.Local)
    (hKd : ∀ a, CrossLocal3 1 (K.div a)) (hK0 : ∀ r, K.upd r (fun _ _ => 0) = 0) (hc : CentralCurl3 K.curl) {A : B → Ib3} {X0 : B → LagField ℝ} {t0 : B → ℝ} {time : ℝ}
    {sc : ℝ → ℝ → ℝ → ℝ} {om u : Fin 3 → ℝ → ℝ → ℝ → ℝ} {S : CSt3 T B} (h : Setup3 a xr A X0 t0 time sc om u S) {o : ℕ → CScheds3} (ho : ∀ n, (o n).Done T a.g) (p : Prog3 B)
    (hp : Proper3 (a.pars xr nu) K cfl tol A p (refStart3 (xr / a.gx) X0 t0 time sc om u))
    (ht : Tracked3 T (a.pars xr nu) K cfl tol A p (refStart3 (xr / a.gx) X0 t0 time sc om u))
    (hn : 0 < flowSteps3 (a.pars xr nu) K cfl tol A p (refStart3 (xr / a.gx) X0 t0 time sc om u)) (U : Fin 3 → C3 → ℝ)
    (hU : ∀ j, Holds3 T a.g (U j) ((cRun3 (simCfg3 a xr nu cfl) K tol A o p 0 S).1.sim.vel j)) :
    (cRun3 (simCfg3 a xr nu cfl) K tol A o p 0 S).2 = none ∧ ∀ G, Away3 a.gz a.gy a.gx 2 G → centralDiv3 U G = 0 := by
  obtain ⟨hT, -⟩ := simCheck3_cart h.fit.built
  obtain ⟨r1, r2, -⟩ := coupled3_holds hxr hnu hcfl htol hK hKd hK0 h ho p hp ht
  obtain ⟨om', fs, hv⟩ := cRef3_velocity cfl tol A p _ (Or.inl hn)
  refine ⟨r1, ?_⟩
  have hUG : ∀ j G, Dom3 a.gz a.gy a.gx G → U j G = refFree3 (a.pars xr nu) fs (refVel3 (a.pars xr nu) K om') j G := by
    intro j G hG
    obtain ⟨c', p', hc', hp', rfl⟩ := domain_owned3 hT a.g ((dom3_iff hT G).1 hG)
    rw [← hU j c' p' hc' hp', ← hv]
    exact r2.sim.u j c' p' hc' (inArr_of_inner3 hp') (Or.inl hp')
  intro G hG
  rw [← vel3_solenoidal (P := a.pars xr nu) hc om' fs hG]
  unfold Away3 at hG
  unfold centralDiv3
  rw [hUG 0 _ ?_, hUG 0 _ ?_, hUG 1 _ ?_, hUG 1 _ ?_, hUG 2 _ ?_, hUG 2 _ ?_] <;> unfold Dom3 <;> simp only <;> omega

end Ranks

/-! ## Examples -/

/-- the nodes of `exBody3` in the middle of a 32 × 32 × 32 domain -/
noncomputable def exPosD : LagField ℝ := fun k i =>
  if k = 0 then (if i = 0 then 15.7 else 16.2) else if k = 1 then (if i = 0 then 15.5 else 16) else (if i = 0 then 15.5 else 16)

theorem exPosD_inside : Inside3 32 32 32 13 1 exBody3 exPosD := by
  have f1 : ⌊(15.7 : ℝ)⌋ = 15 := by norm_num [Int.floor_eq_iff]
  have f2 : ⌊(16.2 : ℝ)⌋ = 16 := by norm_num [Int.floor_eq_iff]
  have f3 : ⌊(15.5 : ℝ)⌋ = 15 := by norm_num [Int.floor_eq_iff]
  have f4 : ⌊(16 : ℝ)⌋ = 16 := by norm_num
  intro i hi G hG
  change i < 2 at hi
  unfold window3 winCells cellOf at hG
  simp only [Finset.mem_product, Finset.mem_Ioc, Ib3.sh, exBody3, Option.getD_some, sub_zero, div_one] at hG
  unfold Away3
  interval_cases i <;> simp only [exPosD, if_true, if_false, one_ne_zero, OfNat.ofNat_ne_zero, OfNat.ofNat_ne_one] at hG
  · rw [f1, f3] at hG; push_cast at hG ⊢; omega
  · rw [f2, f4] at hG; push_cast at hG ⊢; omega

/-- Two flow steps, each after an interaction, with time step and body velocity depending on what was computed. -/
noncomputable def exProgD : Prog3 Unit :=
  .stableDt 0.5 fun dt => .interact () exPosD (fun _ _ => 0) <| .advance () dt <| .flow dt (fun _ => 1) <| .divNorm fun _ => .forces () exPosD (fun _ _ => 0) fun f =>
    .interact () exPosD (fun k _ => f k 0) <| .flow (dt / 2) (fun _ => 1) .stop

/-- A patch of vorticity in the middle. -/
noncomputable def exOmD : Fin 3 → ℝ → ℝ → ℝ → ℝ := fun _ x y z => if 13 ≤ x ∧ x ≤ 19 ∧ 13 ≤ y ∧ y ≤ 19 ∧ 13 ≤ z ∧ z ≤ 19 then x else 0

/-- All hypotheses of `circulation_bodies3` and `solenoidal_bodies3` about flow, body and driver can be met at once on two ranks, the body lying across the boundary between
them. -/
theorem exBudget3 [NeZero (⟨32, 32, 32, 1, 1, 2, 32, 32, 16, false⟩ : Cart3).gz] [NeZero (⟨32, 32, 32, 1, 1, 2, 32, 32, 16, false⟩ : Cart3).gy]
    [NeZero (⟨32, 32, 32, 1, 1, 2, 32, 32, 16, false⟩ : Cart3).gx] (K : Kern3) (nu cfl tol : ℝ) (sc : ℝ → ℝ → ℝ → ℝ) (u : Fin 3 → ℝ → ℝ → ℝ → ℝ) :
    let a : SimArgs3 := ⟨32, 32, 32, 1, 1, 2, "navier_stokes_with_forcing", true, none, false, 2, .int 2⟩
    let r0 : RefC3 Unit := refStart3 ((32 : ℝ) / a.gx) (fun _ => exPosD) (fun _ => 0) 0 sc exOmD u
    (∃ S : CSt3 ⟨32, 32, 32, 1, 1, 2, 32, 32, 16, false⟩ Unit, Setup3 a 32 (fun _ => exBody3) (fun _ => exPosD) (fun _ => 0) 0 sc exOmD u S) ∧
    Proper3 (a.pars 32 nu) K cfl tol (fun _ => exBody3) exProgD r0 ∧ Tracked3 ⟨32, 32, 32, 1, 1, 2, 32, 32, 16, false⟩ (a.pars 32 nu) K cfl tol (fun _ => exBody3) exProgD r0 ∧
    flowSteps3 (a.pars 32 nu) K cfl tol (fun _ => exBody3) exProgD r0 = 2 ∧
    Apart3 (a.pars 32 nu) K cfl tol (fun _ => exBody3) (max (widthOf a.width) 1 + reach3 a * 2 + 1) exProgD r0 ∧
    (∀ j, Within3 a.gz a.gy a.gx (max (widthOf a.width) 1 + reach3 a * 2) (atCentre3 ((32 : ℝ) / a.gx) (exOmD j))) ∧
    ∀ j, atCentre3 ((32 : ℝ) / a.gx) (exOmD j) (15, 15, 15) ≠ 0 := by
  intro a r0
  have hw : max (widthOf a.width) 1 + reach3 a * 2 = 12 := rfl
  have hdx : (a.pars 32 nu).dx = 1 := by unfold Params3.dx; norm_num [SimArgs3.pars, a]
  have hd' : (32 : ℝ) / a.gx = 1 := by norm_num [a]
  have hi : ∀ k ≤ 13, Inside3 32 32 32 k 1 exBody3 exPosD := by
    intro k hk i hI G hG
    have := exPosD_inside i hI G hG
    unfold Away3 at this ⊢
    push_cast at this ⊢; omega
  refine ⟨?_, ?_, ?_, ?_, ?_, ?_, ?_⟩
  · have hfit : Fit3 a ⟨32, 32, 32, 1, 1, 2, 32, 32, 16, false⟩ := by
      refine ⟨by decide, (by intro h; cases h), fun _ => ⟨by decide, by decide, ⟨2, rfl, by decide, by decide, by decide, by decide⟩, by unfold EvenTopo3; decide, ?_⟩⟩
      intro o ty hf
      simp only [filterInUse, if_true, Option.getD_none, Option.some.injEq, Prod.mk.injEq, PyNum.int.injEq, a] at hf
      omega
    obtain ⟨hT, -⟩ := simCheck3_cart hfit.built
    have hd : simDx3 ⟨32, 32, 32, 1, 1, 2, 32, 32, 16, false⟩ 32 = 1 := by unfold simDx3; norm_num
    obtain ⟨s, hs⟩ := (ibInit3_ok_iff hT (by decide) (by decide) (by decide) one_pos (g := a.g) (k := 0) (a := exBody3) (X0 := exPosD) (hi 0 (by omega)) 0).2 ⟨rfl, le_refl 2⟩
    refine ⟨⟨initFrom3 ⟨32, 32, 32, 1, 1, 2, 32, 32, 16, false⟩ a.g 32 0 0 0 sc exOmD u, fun _ => s, []⟩, hfit, rfl, ?_, ?_, ?_, ⟨_, _, rfl⟩, rfl⟩
    · intro _ l
      refine ⟨?_, ?_⟩
      · exact (List.nodup_dedup l).filter _
      · intro x; simp [exBody3]
    · intro _; rw [hd']; exact hi 0 (by omega)
    · intro _; rw [hd]; exact hs
  · unfold exProgD
    simp only [Proper3, hdx]
    exact ⟨hi 1 (by omega), Or.inl rfl, hi 0 (by omega), Or.inl rfl, hi 1 (by omega), Or.inl rfl, trivial⟩
  · refine tracked3_still (a.pars 32 nu) K cfl tol _ (fun _ => exPosD) _ ?_ _ rfl
    unfold exProgD
    simp only [Still3]
    simp
  · unfold exProgD
    simp only [flowSteps3]
  · unfold exProgD
    simp only [Apart3, hdx, hw]
    exact ⟨hi 13 (by omega), hi 13 (by omega), trivial⟩
  · rw [hd', hw]
    intro j G hG
    unfold atCentre3 exOmD
    simp only [mul_one]
    rw [if_neg]
    rintro ⟨h1, h2, h3, h4, h5, h6⟩
    apply hG
    have z1 : (12 : ℤ) ≤ G.2.2 := by exact_mod_cast (by linarith : (12 : ℝ) ≤ G.2.2)
    have z2 : G.2.2 ≤ (19 : ℤ) := by exact_mod_cast (by linarith : (G.2.2 : ℝ) ≤ 19)
    have z3 : (12 : ℤ) ≤ G.2.1 := by exact_mod_cast (by linarith : (12 : ℝ) ≤ G.2.1)
    have z4 : G.2.1 ≤ (19 : ℤ) := by exact_mod_cast (by linarith : (G.2.1 : ℝ) ≤ 19)
    have z5 : (12 : ℤ) ≤ G.1 := by exact_mod_cast (by linarith : (12 : ℝ) ≤ G.1)
    have z6 : G.1 ≤ (19 : ℤ) := by exact_mod_cast (by linarith : (G.1 : ℝ) ≤ 19)
    unfold Away3
    simp only [a]
    push_cast
    omega
  · intro j
    rw [hd']
    unfold atCentre3 exOmD
    norm_num

end Sopht
