import Verif.Interactor2DProps

/-! # Whole 2D simulations with immersed bodies (C68, C69) -/

namespace Sopht

set_option linter.unusedSimpArgs false

variable {gy gx py px : ℕ} {T : Cart2} {B : Type} [DecidableEq B]

/-- The ranks hold the state `r` of the reference run. -/
structure CHolds2 [NeZero T.gy] [NeZero T.gx] (gy gx : ℕ) (C : Cfg2) (A : B → Ib2) (r : RefC2 B) (S : CSt2 T B) : Prop where
  sim : SimHolds2 C r.F S.sim
  time : S.sim.time = r.time
  force : ForceClean2 T r.Φ S.sim.forcing
  conf : Confined2 gy gx r.Φ
  fresh : r.fresh = true → FreshVel2 T r.F.u S.sim.vel
  ib : ∀ b, IbHolds2 T (C.params gy gx).dx (A b) (r.hist b) (r.lastX b) (S.ib b)
  log : S.log = r.log

/-- All messages of a call are delivered. -/
def CScheds2.Done (T : Cart2) (d : Fin 2) (s : CScheds2) : Prop :=
  s.step.Done T d ∧ Complete (multiMsgs2 T 2 false ([0, 1] : List (Fin 2))) s.ghost

theorem maxOm2_greatest (hy : 0 < gy) (hx : 0 < gx) (f : C2 → ℝ) :
    IsGreatest {x | ∃ G, Dom2 gy gx G ∧ x = f G} (sSup {x | ∃ G, Dom2 gy gx G ∧ x = f G}) := by
  have hfin : {x | ∃ G, Dom2 gy gx G ∧ x = f G}.Finite := by
    have : {x | ∃ G, Dom2 gy gx G ∧ x = f G} ⊆ f '' (Set.Icc (0 : ℤ) gy ×ˢ Set.Icc (0 : ℤ) gx) := by
      rintro x ⟨G, hG, rfl⟩
      refine ⟨G, ⟨⟨hG.1, le_of_lt hG.2.1⟩, hG.2.2.1, le_of_lt hG.2.2.2⟩, rfl⟩
    exact Set.Finite.subset (Set.Finite.image _ ((Set.finite_Icc _ _).prod (Set.finite_Icc _ _))) this
  have hne : {x | ∃ G, Dom2 gy gx G ∧ x = f G}.Nonempty := ⟨_, (0, 0), ⟨by simp, by simpa using hy, by simp, by simpa using hx⟩, rfl⟩
  exact ⟨hne.csSup_mem hfin, fun x hx => le_csSup hfin.bddAbove hx⟩

theorem update_ib_holds {dx : ℝ} {A : B → Ib2} {hist : B → NodeHist ℝ} {lastX : B → LagField ℝ} {ib : B → IbSt2}
    (h : ∀ b, IbHolds2 T dx (A b) (hist b) (lastX b) (ib b)) {b : B} {h' : NodeHist ℝ} {X' : LagField ℝ} {s' : IbSt2} (hb : IbHolds2 T dx (A b) h' X' s') (b' : B) :
    IbHolds2 T dx (A b') (Function.update hist b h' b') (Function.update lastX b X' b') (Function.update ib b s' b') := by
  by_cases e : b' = b
  · subst e
    rw [Function.update_self, Function.update_self, Function.update_self]; exact hb
  · rw [Function.update_of_ne e, Function.update_of_ne e, Function.update_of_ne e]; exact h b'

variable [NeZero T.gy] [NeZero T.gx]

/-- C68: a driver on any decomposition does what it does on the global grid. -/
theorem cRun2_holds (hT : mkCart2 gy gx py px false = .ok T) {C : Cfg2} (hC : Good2 gy gx T C) {gn : PyNum} (hd : doublingInit2 gn T = .ok C.d)
    (hft : C.flowType = "navier_stokes_with_forcing") (hcfl : 0 ≤ C.cfl) {tol : ℝ} (htol : 0 < tol) {K : Kern2} (hK : K.Local)
    (hK0 : ∀ a, K.upd a (fun _ _ => 0) = 0) {A : B → Ib2} (hA : ∀ b, (A b).Ok) {o : ℕ → CScheds2} (ho : ∀ n, (o n).Done T C.d) (p : Prog2 B) :
    ∀ (n : ℕ) {r : RefC2 B} {S : CSt2 T B}, CHolds2 gy gx C A r S → Proper2 (C.params gy gx) K C.cfl tol A p r → Tracked2 T (C.params gy gx) K C.cfl tol A p r →
      (cRun2 C K tol A o p n S).2 = none ∧ CHolds2 gy gx C A (cRef2 (C.params gy gx) K C.cfl tol A p r) (cRun2 C K tol A o p n S).1 := by
  obtain ⟨e1, e2, -⟩ := construct2_ok hT
  have hgx0 : T.gx ≠ 0 := NeZero.ne _
  have hgy0 : T.gy ≠ 0 := NeZero.ne _
  have hdx' : simDx2 T C.xr = (C.params gy gx).dx := params_dx hT C
  have hdx : 0 < (C.params gy gx).dx := by
    rw [← hdx']; unfold simDx2
    exact div_pos hC.xr (by exact_mod_cast Nat.pos_of_ne_zero hgx0)
  have hslab : T.py = 1 ∨ T.px = 1 := by
    rcases doublingInit2_ok hd with ⟨-, h⟩ | ⟨-, h⟩
    · exact Or.inr h
    · exact Or.inl h
  have hny := hC.ny
  have hnx := hC.nx
  induction p with
  | stop => intro n r S h _ _; exact ⟨rfl, h⟩
  | interact b X U k ih =>
    intro n r S h hp ht
    obtain ⟨p1, p2, p3⟩ := hp
    obtain ⟨t1, t2⟩ := ht
    obtain ⟨vel, f, b', hrun, hu, hf, hb, hΦ⟩ := fullInteract2_holds hT hC.g (by omega) (by omega) hslab hdx hdx' (hA b) (ho n).2 h.sim.u
      (p2.imp_right h.fresh) p1 (U := U) t1 (h.ib b) h.force
    unfold cRun2 cRef2
    rw [hrun]
    simp only
    refine ih (n + 1) ⟨⟨h.sim.om, hu, h.sim.green⟩, h.time, hΦ, refSpread2_confined p1 _ h.conf, fun _ => hf, ?_, h.log⟩ p3 t2
    exact update_ib_holds h.ib hb
  | forces b X U k ih =>
    intro n r S h hp ht
    obtain ⟨p1, p2, p3⟩ := hp
    obtain ⟨t1, t2⟩ := ht
    obtain ⟨vel, v, hrun, hu, hf, hb, -⟩ := lagInteract2_holds hT hC.g (by omega) (by omega) hslab hdx hdx' (hA b) (ho n).2 h.sim.u
      (p2.imp_right h.fresh) p1 (U := U) t1 (h.ib b)
    have hforce : forcesOf 2 (A b).N v = refForceField (A b).N (refLag2 (C.params gy gx).dx (A b) r.F.u X U (r.hist b)) := by
      funext k i
      unfold forcesOf refForceField
      split
      · rename_i hki
        exact hb.stores.force k hki.1 i hki.2
      · rfl
    unfold cRun2 cRef2
    rw [hrun]
    simp only
    rw [hforce]
    refine ih _ (n + 1) ⟨⟨h.sim.om, hu, h.sim.green⟩, h.time, h.force, h.conf, fun _ => hf, ?_, h.log⟩ p3 t2
    exact update_ib_holds h.ib hb
  | advance b dt k ih =>
    intro n r S h hp ht
    unfold cRun2 cRef2
    refine ih (n + 1) ⟨h.sim, h.time, h.force, h.conf, h.fresh, ?_, h.log⟩ hp ht
    intro b'
    have hb : IbHolds2 T (C.params gy gx).dx (A b) { r.hist b with P := fun k i => (r.hist b).P k i + dt * (r.hist b).V k i, t := (r.hist b).t + dt } (r.lastX b)
        { S.ib b with v := vbfStep dt (S.ib b).v } := by
      exact ⟨step_stores _ (h.ib b).stores dt, (h.ib b).mapped, (h.ib b).clean⟩
    have := update_ib_holds h.ib hb b'
    rwa [Function.update_eq_self] at this
  | flow dt fs k ih =>
    intro n r S h hp ht
    obtain ⟨a1, a2, a3, a4⟩ := nsForcingStep2_holds hT hC hd hK hK0 hft (ho n).1 dt fs h.sim (forceClean2_holds hT h.force h.conf) h.conf
    have hstep : timeStep2 C K (o n).step dt fs S.sim =
        ({ (nsForcingStep2 C K (o n).step dt fs S.sim).1 with time := (nsForcingStep2 C K (o n).step dt fs S.sim).1.time + dt }, none) := by
      have n1 : C.flowType ≠ "navier_stokes" := by rw [hft]; simp
      unfold timeStep2 flowStep2 Out2.andThen
      rw [if_neg n1, if_pos hft, a1]
    unfold cRun2 cRef2
    rw [hstep]
    simp only
    refine ih (n + 1) ⟨⟨a2.om, a2.u, a2.green⟩, ?_, ?_, fun _ _ _ => rfl, by simp, h.ib, h.log⟩ hp ht
    · simp only
      rw [a3, h.time]
    · intro j c q hc
      simp only
      rw [a4]
      exact ⟨fun _ => rfl, fun _ => rfl⟩
  | stableDt pre k ih =>
    intro n r S h hp ht
    obtain ⟨a1, a2, a3⟩ := pickDt2_holds hT hC hcfl htol h.sim (.stable pre)
    have hst : stableDt2 C tol pre S.sim = ({ S.sim with buf := (stableDt2 C tol pre S.sim).1.buf }, .ok (refDt2 (C.params gy gx) C.cfl tol r.F (.stable pre))) := by
      unfold pickDt2 at a1
      simp only at a1
      rw [← a1]; rfl
    unfold cRun2 cRef2
    rw [hst]
    simp only
    exact ih _ (n + 1) ⟨⟨h.sim.om, h.sim.u, h.sim.green⟩, h.time, h.force, h.conf, h.fresh, h.ib, h.log⟩ hp ht
  | deviation b k ih =>
    intro n r S h hp ht
    unfold cRun2 cRef2
    have : gridDeviation 2 (ranks2 T) (A b).N (S.ib b).v (A b).m = refDeviation 2 (A b).N (r.hist b) :=
      gridDeviation_rms ((A b).vbf T (C.params gy gx).dx) (ranks2_nodup T) (h.ib b).stores (A b).m
    rw [this]
    exact ih _ (n + 1) h hp ht
  | maxVort k ih =>
    intro n r S h hp ht
    have hM := maxOm2_greatest (gy := gy) (gx := gx) (by omega) (by omega) r.F.om
    have hset : {x | ∃ G, Dom2 gy gx G ∧ x = r.F.om G} = {x | ∃ G, InDomain2 T G ∧ x = r.F.om G} := by
      ext x
      simp only [Set.mem_setOf_eq]
      constructor
      · rintro ⟨G, hG, rfl⟩; exact ⟨G, (dom2_iff hT G).1 hG, rfl⟩
      · rintro ⟨G, hG, rfl⟩; exact ⟨G, (dom2_iff hT G).2 hG, rfl⟩
    have hB : Blocks2 T C.g r.F.om S.sim.prim := by rw [hC.g]; exact holdsX2_blocks h.sim.om
    have hmax : maxVorticity2 C S.sim = .ok (sSup {x | ∃ G, Dom2 gy gx G ∧ x = r.F.om G}) := by
      apply maxVorticity2_global hT C (by rw [hC.g]; omega) (by rw [hft]; simp) S.sim hB
      rw [← hset]; exact hM
    unfold cRun2 cRef2
    rw [hmax]
    simp only
    exact ih _ (n + 1) h hp ht
  | ghost k ih =>
    intro n r S h hp ht
    unfold cRun2 cRef2
    obtain ⟨g1, g2⟩ := ghostVel2_holds hT (by omega) (by omega) hslab (ho n).2 h.sim.u
    rw [hC.g]
    exact ih (n + 1) ⟨⟨h.sim.om, g1, h.sim.green⟩, h.time, h.force, h.conf, fun _ => g2, h.ib, h.log⟩ hp ht
  | out x k ih =>
    intro n r S h hp ht
    unfold cRun2 cRef2
    exact ih (n + 1) ⟨h.sim, h.time, h.force, h.conf, h.fresh, h.ib, by simp only; rw [h.log]⟩ hp ht

/-! ## From the constructors -/

omit [DecidableEq B] [NeZero T.gy] [NeZero T.gx] in
/-- The constructor of an interactor accepts a body inside the domain with the default kernel width, and refuses other widths. -/
theorem ibInit2_ok_iff (hT : mkCart2 gy gx py px false = .ok T) (hny : 0 < T.ny) (hnx : 0 < T.nx) {dx : ℝ} (hdx : 0 < dx) {g k : ℕ} {a : Ib2} {X0 : LagField ℝ} (hin : Inside2 gy gx k dx a X0) (t0 : ℝ) :
    (∃ s, ibInit2 T g dx a X0 t0 = .ok s) ↔ a.w = 2 ∧ 2 ≤ g := by
  obtain ⟨addr, hm, -⟩ := owned_of_inside2 hT hny hnx hdx hin
  unfold ibInit2 vbfCheck elCheck
  rw [hm]
  by_cases h1 : a.w ≤ g
  · by_cases h2 : a.w = 2
    · have h3 : ¬ ((g : ℤ) < (a.w : ℤ)) := by omega
      have h4 : ¬ ((a.w : ℤ) > (g : ℤ)) := by omega
      have h5 : ¬ ((g : ℤ) < 2) := by omega
      have h6 : ¬ ((2 : ℤ) > (g : ℤ)) := by omega
      simp [h2, h5, bind, Except.bind]
      omega
    · have h3 : ¬ ((g : ℤ) < (a.w : ℤ)) := by omega
      have h4 : ¬ ((a.w : ℤ) > (g : ℤ)) := by omega
      have h5 : ¬ ((a.w : ℤ) = 2) := by omega
      simp [h2, h3, h4, h5, bind, Except.bind]
  · have h4 : ((a.w : ℤ) > (g : ℤ)) := by omega
    have h5 : ¬ ((2 : ℤ) ≠ 2 ∧ (2 : ℤ) ≠ 3) := by omega
    simp only [h4, h5, if_true, if_false, bind, Except.bind]
    constructor
    · rintro ⟨s, hs⟩; cases hs
    · rintro ⟨h, h'⟩; omega

omit [DecidableEq B] [NeZero T.gy] [NeZero T.gx] in
theorem ibInit2_holds {dx : ℝ} {g : ℕ} {a : Ib2} {X0 : LagField ℝ} {t0 : ℝ} {s : IbSt2} (h : ibInit2 T g dx a X0 t0 = .ok s)
    (hlen : ∀ addr, a.mapping T dx X0 = .ok addr → addr.length = a.N ∧ ∀ c ∈ addr, Valid2 T c) :
    IbHolds2 T dx a (nodeInit t0) X0 s := by
  unfold ibInit2 at h
  simp only [bind, Except.bind] at h
  split at h
  · cases h
  · split at h
    · cases h
    · split at h
      · cases h
      · rename_i addr hm
        cases h
        have had : (a.vbf T dx).addrOf X0 = addr := by
          change okOr [] (a.mapping T dx X0) = addr
          rw [hm]; rfl
        refine ⟨init_stores _ X0 t0 ?_, ?_, fun _ _ => ⟨rfl, rfl⟩⟩
        · rw [had]
          exact ⟨(hlen addr hm).1, fun r hr => mem_ranks2.2 ((hlen addr hm).2 r hr)⟩
        · change a.mapping T dx X0 = .ok ((a.vbf T dx).addrOf X0)
          rw [had]; exact hm

/-- A flow with bodies as a user builds it: simulator with forcing, usable and not too thin; interactors built for bodies inside the domain; initial fields
from the coordinates. -/
structure Setup2 [NeZero T.gy] [NeZero T.gx] (a : SimArgs2) (xr nu cfl : ℝ) (A : B → Ib2) (X0 : B → LagField ℝ) (t0 : B → ℝ) (time : ℝ) (om : ℝ → ℝ → ℝ) (u : Fin 2 → ℝ → ℝ → ℝ)
    (S : CSt2 T B) : Prop where
  fit : Fit2 a T
  flowType : a.flowType = "navier_stokes_with_forcing"
  ord : ∀ b l, SlaveSet l (A b).m ((A b).ord l)
  inside : ∀ b, Inside2 a.gy a.gx 0 (xr / a.gx) (A b) (X0 b)
  ib : ∀ b, ibInit2 T a.g (simDx2 T xr) (A b) (X0 b) (t0 b) = .ok (S.ib b)
  sim : ∃ dbl0 conv0, S.sim = initFrom2 T a.g xr time dbl0 conv0 om u
  log : S.log = []

/-- The state of the run on the global grid at the start. -/
noncomputable def refStart2 (dx : ℝ) (X0 : B → LagField ℝ) (t0 : B → ℝ) (time : ℝ) (om : ℝ → ℝ → ℝ) (u : Fin 2 → ℝ → ℝ → ℝ) : RefC2 B :=
  { F := fieldsFrom2 dx om u, Φ := fun _ _ => 0, time, hist := fun b => nodeInit (t0 b), lastX := X0, log := [], fresh := false }

/-- every reachable state is that of the run on the global grid -/
theorem coupled2_holds {a : SimArgs2} {xr : ℝ} (hxr : 0 < xr) {nu cfl : ℝ} (hcfl : 0 ≤ cfl) {tol : ℝ} (htol : 0 < tol) {K : Kern2} (hK : K.Local)
    (hK0 : ∀ r, K.upd r (fun _ _ => 0) = 0) {A : B → Ib2} {X0 : B → LagField ℝ} {t0 : B → ℝ} {time : ℝ} {om : ℝ → ℝ → ℝ} {u : Fin 2 → ℝ → ℝ → ℝ}
    {S : CSt2 T B} (h : Setup2 a xr nu cfl A X0 t0 time om u S) {o : ℕ → CScheds2} (ho : ∀ n, (o n).Done T (simCfg2 a T xr nu cfl).d) (p : Prog2 B)
    (hp : Proper2 ⟨a.gy, a.gx, xr, nu, widthOf a.width, a.freeStream⟩ K cfl tol A p (refStart2 (xr / a.gx) X0 t0 time om u))
    (ht : Tracked2 T ⟨a.gy, a.gx, xr, nu, widthOf a.width, a.freeStream⟩ K cfl tol A p (refStart2 (xr / a.gx) X0 t0 time om u)) :
    (cRun2 (simCfg2 a T xr nu cfl) K tol A o p 0 S).2 = none ∧ CHolds2 a.gy a.gx (simCfg2 a T xr nu cfl) A (cRef2 ⟨a.gy, a.gx, xr, nu, widthOf a.width, a.freeStream⟩ K cfl tol A p (refStart2 (xr / a.gx) X0 t0 time om u)) (cRun2 (simCfg2 a T xr nu cfl) K tol A o p 0 S).1 ∧
      ∀ b, (A b).Ok := by
  obtain ⟨hT, -⟩ := simCheck2_cart' h.fit.built
  obtain ⟨e1, e2, -⟩ := construct2_ok hT
  have hgood := h.fit.good hxr nu cfl
  obtain ⟨gn, hd⟩ := h.fit.dbl xr nu cfl (by change a.flowType ≠ _; rw [h.flowType]; simp)
  have hdx' : simDx2 T xr = xr / a.gx := by unfold simDx2; rw [e2]
  have hgx0 : T.gx ≠ 0 := NeZero.ne _
  have hdx : 0 < xr / (a.gx : ℝ) := div_pos hxr (by rw [← e2]; exact_mod_cast Nat.pos_of_ne_zero hgx0)
  have hny := h.fit.ny
  have hnx := h.fit.nx
  have hA : ∀ b, (A b).Ok := by
    intro b
    have hib := h.ib b
    rw [hdx'] at hib
    exact ⟨((ibInit2_ok_iff hT (by omega) (by omega) hdx (h.inside b) (t0 b)).1 ⟨_, hib⟩).1, h.ord b⟩
  obtain ⟨dbl0, conv0, hsim⟩ := h.sim
  have hstart : CHolds2 a.gy a.gx (simCfg2 a T xr nu cfl) A (refStart2 (xr / a.gx) X0 t0 time om u) S := by
    refine ⟨?_, ?_, ?_, fun _ _ _ => rfl, (by intro hf; cases hf), ?_, h.log⟩
    · rw [hsim, h.fit.g]
      exact initFrom2_holds hT (simCfg2 a T xr nu cfl) time dbl0 conv0 om u
    · rw [hsim]; rfl
    · intro j c q _
      rw [hsim]
      exact ⟨fun _ => rfl, fun _ => rfl⟩
    · intro b
      have hib := h.ib b
      rw [hdx'] at hib
      refine ibInit2_holds hib ?_
      intro addr hm
      obtain ⟨addr', hm', hl, hv, -⟩ := owned_of_inside2 hT (by omega) (by omega) hdx (h.inside b)
      change (A b).mapping T (xr / a.gx) (X0 b) = .ok addr at hm
      rw [hm] at hm'
      obtain rfl := Except.ok.inj hm'
      exact ⟨hl, hv⟩
  obtain ⟨r1, r2⟩ := cRun2_holds hT hgood hd h.flowType hcfl htol hK hK0 hA ho p 0 hstart hp ht
  exact ⟨r1, r2, hA⟩

/-- C68: flow and bodies, constructed, initialised and driven by any program under any message schedules: no exception, and at the end every inner cell of
every rank holds the vorticity, velocity and forcing of the run on the global grid, the master of each body its forces, and what was printed is the same. -/
theorem coupled2_run {a : SimArgs2} {xr : ℝ} (hxr : 0 < xr) {nu cfl : ℝ} (hcfl : 0 ≤ cfl) {tol : ℝ} (htol : 0 < tol) {K : Kern2} (hK : K.Local)
    (hK0 : ∀ r, K.upd r (fun _ _ => 0) = 0) {A : B → Ib2} {X0 : B → LagField ℝ} {t0 : B → ℝ} {time : ℝ} {om : ℝ → ℝ → ℝ} {u : Fin 2 → ℝ → ℝ → ℝ}
    {S : CSt2 T B} (h : Setup2 a xr nu cfl A X0 t0 time om u S) {o : ℕ → CScheds2} (ho : ∀ n, (o n).Done T (simCfg2 a T xr nu cfl).d) (p : Prog2 B)
    (hp : Proper2 ⟨a.gy, a.gx, xr, nu, widthOf a.width, a.freeStream⟩ K cfl tol A p (refStart2 (xr / a.gx) X0 t0 time om u))
    (ht : Tracked2 T ⟨a.gy, a.gx, xr, nu, widthOf a.width, a.freeStream⟩ K cfl tol A p (refStart2 (xr / a.gx) X0 t0 time om u)) :
    let out := cRun2 (simCfg2 a T xr nu cfl) K tol A o p 0 S
    let ref := cRef2 ⟨a.gy, a.gx, xr, nu, widthOf a.width, a.freeStream⟩ K cfl tol A p (refStart2 (xr / a.gx) X0 t0 time om u)
    out.2 = none ∧ out.1.sim.time = ref.time ∧ out.1.log = ref.log ∧
    (∀ c q, Valid2 T c → Inner2 T ((2 : ℕ) : ℤ) q →
      out.1.sim.prim c q = ref.F.om (globalIx2 T ((2 : ℕ) : ℤ) c q) ∧
      ∀ j, out.1.sim.vel j c q = ref.F.u j (globalIx2 T ((2 : ℕ) : ℤ) c q) ∧ out.1.sim.forcing j c q = ref.Φ j (globalIx2 T ((2 : ℕ) : ℤ) c q)) ∧
    ∀ b, (∀ k < 2, ∀ i < (A b).N, (out.1.ib b).v.gforce k i = (ref.hist b).F k i) ∧ (out.1.ib b).v.time = (ref.hist b).t := by
  obtain ⟨r1, r2, -⟩ := coupled2_holds hxr hcfl htol hK hK0 h ho p hp ht
  intro out ref
  refine ⟨r1, r2.time, r2.log, ?_, ?_⟩
  · intro c q hc hq
    refine ⟨r2.sim.om c q hc (inArr_of_inner2 hq) (Or.inl hq), fun j => ⟨r2.sim.u j c q hc (inArr_of_inner2 hq) (Or.inl hq), (r2.force j c q hc).1 hq⟩⟩
  · intro b
    exact ⟨(r2.ib b).stores.force, (r2.ib b).stores.time⟩

omit [NeZero T.gy] [NeZero T.gx] in
/-- the reference run does not know the master rank and the iteration orders -/
theorem same_bodies2 {A A' : B → Ib2} (hA : ∀ b, A' b = { A b with m := (A' b).m, ord := (A' b).ord, junk := (A' b).junk }) (P : Params2) (K : Kern2) (cfl tol : ℝ)
    (T' : Cart2) (p : Prog2 B) : ∀ r : RefC2 B, cRef2 P K cfl tol A' p r = cRef2 P K cfl tol A p r ∧
      (Proper2 P K cfl tol A' p r ↔ Proper2 P K cfl tol A p r) ∧ (Tracked2 T' P K cfl tol A' p r ↔ Tracked2 T' P K cfl tol A p r) := by
  have hfull : ∀ b X U (r : RefC2 B), refFull2 P.dx (A' b) b X U r = refFull2 P.dx (A b) b X U r := by intro b X U r; rw [hA b]; rfl
  have hforces : ∀ b X U (r : RefC2 B), refForces2 P.dx (A' b) b X U r = refForces2 P.dx (A b) b X U r := by intro b X U r; rw [hA b]; rfl
  have hlag : ∀ b u X U (h : NodeHist ℝ), refLag2 P.dx (A' b) u X U h = refLag2 P.dx (A b) u X U h := by intro b u X U h; rw [hA b]; rfl
  have hin : ∀ k b X, Inside2 P.gy P.gx k P.dx (A' b) X ↔ Inside2 P.gy P.gx k P.dx (A b) X := by intro k b X; rw [hA b]; rfl
  have hno : ∀ b X Y, Noticed2 T' P.dx (A' b) X Y ↔ Noticed2 T' P.dx (A b) X Y := by intro b X Y; rw [hA b]; rfl
  have hau : ∀ b, (A' b).auto = (A b).auto := by intro b; rw [hA b]
  have hN : ∀ b, (A' b).N = (A b).N := by intro b; rw [hA b]
  induction p with
  | stop => intro r; exact ⟨rfl, Iff.rfl, Iff.rfl⟩
  | interact b X U k ih =>
    intro r
    obtain ⟨h1, h2, h3⟩ := ih (refFull2 P.dx (A b) b X U r)
    unfold cRef2 Proper2 Tracked2
    rw [hfull, hin, hno, hau, h1, h2, h3]
    exact ⟨rfl, Iff.rfl, Iff.rfl⟩
  | forces b X U k ih =>
    intro r
    obtain ⟨h1, h2, h3⟩ := ih (refForceField (A b).N (refLag2 P.dx (A b) r.F.u X U (r.hist b))) (refForces2 P.dx (A b) b X U r)
    unfold cRef2 Proper2 Tracked2
    rw [hforces, hlag, hN, hin, hno, hau, h1, h2, h3]
    exact ⟨rfl, Iff.rfl, Iff.rfl⟩
  | advance b dt k ih => intro r; exact ih _
  | flow dt fs k ih => intro r; exact ih _
  | stableDt pre k ih => intro r; exact ih _ _
  | deviation b k ih =>
    intro r
    unfold cRef2 Proper2 Tracked2
    rw [hN]
    exact ih _ _
  | maxVort k ih => intro r; exact ih _ _
  | ghost k ih => intro r; exact ih _
  | out x k ih => intro r; exact ih _

/-- C68: two decompositions, any message schedules: the same time, the same output, the same fields and forcing in every cell, the same forces on every
node. -/
theorem coupled2_decomposition_independent {a a' : SimArgs2} (hsame : a' = { a with py := a'.py, px := a'.px }) {T' : Cart2} [NeZero T'.gy] [NeZero T'.gx]
    {xr : ℝ} (hxr : 0 < xr) {nu cfl : ℝ} (hcfl : 0 ≤ cfl) {tol : ℝ} (htol : 0 < tol) {K : Kern2} (hK : K.Local)
    (hK0 : ∀ r, K.upd r (fun _ _ => 0) = 0) {A A' : B → Ib2} (hA : ∀ b, A' b = { A b with m := (A' b).m, ord := (A' b).ord, junk := (A' b).junk })
    {X0 : B → LagField ℝ} {t0 : B → ℝ} {time : ℝ} {om : ℝ → ℝ → ℝ} {u : Fin 2 → ℝ → ℝ → ℝ}
    {S : CSt2 T B} (h : Setup2 a xr nu cfl A X0 t0 time om u S) {S' : CSt2 T' B} (h' : Setup2 a' xr nu cfl A' X0 t0 time om u S')
    {o o' : ℕ → CScheds2} (ho : ∀ n, (o n).Done T (simCfg2 a T xr nu cfl).d) (ho' : ∀ n, (o' n).Done T' (simCfg2 a' T' xr nu cfl).d) (p : Prog2 B)
    (hp : Proper2 ⟨a.gy, a.gx, xr, nu, widthOf a.width, a.freeStream⟩ K cfl tol A p (refStart2 (xr / a.gx) X0 t0 time om u))
    (ht : Tracked2 T ⟨a.gy, a.gx, xr, nu, widthOf a.width, a.freeStream⟩ K cfl tol A p (refStart2 (xr / a.gx) X0 t0 time om u))
    (ht' : Tracked2 T' ⟨a.gy, a.gx, xr, nu, widthOf a.width, a.freeStream⟩ K cfl tol A p (refStart2 (xr / a.gx) X0 t0 time om u)) :
    let out := cRun2 (simCfg2 a T xr nu cfl) K tol A o p 0 S
    let out' := cRun2 (simCfg2 a' T' xr nu cfl) K tol A' o' p 0 S'
    out.2 = none ∧ out'.2 = none ∧ out.1.sim.time = out'.1.sim.time ∧ out.1.log = out'.1.log ∧
    (∀ c q c' q', Valid2 T c → Inner2 T ((2 : ℕ) : ℤ) q → Valid2 T' c' → Inner2 T' ((2 : ℕ) : ℤ) q' →
      globalIx2 T ((2 : ℕ) : ℤ) c q = globalIx2 T' ((2 : ℕ) : ℤ) c' q' →
      out.1.sim.prim c q = out'.1.sim.prim c' q' ∧
      ∀ j, out.1.sim.vel j c q = out'.1.sim.vel j c' q' ∧ out.1.sim.forcing j c q = out'.1.sim.forcing j c' q') ∧
    ∀ b, (∀ k < 2, ∀ i < (A b).N, (out.1.ib b).v.gforce k i = (out'.1.ib b).v.gforce k i) ∧ (out.1.ib b).v.time = (out'.1.ib b).v.time := by
  have hNA : ∀ b, (A' b).N = (A b).N := fun b => by rw [hA b]
  have e : (⟨a'.gy, a'.gx, xr, nu, widthOf a'.width, a'.freeStream⟩ : Params2) = ⟨a.gy, a.gx, xr, nu, widthOf a.width, a.freeStream⟩ := by rw [hsame]
  have eg : (a'.gx : ℝ) = a.gx := by rw [hsame]
  have hind := same_bodies2 hA
  have hp' := (hind ⟨a.gy, a.gx, xr, nu, widthOf a.width, a.freeStream⟩ K cfl tol T' p (refStart2 (xr / a.gx) X0 t0 time om u))
  obtain ⟨r1, r2, r3, r4, r5⟩ := coupled2_run hxr hcfl htol hK hK0 h ho p hp ht
  obtain ⟨s1, s2, s3, s4, s5⟩ := coupled2_run hxr hcfl htol hK hK0 h' ho' p (by rw [e, eg]; exact hp'.2.1.2 hp) (by rw [e, eg]; exact hp'.2.2.2 ht')
  rw [e, eg, hp'.1] at s2 s3 s4 s5
  intro out out'
  refine ⟨r1, s1, r2.trans s2.symm, r3.trans s3.symm, ?_, ?_⟩
  · intro c q c' q' hc hq hc' hq' hG
    obtain ⟨x1, x2⟩ := r4 c q hc hq
    obtain ⟨y1, y2⟩ := s4 c' q' hc' hq'
    rw [hG] at x1
    refine ⟨x1.trans y1.symm, fun j => ?_⟩
    obtain ⟨x3, x4⟩ := x2 j
    obtain ⟨y3, y4⟩ := y2 j
    rw [hG] at x3 x4
    exact ⟨x3.trans y3.symm, x4.trans y4.symm⟩
  · intro b
    refine ⟨fun k hk i hi => ((r5 b).1 k hk i hi).trans ((s5 b).1 k hk i (by rw [hNA]; exact hi)).symm, (r5 b).2.trans (s5 b).2.symm⟩

/-! ## When remappings are noticed -/

theorem forall2_mem_right {α β : Type} {R : α → β → Prop} {l : List α} {m : List β} (h : List.Forall₂ R l m) : ∀ c ∈ m, ∃ x, x ∈ l ∧ R x c := by
  induction h with
  | nil => intro c hc; cases hc
  | cons hxy _ ih =>
    intro c hc
    rcases List.mem_cons.1 hc with rfl | hc
    · exact ⟨_, List.mem_cons_self, hxy⟩
    · obtain ⟨x, h1, h2⟩ := ih c hc
      exact ⟨x, List.mem_cons_of_mem _ h1, h2⟩

theorem mapM_ok_forall {A' E : Type} {f : A' → Except PyErr E} : ∀ {l : List A'} {ys : List E}, l.mapM f = .ok ys → List.Forall₂ (fun x y => f x = .ok y) l ys := by
  intro l
  induction l with
  | nil =>
    intro ys h
    simp only [List.mapM_nil, pure, Except.pure] at h
    cases h; exact .nil
  | cons x l ih =>
    intro ys h
    simp only [List.mapM_cons, bind, Except.bind, pure, Except.pure] at h
    cases hx : f x with
    | error e => rw [hx] at h; cases h
    | ok y =>
      rw [hx] at h
      simp only at h
      cases hl : l.mapM f with
      | error e => rw [hl] at h; cases h
      | ok ys' =>
        rw [hl] at h
        simp only at h
        cases h
        exact .cons hx (ih hl)

theorem npIdx_range {P : ℕ} {i j : ℤ} (h : npIdx P i = some j) : 0 ≤ j ∧ j < P := by
  unfold npIdx at h
  split at h
  · cases h; assumption
  · split at h
    · cases h; omega
    · cases h

omit [DecidableEq B] [NeZero T.gy] [NeZero T.gx] in
theorem mapping_valid2 {dx : ℝ} {a : Ib2} {X : LagField ℝ} {l : List C2} (h : a.mapping T dx X = .ok l) : l.length = a.N ∧ ∀ c ∈ l, Valid2 T c := by
  unfold Ib2.mapping rankAddress2 at h
  dsimp only at h
  split at h
  · cases h
  · have hf := mapM_ok_forall h
    refine ⟨?_, ?_⟩
    · rw [← hf.length_eq]; simp [points2]
    · intro c hc
      obtain ⟨x, -, hx⟩ : ∃ x, x ∈ (points2 a.N X).map (subblock2 T dx (a.sh dx)) ∧ (match npIdx T.py x.1, npIdx T.px x.2 with
          | some i, some j => (Except.ok (i, j) : Except PyErr C2)
          | _, _ => .error .indexError) = .ok c := by
        exact forall2_mem_right hf c hc
      split at hx
      · rename_i i j hi hj
        cases hx
        have r1 := npIdx_range hi
        have r2 := npIdx_range hj
        exact ⟨r1.1, r1.2, r2.1, r2.2⟩
      · cases hx

omit [NeZero T.gy] [NeZero T.gx] in
/-- C68: on a single rank every remapping is noticed. -/
theorem tracked2_single (hpy : T.py = 1) (hpx : T.px = 1) (P : Params2) (K : Kern2) (cfl tol : ℝ) (A : B → Ib2) (p : Prog2 B) :
    ∀ r : RefC2 B, Tracked2 T P K cfl tol A p r := by
  have hno : ∀ b X Y, Noticed2 T P.dx (A b) X Y := by
    intro b X Y l l' h h'
    obtain ⟨a1, a2⟩ := mapping_valid2 h
    obtain ⟨b1, b2⟩ := mapping_valid2 h'
    have hv : ∀ c : C2, Valid2 T c → c = (0, 0) := by
      rintro ⟨c1, c2⟩ ⟨h1, h2, h3, h4⟩
      rw [hpy] at h2; rw [hpx] at h4
      simp only at h1 h2 h3 h4
      have e1 : c1 = 0 := by omega
      have e2 : c2 = 0 := by omega
      rw [e1, e2]
    left
    rw [List.eq_replicate_iff.2 ⟨a1, fun c hc => hv c (a2 c hc)⟩, List.eq_replicate_iff.2 ⟨b1, fun c hc => hv c (b2 c hc)⟩]
  induction p with
  | stop => intro r; trivial
  | interact b X U k ih => intro r; exact ⟨hno b _ _, ih _⟩
  | forces b X U k ih => intro r; exact ⟨hno b _ _, ih _ _⟩
  | advance b dt k ih => intro r; exact ih _
  | flow dt fs k ih => intro r; exact ih _
  | stableDt pre k ih => intro r; exact ih _ _
  | deviation b k ih => intro r; exact ih _ _
  | maxVort k ih => intro r; exact ih _ _
  | ghost k ih => intro r; exact ih _
  | out x k ih => intro r; exact ih _

/-- The driver does not move the bodies. -/
def Still2 (X0 : B → LagField ℝ) : Prog2 B → Prop
  | .stop => True
  | .interact b X _ k => X = X0 b ∧ Still2 X0 k
  | .forces b X _ k => X = X0 b ∧ ∀ f, Still2 X0 (k f)
  | .advance _ _ k => Still2 X0 k
  | .flow _ _ k => Still2 X0 k
  | .stableDt _ k => ∀ x, Still2 X0 (k x)
  | .deviation _ k => ∀ x, Still2 X0 (k x)
  | .maxVort k => ∀ x, Still2 X0 (k x)
  | .ghost k => Still2 X0 k
  | .out _ k => Still2 X0 k

omit [NeZero T.gy] [NeZero T.gx] in
/-- C68: bodies that do not move are never remapped, on any decomposition. -/
theorem tracked2_still (P : Params2) (K : Kern2) (cfl tol : ℝ) (A : B → Ib2) (X0 : B → LagField ℝ) (p : Prog2 B) (hs : Still2 X0 p) :
    ∀ r : RefC2 B, r.lastX = X0 → Tracked2 T P K cfl tol A p r := by
  have hno : ∀ b X, Noticed2 T P.dx (A b) X X := by
    intro b X l l' h h'
    rw [h] at h'
    exact Or.inl (Except.ok.inj h').symm
  induction p with
  | stop => intro r _; trivial
  | interact b X U k ih =>
    intro r hr
    obtain ⟨rfl, hs⟩ := hs
    refine ⟨by rw [hr]; exact hno b _, ih hs _ ?_⟩
    simp only [refFull2, refForces2]
    rw [hr, Function.update_eq_self]
  | forces b X U k ih =>
    intro r hr
    obtain ⟨rfl, hs⟩ := hs
    refine ⟨by rw [hr]; exact hno b _, ih _ (hs _) _ ?_⟩
    simp only [refForces2]
    rw [hr, Function.update_eq_self]
  | advance b dt k ih => intro r hr; exact ih hs _ hr
  | flow dt fs k ih => intro r hr; exact ih hs _ hr
  | stableDt pre k ih => intro r hr; exact ih _ (hs _) _ hr
  | deviation b k ih => intro r hr; exact ih _ (hs _) _ hr
  | maxVort k ih => intro r hr; exact ih _ (hs _) _ hr
  | ghost k ih => intro r hr; exact ih hs _ hr
  | out x k ih => intro r hr; exact ih hs _ hr

/-! ## The hypotheses can be met -/

omit [NeZero T.gy] [NeZero T.gx] in
theorem cscheds2_exist (T : Cart2) (d : Fin 2) : ∃ o : ℕ → CScheds2, ∀ n, (o n).Done T d := by
  obtain ⟨s, hs⟩ := scheds2_exist T d
  obtain ⟨g, hg⟩ := complete_schedule_exists (multiMsgs2 T 2 false ([0, 1] : List (Fin 2)))
  exact ⟨fun _ => ⟨s, g⟩, fun _ => ⟨hs, hg⟩⟩

/-- A body of two nodes at (3.7, 5.5) and (4.2, 6) cell widths, between the two ranks of a 16 × 8 grid cut into two columns. -/
def exBody2 : Ib2 :=
  { N := 2, m := (0, 1), ord := fun l => (l.dedup).filter (· ≠ (0, 1)), junk := fun _ _ => 7, stiff := -5, damp := -1, lagDx := 1, shift := some 0, width := none,
    reset := false, auto := true }

/-- positions of its nodes, for a domain of length 8 -/
noncomputable def exPos2 : LagField ℝ := fun k i => if k = 0 then (if i = 0 then 3.7 else 4.2) else (if i = 0 then 5.5 else 6)

theorem exBody2_inside : Inside2 16 8 1 1 exBody2 exPos2 := by
  have f1 : ⌊(3.7 : ℝ)⌋ = 3 := by norm_num [Int.floor_eq_iff]
  have f2 : ⌊(4.2 : ℝ)⌋ = 4 := by norm_num [Int.floor_eq_iff]
  have f3 : ⌊(5.5 : ℝ)⌋ = 5 := by norm_num [Int.floor_eq_iff]
  have f4 : ⌊(6 : ℝ)⌋ = 6 := by norm_num
  intro i hi G hG
  change i < 2 at hi
  unfold window2 winCells cellOf at hG
  simp only [Finset.mem_product, Finset.mem_Ioc, Ib2.sh, exBody2, Option.getD_some, sub_zero, div_one] at hG
  unfold Away2
  interval_cases i <;> simp only [exPos2, if_true, if_false, one_ne_zero] at hG
  · rw [f1, f3] at hG; push_cast at hG ⊢; omega
  · rw [f2, f4] at hG; push_cast at hG ⊢; omega

/-- The nodes belong to different ranks. -/
theorem exBody2_mapping : exBody2.mapping ⟨16, 8, 1, 2, 16, 4, false⟩ 1 exPos2 = .ok [(0, 0), (0, 1)] := by
  have t1 : truncZ ((3.7 : ℝ) / 4) = 0 := by unfold truncZ; norm_num [Int.floor_eq_iff]
  have t2 : truncZ ((4.2 : ℝ) / 4) = 1 := by unfold truncZ; norm_num [Int.floor_eq_iff]
  have t3 : truncZ ((5.5 : ℝ) / 16) = 0 := by unfold truncZ; norm_num [Int.floor_eq_iff]
  have t4 : truncZ ((6 : ℝ) / 16) = 0 := by unfold truncZ; norm_num [Int.floor_eq_iff]
  have b0 : subblock2 ⟨16, 8, 1, 2, 16, 4, false⟩ (1 : ℝ) 0 (3.7, 5.5) = (0, 0) := by
    unfold subblock2; simp only [sub_zero, one_mul]; push_cast; rw [t1, t3]
  have b1 : subblock2 ⟨16, 8, 1, 2, 16, 4, false⟩ (1 : ℝ) 0 (4.2, 6) = (0, 1) := by
    unfold subblock2; simp only [sub_zero, one_mul]; push_cast; rw [t2, t4]
  have hp : points2 exBody2.N exPos2 = [(3.7, 5.5), (4.2, 6)] := by
    unfold points2 exBody2 exPos2
    simp [List.range_succ]
  unfold Ib2.mapping
  rw [hp]
  unfold rankAddress2
  simp only [Ib2.sh, exBody2, Option.getD_some, List.map_cons, List.map_nil, b0, b1]
  rfl

/-- One iteration of the flow past a body: ask for the time step, interact, advance the body and the flow, print the deviation; then the same again without
asking. -/
noncomputable def exProg2 : Prog2 Unit :=
  .stableDt 0.5 fun dt => .interact () exPos2 (fun _ _ => 0) <| .advance () dt <| .flow dt (fun _ => 1) <| .deviation () fun e => .out e <|
    .ghost <| .forces () exPos2 (fun _ _ => 0) fun f => .interact () exPos2 (fun k _ => f k 0) <| .flow (dt / 2) (fun _ => 1) .stop

theorem exProper2 (P : Params2) (hP : P.gy = 16 ∧ P.gx = 8 ∧ P.dx = 1) (K : Kern2) (cfl tol : ℝ) (T : Cart2) (r : RefC2 Unit) (hr : r.lastX = fun _ => exPos2) :
    Proper2 P K cfl tol (fun _ => exBody2) exProg2 r ∧ Tracked2 T P K cfl tol (fun _ => exBody2) exProg2 r := by
  obtain ⟨h1, h2, h3⟩ := hP
  have hi := exBody2_inside
  have hi0 : Inside2 16 8 0 1 exBody2 exPos2 := by
    intro i hI G hG
    have := hi i hI G hG
    unfold Away2 at this ⊢
    push_cast at this ⊢; omega
  constructor
  · unfold exProg2
    simp only [Proper2, h1, h2, h3]
    exact ⟨hi, Or.inl rfl, hi0, Or.inl rfl, hi, Or.inl rfl, trivial⟩
  · refine tracked2_still P K cfl tol _ (fun _ => exPos2) _ ?_ r hr
    unfold exProg2
    simp only [Still2]
    simp

/-- Flow and body can be set up on one rank and on two, and the driver above meets the hypotheses on both. -/
theorem exSetup2 [NeZero (⟨16, 8, 1, 2, 16, 4, false⟩ : Cart2).gy] [NeZero (⟨16, 8, 1, 2, 16, 4, false⟩ : Cart2).gx] [NeZero (⟨16, 8, 1, 1, 16, 8, false⟩ : Cart2).gy]
    [NeZero (⟨16, 8, 1, 1, 16, 8, false⟩ : Cart2).gx] (nu cfl : ℝ) (om : ℝ → ℝ → ℝ) (u : Fin 2 → ℝ → ℝ → ℝ) :
    (∃ S : CSt2 ⟨16, 8, 1, 2, 16, 4, false⟩ Unit, Setup2 ⟨16, 8, 1, 2, "navier_stokes_with_forcing", true, 2, .int 2⟩ 8 nu cfl (fun _ => exBody2) (fun _ => exPos2)
      (fun _ => 0) 0 om u S) ∧
    (∃ S : CSt2 ⟨16, 8, 1, 1, 16, 8, false⟩ Unit, Setup2 ⟨16, 8, 1, 1, "navier_stokes_with_forcing", true, 2, .int 2⟩ 8 nu cfl (fun _ => exBody2) (fun _ => exPos2)
      (fun _ => 0) 0 om u S) := by
  have hi0 : Inside2 16 8 0 1 exBody2 exPos2 := by
    intro i hI G hG
    have := exBody2_inside i hI G hG
    unfold Away2 at this ⊢
    push_cast at this ⊢; omega
  have key : ∀ (a : SimArgs2) (T : Cart2) [NeZero T.gy] [NeZero T.gx], Fit2 a T → a.gy = 16 → a.gx = 8 → a.flowType = "navier_stokes_with_forcing" →
      ∃ S : CSt2 T Unit, Setup2 a 8 nu cfl (fun _ => exBody2) (fun _ => exPos2) (fun _ => 0) 0 om u S := by
    intro a T _ _ hfit h1 h2 h3
    obtain ⟨hT, -⟩ := simCheck2_cart' hfit.built
    obtain ⟨e1, e2, -⟩ := construct2_ok hT
    have hny := hfit.ny
    have hnx := hfit.nx
    have hd : simDx2 T 8 = 1 := by unfold simDx2; rw [e2, h2]; norm_num
    have hd' : (8 : ℝ) / a.gx = 1 := by rw [h2]; norm_num
    obtain ⟨s, hs⟩ := (ibInit2_ok_iff hT (by omega) (by omega) one_pos (g := a.g) (k := 0) (a := exBody2) (X0 := exPos2) (by rw [h1, h2]; exact hi0) 0).2
      ⟨rfl, by rw [hfit.g]⟩
    refine ⟨⟨initFrom2 T a.g 8 0 0 0 om u, fun _ => s, []⟩, hfit, h3, ?_, ?_, ?_, ⟨_, _, rfl⟩, rfl⟩
    · intro _ l
      refine ⟨?_, ?_⟩
      · exact (List.nodup_dedup l).filter _
      · intro x; simp [exBody2]
    · intro _; rw [hd', h1, h2]; exact hi0
    · intro _; rw [hd]; exact hs
  refine ⟨key _ _ ⟨by decide, ⟨by decide, fun _ => ⟨by decide, 2, rfl⟩⟩, rfl, by decide, by decide, by decide, by decide⟩ rfl rfl rfl,
    key _ _ ⟨by decide, ⟨by decide, fun _ => ⟨by decide, 2, rfl⟩⟩, rfl, by decide, by decide, by decide, by decide⟩ rfl rfl rfl⟩

end Sopht
