import Verif.Interactor3DProps
import Verif.Interactor2DRun

/-! # Whole 3D simulations with immersed bodies (C70) -/

namespace Sopht

set_option linter.unusedSimpArgs false

variable {gz gy gx pz py px : ℕ} {T : Cart3} {B : Type} [DecidableEq B]

/-- The ranks hold the state `r` of the reference run. -/
structure CHolds3 [NeZero T.gz] [NeZero T.gy] [NeZero T.gx] (gz gy gx : ℕ) (C : Cfg3) (A : B → Ib3) (r : RefC3 B) (S : CSt3 T B) : Prop where
  sim : SimHolds3 C r.F S.sim
  time : S.sim.time = r.time
  force : ForceClean3 T C.g r.Φ S.sim.forcing
  conf : Confined3 gz gy gx r.Φ
  fresh : r.fresh = true → FreshVel3 T C.g r.F.u S.sim.vel
  ib : ∀ b, IbHolds3 T (C.params gz gy gx).dx (A b) (r.hist b) (r.lastX b) (S.ib b)
  log : S.log = r.log

/-- All messages of a call are delivered. -/
structure CScheds3.Done (T : Cart3) (g : ℕ) (s : CScheds3) : Prop where
  step : s.step.Done T g true
  ghost : Complete (multiMsgs3 T g true ([0, 1, 2] : List (Fin 3))) s.ghost
  div : Complete (multiMsgs3 T g true ([0, 1, 2] : List (Fin 3))) s.div.2

theorem maxOm3_greatest (hz : 0 < gz) (hy : 0 < gy) (hx : 0 < gx) (f : Fin 3 → C3 → ℝ) :
    IsGreatest {x | ∃ j G, Dom3 gz gy gx G ∧ x = f j G} (sSup {x | ∃ j G, Dom3 gz gy gx G ∧ x = f j G}) := by
  have hfin : {x | ∃ j G, Dom3 gz gy gx G ∧ x = f j G}.Finite := by
    have : {x | ∃ j G, Dom3 gz gy gx G ∧ x = f j G} ⊆
        (fun q : Fin 3 × C3 => f q.1 q.2) '' (Set.univ ×ˢ (Set.Icc (0 : ℤ) gz ×ˢ Set.Icc (0 : ℤ) gy ×ˢ Set.Icc (0 : ℤ) gx)) := by
      rintro x ⟨j, G, ⟨h1, h2, h3, h4, h5, h6⟩, rfl⟩
      exact ⟨(j, G), ⟨Set.mem_univ _, ⟨⟨h1, le_of_lt h2⟩, ⟨h3, le_of_lt h4⟩, h5, le_of_lt h6⟩⟩, rfl⟩
    exact Set.Finite.subset (Set.Finite.image _ (Set.finite_univ.prod ((Set.finite_Icc _ _).prod ((Set.finite_Icc _ _).prod (Set.finite_Icc _ _))))) this
  have hne : {x | ∃ j G, Dom3 gz gy gx G ∧ x = f j G}.Nonempty :=
    ⟨_, 0, (0, 0, 0), ⟨by simp, by simpa using hz, by simp, by simpa using hy, by simp, by simpa using hx⟩, rfl⟩
  exact ⟨hne.csSup_mem hfin, fun x hx => le_csSup hfin.bddAbove hx⟩

theorem update_ib_holds3 {dx : ℝ} {A : B → Ib3} {hist : B → NodeHist ℝ} {lastX : B → LagField ℝ} {ib : B → IbSt3}
    (h : ∀ b, IbHolds3 T dx (A b) (hist b) (lastX b) (ib b)) {b : B} {h' : NodeHist ℝ} {X' : LagField ℝ} {s' : IbSt3} (hb : IbHolds3 T dx (A b) h' X' s') (b' : B) :
    IbHolds3 T dx (A b') (Function.update hist b h' b') (Function.update lastX b X' b') (Function.update ib b s' b') := by
  by_cases e : b' = b
  · subst e
    rw [Function.update_self, Function.update_self, Function.update_self]; exact hb
  · rw [Function.update_of_ne e, Function.update_of_ne e, Function.update_of_ne e]; exact h b'

variable [NeZero T.gz] [NeZero T.gy] [NeZero T.gx]

/-- C70: a driver on any decomposition does what it does on the global grid. -/
theorem cRun3_holds (hT : mkCart3 gz gy gx pz py px false = .ok T) {C : Cfg3} (hC : Good3 T C) (hxr : 0 < C.xr)
    (hft : C.flowType = "navier_stokes_with_forcing") (hcfl : 0 ≤ C.cfl) (hnu : 0 ≤ C.nu) {tol : ℝ} (htol : 0 < tol) {K : Kern3} (hK : K.Local)
    (hKd : ∀ a, CrossLocal3 1 (K.div a)) (hK0 : ∀ a, K.upd a (fun _ _ => 0) = 0) {A : B → Ib3} (hA : ∀ b, (A b).Ok) (hg2 : ∀ _ : B, 2 ≤ C.g)
    {o : ℕ → CScheds3} (ho : ∀ n, (o n).Done T C.g) (p : Prog3 B) :
    ∀ (n : ℕ) {r : RefC3 B} {S : CSt3 T B}, CHolds3 gz gy gx C A r S → Proper3 (C.params gz gy gx) K C.cfl tol A p r →
      Tracked3 T (C.params gz gy gx) K C.cfl tol A p r →
      (cRun3 C K tol A o p n S).2 = none ∧ CHolds3 gz gy gx C A (cRef3 (C.params gz gy gx) K C.cfl tol A p r) (cRun3 C K tol A o p n S).1 := by
  obtain ⟨e0, e1, e2, -⟩ := construct3_ok hT
  have hgx0 : T.gx ≠ 0 := NeZero.ne _
  have hgy0 : T.gy ≠ 0 := NeZero.ne _
  have hgz0 : T.gz ≠ 0 := NeZero.ne _
  have hfull : C.full = true := by unfold Cfg3.full; rw [hft]; simp
  have hns : isNS C.flowType = true := by rw [hft]; rfl
  have hdx' : simDx3 T C.xr = (C.params gz gy gx).dx := params3_dx hT C
  have hdx : 0 < (C.params gz gy gx).dx := by
    rw [← hdx']; unfold simDx3
    exact div_pos hxr (by exact_mod_cast Nat.pos_of_ne_zero hgx0)
  induction p with
  | stop => intro n r S h _ _; exact ⟨rfl, h⟩
  | interact b X U k ih =>
    intro n r S h hp ht
    obtain ⟨p1, p2, p3⟩ := hp
    obtain ⟨t1, t2⟩ := ht
    obtain ⟨vel, f, b', hrun, hu, hf, hb, hΦ⟩ := fullInteract3_holds hT rfl (hg2 b) hfull hC.gz hC.gy hC.gx hdx hdx' (hA b) (ho n).ghost h.sim.u
      (p2.imp_right h.fresh) p1 (U := U) t1 (h.ib b) h.force
    unfold cRun3 cRef3
    rw [hrun]
    simp only
    refine ih (n + 1) ⟨⟨h.sim.sc, h.sim.om, hu, h.sim.green⟩, h.time, hΦ, refSpread3_confined p1 _ h.conf, fun _ => hf, ?_, h.log⟩ p3 t2
    exact update_ib_holds3 h.ib hb
  | forces b X U k ih =>
    intro n r S h hp ht
    obtain ⟨p1, p2, p3⟩ := hp
    obtain ⟨t1, t2⟩ := ht
    obtain ⟨vel, v, hrun, hu, hf, hb, -⟩ := lagInteract3_holds hT rfl (hg2 b) hfull hC.gz hC.gy hC.gx hdx hdx' (hA b) (ho n).ghost h.sim.u
      (p2.imp_right h.fresh) p1 (U := U) t1 (h.ib b)
    have hforce : forcesOf3 3 (A b).N v = refForceField3 (A b).N (refLag3 (C.params gz gy gx).dx (A b) r.F.u X U (r.hist b)) := by
      funext k i
      unfold forcesOf3 refForceField3
      split
      · rename_i hki
        exact hb.stores.force k hki.1 i hki.2
      · rfl
    unfold cRun3 cRef3
    rw [hrun]
    simp only
    rw [hforce]
    refine ih _ (n + 1) ⟨⟨h.sim.sc, h.sim.om, hu, h.sim.green⟩, h.time, h.force, h.conf, fun _ => hf, ?_, h.log⟩ p3 t2
    exact update_ib_holds3 h.ib hb
  | advance b dt k ih =>
    intro n r S h hp ht
    unfold cRun3 cRef3
    refine ih (n + 1) ⟨h.sim, h.time, h.force, h.conf, h.fresh, ?_, h.log⟩ hp ht
    intro b'
    have hb : IbHolds3 T (C.params gz gy gx).dx (A b) { r.hist b with P := fun k i => (r.hist b).P k i + dt * (r.hist b).V k i, t := (r.hist b).t + dt } (r.lastX b)
        { S.ib b with v := vbfStep dt (S.ib b).v } := by
      exact ⟨step_stores _ (h.ib b).stores dt, (h.ib b).mapped, (h.ib b).clean⟩
    have := update_ib_holds3 h.ib hb b'
    rwa [Function.update_eq_self] at this
  | flow dt fs k ih =>
    intro n r S h hp ht
    obtain ⟨a1, a2⟩ := nsForcingStep3_holds hT hC hxr hK hK0 (by rw [hfull]; exact (ho n).step) dt fs h.sim (forceClean3_holds hT h.force h.conf) h.conf
    have hfs : flowStep3 C K (o n).step dt (some fs) S.sim = nsForcingStep3 C K (o n).step dt fs S.sim := by
      have n1 : C.flowType ≠ "navier_stokes" := by rw [hft]; simp
      unfold flowStep3
      rw [if_pos hns]
      exact if_neg n1
    have a3 := flowStep3_time C K (o n).step dt (some fs) S.sim
    rw [hfs] at a3
    have a4 : (nsForcingStep3 C K (o n).step dt fs S.sim).1.forcing = fun _ _ _ => 0 := by
      revert a1
      unfold nsForcingStep3
      dsimp only
      unfold Out3.andThen
      split
      · intro hc; cases hc
      · intro _; rfl
    have hstep : timeStep3 C K (o n).step dt (some fs) S.sim =
        ({ (nsForcingStep3 C K (o n).step dt fs S.sim).1 with time := (nsForcingStep3 C K (o n).step dt fs S.sim).1.time + dt }, none) := by
      unfold timeStep3
      rw [hfs]
      unfold Out3.andThen
      rw [a1]
    unfold cRun3 cRef3
    rw [hstep]
    simp only
    refine ih (n + 1) ⟨⟨a2.sc, a2.om, a2.u, a2.green⟩, ?_, ?_, fun _ _ _ => rfl, by simp, h.ib, h.log⟩ hp ht
    · simp only
      rw [a3, h.time]
    · intro j c q hc
      simp only
      rw [a4]
      exact ⟨fun _ => rfl, fun _ => rfl⟩
  | stableDt pre k ih =>
    intro n r S h hp ht
    obtain ⟨a1, a2, a3⟩ := pickDt3_holds hT hC.g hcfl hxr hnu htol h.sim (.stable pre)
    have hst : stableDt3 C tol pre S.sim = ({ S.sim with buf := (stableDt3 C tol pre S.sim).1.buf }, .ok (refDt3 (C.params gz gy gx) C.cfl tol r.F (.stable pre))) := by
      unfold pickDt3 at a1
      simp only at a1
      rw [← a1]; rfl
    unfold cRun3 cRef3
    rw [hst]
    simp only
    exact ih _ (n + 1) ⟨⟨h.sim.sc, h.sim.om, h.sim.u, h.sim.green⟩, h.time, h.force, h.conf, h.fresh, h.ib, h.log⟩ hp ht
  | deviation b k ih =>
    intro n r S h hp ht
    unfold cRun3 cRef3
    have : gridDeviation 3 (ranks3 T) (A b).N (S.ib b).v (A b).m = refDeviation 3 (A b).N (r.hist b) :=
      gridDeviation_rms ((A b).vbf T (C.params gz gy gx).dx) (ranks3_nodup T) (h.ib b).stores (A b).m
    rw [this]
    exact ih _ (n + 1) h hp ht
  | maxVort k ih =>
    intro n r S h hp ht
    have hM := maxOm3_greatest (gz := gz) (gy := gy) (gx := gx) (by omega) (by omega) (by omega) r.F.om
    have hset : {x | ∃ j G, Dom3 gz gy gx G ∧ x = r.F.om j G} = {x | ∃ j G, InDomain3 T G ∧ x = r.F.om j G} := by
      ext x
      simp only [Set.mem_setOf_eq]
      constructor
      · rintro ⟨j, G, hG, rfl⟩; exact ⟨j, G, (dom3_iff hT G).1 hG, rfl⟩
      · rintro ⟨j, G, hG, rfl⟩; exact ⟨j, G, (dom3_iff hT G).2 hG, rfl⟩
    have hmax : maxVorticity3 C S.sim = .ok (sSup {x | ∃ j G, Dom3 gz gy gx G ∧ x = r.F.om j G}) := by
      apply maxVorticity3_global hT C hC.g hns S.sim (fun j => holdsX3_holds (h.sim.om j))
      rw [← hset]; exact hM
    unfold cRun3 cRef3
    rw [hmax]
    simp only
    exact ih _ (n + 1) h hp ht
  | divNorm k ih =>
    intro n r S h hp ht
    have hd : (divNorm3 C K (o n).div S.sim).2 = .ok (refDiv3 (C.params gz gy gx) K r.F.om) :=
      divNorm3_global hT ⟨by omega, by omega, by omega⟩ C hC.g hC.gz hC.gy hC.gx hns K hKd (by rw [hfull]; exact (ho n).div) S.sim
        (fun j => holdsX3_holds (h.sim.om j))
    have hst : divNorm3 C K (o n).div S.sim = ({ S.sim with buf := (divNorm3 C K (o n).div S.sim).1.buf, om := ofFam (multiExchange3 T C.g C.full [0, 1, 2] (asFam S.sim.om) (o n).div.2) },
        .ok (refDiv3 (C.params gz gy gx) K r.F.om)) := by
      rw [← hd]
      unfold divNorm3
      rw [if_pos hns]
    have hom : ∀ j, HoldsX3 T C.g (r.F.om j) (ofFam (multiExchange3 T C.g C.full [0, 1, 2] (asFam S.sim.om) (o n).div.2) j) := fun j =>
      multi3_holdsX hT hC.gz hC.gy hC.gx C.full mem_fin3 (asFam S.sim.om) (by rw [hfull]; exact (ho n).div) j (h.sim.om j)
    unfold cRun3 cRef3
    rw [hst]
    simp only
    exact ih _ (n + 1) ⟨⟨h.sim.sc, hom, h.sim.u, h.sim.green⟩, h.time, h.force, h.conf, h.fresh, h.ib, h.log⟩ hp ht
  | ghost k ih =>
    intro n r S h hp ht
    unfold cRun3 cRef3
    obtain ⟨g1, g2⟩ := ghostVel3_holds hT hC.gz hC.gy hC.gx (ho n).ghost h.sim.u
    rw [hfull]
    exact ih (n + 1) ⟨⟨h.sim.sc, h.sim.om, g1, h.sim.green⟩, h.time, h.force, h.conf, fun _ => g2, h.ib, h.log⟩ hp ht
  | out x k ih =>
    intro n r S h hp ht
    unfold cRun3 cRef3
    exact ih (n + 1) ⟨h.sim, h.time, h.force, h.conf, h.fresh, h.ib, by simp only; rw [h.log]⟩ hp ht

/-! ## From the constructors -/

omit [DecidableEq B] [NeZero T.gz] [NeZero T.gy] [NeZero T.gx] in
/-- The constructor of an interactor accepts a body inside the domain with the default kernel width, and refuses other widths. -/
theorem ibInit3_ok_iff (hT : mkCart3 gz gy gx pz py px false = .ok T) (hnz : 0 < T.nz) (hny : 0 < T.ny) (hnx : 0 < T.nx) {dx : ℝ} (hdx : 0 < dx) {g k : ℕ} {a : Ib3}
    {X0 : LagField ℝ} (hin : Inside3 gz gy gx k dx a X0) (t0 : ℝ) : (∃ s, ibInit3 T g dx a X0 t0 = .ok s) ↔ a.w = 2 ∧ 2 ≤ g := by
  obtain ⟨addr, hm, -⟩ := owned_of_inside3 hT hnz hny hnx hdx hin
  unfold ibInit3 vbfCheck elCheck
  rw [hm]
  by_cases h1 : a.w ≤ g
  · by_cases h2 : a.w = 2
    · have h3 : ¬ ((g : ℤ) < (a.w : ℤ)) := by omega
      have h4 : ¬ ((a.w : ℤ) > (g : ℤ)) := by omega
      have h5 : ¬ ((g : ℤ) < 2) := by omega
      have h6 : ¬ ((2 : ℤ) > (g : ℤ)) := by omega
      simp [h2, h5, bind, Except.bind]
      omega
    · have h3 : ¬ ((g : ℤ) < (a.w : ℤ)) := by omega
      have h4 : ¬ ((a.w : ℤ) > (g : ℤ)) := by omega
      have h5 : ¬ ((a.w : ℤ) = 2) := by omega
      simp [h2, h3, h4, h5, bind, Except.bind]
  · have h4 : ((a.w : ℤ) > (g : ℤ)) := by omega
    have h5 : ¬ ((3 : ℤ) ≠ 2 ∧ (3 : ℤ) ≠ 3) := by omega
    simp only [h4, h5, if_true, if_false, bind, Except.bind]
    constructor
    · rintro ⟨s, hs⟩; cases hs
    · rintro ⟨h, h'⟩; omega

omit [DecidableEq B] [NeZero T.gz] [NeZero T.gy] [NeZero T.gx] in
theorem ibInit3_holds {dx : ℝ} {g : ℕ} {a : Ib3} {X0 : LagField ℝ} {t0 : ℝ} {s : IbSt3} (h : ibInit3 T g dx a X0 t0 = .ok s)
    (hlen : ∀ addr, a.mapping T dx X0 = .ok addr → addr.length = a.N ∧ ∀ c ∈ addr, Valid3 T c) :
    IbHolds3 T dx a (nodeInit t0) X0 s := by
  unfold ibInit3 at h
  simp only [bind, Except.bind] at h
  split at h
  · cases h
  · split at h
    · cases h
    · split at h
      · cases h
      · rename_i addr hm
        cases h
        have had : (a.vbf T dx).addrOf X0 = addr := by
          change okOr [] (a.mapping T dx X0) = addr
          rw [hm]; rfl
        refine ⟨init_stores _ X0 t0 ?_, ?_, fun _ _ => ⟨rfl, rfl, rfl⟩⟩
        · rw [had]
          exact ⟨(hlen addr hm).1, fun r hr => mem_ranks3.2 ((hlen addr hm).2 r hr)⟩
        · change a.mapping T dx X0 = .ok ((a.vbf T dx).addrOf X0)
          rw [had]; exact hm

/-- A flow with bodies as a user builds it: simulator with forcing, usable and not too thin; interactors built for bodies inside the domain; initial fields
from the coordinates. -/
structure Setup3 [NeZero T.gz] [NeZero T.gy] [NeZero T.gx] (a : SimArgs3) (xr : ℝ) (A : B → Ib3) (X0 : B → LagField ℝ) (t0 : B → ℝ) (time : ℝ)
    (sc : ℝ → ℝ → ℝ → ℝ) (om u : Fin 3 → ℝ → ℝ → ℝ → ℝ) (S : CSt3 T B) : Prop where
  fit : Fit3 a T
  flowType : a.flowType = "navier_stokes_with_forcing"
  ord : ∀ b l, SlaveSet l (A b).m ((A b).ord l)
  inside : ∀ b, Inside3 a.gz a.gy a.gx 0 (xr / a.gx) (A b) (X0 b)
  ib : ∀ b, ibInit3 T a.g (simDx3 T xr) (A b) (X0 b) (t0 b) = .ok (S.ib b)
  sim : ∃ dbl0 conv0, S.sim = initFrom3 T a.g xr time dbl0 conv0 sc om u
  log : S.log = []

/-- The state of the run on the global grid at the start. -/
noncomputable def refStart3 (dx : ℝ) (X0 : B → LagField ℝ) (t0 : B → ℝ) (time : ℝ) (sc : ℝ → ℝ → ℝ → ℝ) (om u : Fin 3 → ℝ → ℝ → ℝ → ℝ) : RefC3 B :=
  { F := fieldsFrom3 dx sc om u, Φ := fun _ _ => 0, time, hist := fun b => nodeInit (t0 b), lastX := X0, log := [], fresh := false }

/-- Grid, viscosity, penalty zone, free stream and filter of the simulator. -/
def SimArgs3.pars (a : SimArgs3) (xr nu : ℝ) : Params3 := ⟨a.gz, a.gy, a.gx, xr, nu, widthOf a.width, a.freeStream, filterNums (filterInUse a)⟩

/-- every reachable state is that of the run on the global grid -/
theorem coupled3_holds {a : SimArgs3} {xr : ℝ} (hxr : 0 < xr) {nu cfl : ℝ} (hnu : 0 ≤ nu) (hcfl : 0 ≤ cfl) {tol : ℝ} (htol : 0 < tol) {K : Kern3} (hK : K.Local)
    (hKd : ∀ a, CrossLocal3 1 (K.div a)) (hK0 : ∀ r, K.upd r (fun _ _ => 0) = 0) {A : B → Ib3} {X0 : B → LagField ℝ} {t0 : B → ℝ} {time : ℝ}
    {sc : ℝ → ℝ → ℝ → ℝ} {om u : Fin 3 → ℝ → ℝ → ℝ → ℝ}
    {S : CSt3 T B} (h : Setup3 a xr A X0 t0 time sc om u S) {o : ℕ → CScheds3} (ho : ∀ n, (o n).Done T a.g) (p : Prog3 B)
    (hp : Proper3 (a.pars xr nu) K cfl tol A p (refStart3 (xr / a.gx) X0 t0 time sc om u))
    (ht : Tracked3 T (a.pars xr nu) K cfl tol A p (refStart3 (xr / a.gx) X0 t0 time sc om u)) :
    (cRun3 (simCfg3 a xr nu cfl) K tol A o p 0 S).2 = none ∧ CHolds3 a.gz a.gy a.gx (simCfg3 a xr nu cfl) A (cRef3 (a.pars xr nu) K cfl tol A p (refStart3 (xr / a.gx) X0 t0 time sc om u)) (cRun3 (simCfg3 a xr nu cfl) K tol A o p 0 S).1 ∧
      ∀ b, (A b).Ok ∧ 2 ≤ a.g := by
  obtain ⟨hT, -⟩ := simCheck3_cart h.fit.built
  obtain ⟨e0, e1, e2, -⟩ := construct3_ok hT
  have hns : isNS a.flowType = true := by rw [h.flowType]; rfl
  have hgood := h.fit.good xr nu cfl hns
  have hdx' : simDx3 T xr = xr / a.gx := by unfold simDx3; rw [e2]
  have hgx0 : T.gx ≠ 0 := NeZero.ne _
  have hdx : 0 < xr / (a.gx : ℝ) := div_pos hxr (by rw [← e2]; exact_mod_cast Nat.pos_of_ne_zero hgx0)
  have hnz := hgood.nz
  have hny := hgood.ny
  have hnx := hgood.nx
  have hAg : ∀ b, (A b).w = 2 ∧ 2 ≤ a.g := by
    intro b
    have hib := h.ib b
    rw [hdx'] at hib
    exact (ibInit3_ok_iff hT (by omega) (by omega) (by omega) hdx (h.inside b) (t0 b)).1 ⟨_, hib⟩
  have hA : ∀ b, (A b).Ok := fun b => ⟨(hAg b).1, h.ord b⟩
  obtain ⟨dbl0, conv0, hsim⟩ := h.sim
  have hstart : CHolds3 a.gz a.gy a.gx (simCfg3 a xr nu cfl) A (refStart3 (xr / a.gx) X0 t0 time sc om u) S := by
    refine ⟨?_, ?_, ?_, fun _ _ _ => rfl, (by intro hf; cases hf), ?_, h.log⟩
    · rw [hsim]
      exact initFrom3_holds hT (simCfg3 a xr nu cfl) time dbl0 conv0 sc om u
    · rw [hsim]; rfl
    · intro j c q _
      rw [hsim]
      exact ⟨fun _ => rfl, fun _ => rfl⟩
    · intro b
      have hib := h.ib b
      rw [hdx'] at hib
      refine ibInit3_holds hib ?_
      intro addr hm
      obtain ⟨addr', hm', hl, hv, -⟩ := owned_of_inside3 hT (by omega) (by omega) (by omega) hdx (h.inside b)
      change (A b).mapping T (xr / a.gx) (X0 b) = .ok addr at hm
      rw [hm] at hm'
      obtain rfl := Except.ok.inj hm'
      exact ⟨hl, hv⟩
  obtain ⟨r1, r2⟩ := cRun3_holds hT hgood hxr h.flowType hcfl hnu htol hK hKd hK0 hA (fun b => (hAg b).2) ho p 0 hstart hp ht
  exact ⟨r1, r2, fun b => ⟨hA b, (hAg b).2⟩⟩

/-- C70: flow and bodies, constructed, initialised and driven by any program under any message schedules: no exception, and at the end every inner cell of
every rank holds the vorticity, velocity and forcing of the run on the global grid, the master of each body its forces, and what was printed is the same. -/
theorem coupled3_run {a : SimArgs3} {xr : ℝ} (hxr : 0 < xr) {nu cfl : ℝ} (hnu : 0 ≤ nu) (hcfl : 0 ≤ cfl) {tol : ℝ} (htol : 0 < tol) {K : Kern3} (hK : K.Local)
    (hKd : ∀ a, CrossLocal3 1 (K.div a)) (hK0 : ∀ r, K.upd r (fun _ _ => 0) = 0) {A : B → Ib3} {X0 : B → LagField ℝ} {t0 : B → ℝ} {time : ℝ}
    {sc : ℝ → ℝ → ℝ → ℝ} {om u : Fin 3 → ℝ → ℝ → ℝ → ℝ}
    {S : CSt3 T B} (h : Setup3 a xr A X0 t0 time sc om u S) {o : ℕ → CScheds3} (ho : ∀ n, (o n).Done T a.g) (p : Prog3 B)
    (hp : Proper3 (a.pars xr nu) K cfl tol A p (refStart3 (xr / a.gx) X0 t0 time sc om u))
    (ht : Tracked3 T (a.pars xr nu) K cfl tol A p (refStart3 (xr / a.gx) X0 t0 time sc om u)) :
    let out := cRun3 (simCfg3 a xr nu cfl) K tol A o p 0 S
    let ref := cRef3 (a.pars xr nu) K cfl tol A p (refStart3 (xr / a.gx) X0 t0 time sc om u)
    out.2 = none ∧ out.1.sim.time = ref.time ∧ out.1.log = ref.log ∧
    (∀ c q, Valid3 T c → Inner3 T a.g q →
      ∀ j, out.1.sim.om j c q = ref.F.om j (globalIx3 T a.g c q) ∧ out.1.sim.vel j c q = ref.F.u j (globalIx3 T a.g c q) ∧
        out.1.sim.forcing j c q = ref.Φ j (globalIx3 T a.g c q)) ∧
    ∀ b, (∀ k < 3, ∀ i < (A b).N, (out.1.ib b).v.gforce k i = (ref.hist b).F k i) ∧ (out.1.ib b).v.time = (ref.hist b).t := by
  obtain ⟨r1, r2, -⟩ := coupled3_holds hxr hnu hcfl htol hK hKd hK0 h ho p hp ht
  intro out ref
  refine ⟨r1, r2.time, r2.log, ?_, ?_⟩
  · intro c q hc hq j
    exact ⟨r2.sim.om j c q hc (inArr_of_inner3 hq) (Or.inl hq), r2.sim.u j c q hc (inArr_of_inner3 hq) (Or.inl hq), (r2.force j c q hc).1 hq⟩
  · intro b
    exact ⟨(r2.ib b).stores.force, (r2.ib b).stores.time⟩

omit [NeZero T.gz] [NeZero T.gy] [NeZero T.gx] in
/-- the reference run does not know the master rank and the iteration orders -/
theorem same_bodies3 {A A' : B → Ib3} (hA : ∀ b, A' b = { A b with m := (A' b).m, ord := (A' b).ord, junk := (A' b).junk }) (P : Params3) (K : Kern3) (cfl tol : ℝ)
    (T' : Cart3) (p : Prog3 B) : ∀ r : RefC3 B, cRef3 P K cfl tol A' p r = cRef3 P K cfl tol A p r ∧
      (Proper3 P K cfl tol A' p r ↔ Proper3 P K cfl tol A p r) ∧ (Tracked3 T' P K cfl tol A' p r ↔ Tracked3 T' P K cfl tol A p r) := by
  have hfull : ∀ b X U (r : RefC3 B), refFull3 P.dx (A' b) b X U r = refFull3 P.dx (A b) b X U r := by intro b X U r; rw [hA b]; rfl
  have hforces : ∀ b X U (r : RefC3 B), refForces3 P.dx (A' b) b X U r = refForces3 P.dx (A b) b X U r := by intro b X U r; rw [hA b]; rfl
  have hlag : ∀ b u X U (h : NodeHist ℝ), refLag3 P.dx (A' b) u X U h = refLag3 P.dx (A b) u X U h := by intro b u X U h; rw [hA b]; rfl
  have hin : ∀ k b X, Inside3 P.gz P.gy P.gx k P.dx (A' b) X ↔ Inside3 P.gz P.gy P.gx k P.dx (A b) X := by intro k b X; rw [hA b]; rfl
  have hno : ∀ b X Y, Noticed3 T' P.dx (A' b) X Y ↔ Noticed3 T' P.dx (A b) X Y := by intro b X Y; rw [hA b]; rfl
  have hau : ∀ b, (A' b).auto = (A b).auto := by intro b; rw [hA b]
  have hN : ∀ b, (A' b).N = (A b).N := by intro b; rw [hA b]
  induction p with
  | stop => intro r; exact ⟨rfl, Iff.rfl, Iff.rfl⟩
  | interact b X U k ih =>
    intro r
    obtain ⟨h1, h2, h3⟩ := ih (refFull3 P.dx (A b) b X U r)
    unfold cRef3 Proper3 Tracked3
    rw [hfull, hin, hno, hau, h1, h2, h3]
    exact ⟨rfl, Iff.rfl, Iff.rfl⟩
  | forces b X U k ih =>
    intro r
    obtain ⟨h1, h2, h3⟩ := ih (refForceField3 (A b).N (refLag3 P.dx (A b) r.F.u X U (r.hist b))) (refForces3 P.dx (A b) b X U r)
    unfold cRef3 Proper3 Tracked3
    rw [hforces, hlag, hN, hin, hno, hau, h1, h2, h3]
    exact ⟨rfl, Iff.rfl, Iff.rfl⟩
  | advance b dt k ih => intro r; exact ih _
  | flow dt fs k ih => intro r; exact ih _
  | stableDt pre k ih => intro r; exact ih _ _
  | deviation b k ih =>
    intro r
    unfold cRef3 Proper3 Tracked3
    rw [hN]
    exact ih _ _
  | maxVort k ih => intro r; exact ih _ _
  | divNorm k ih => intro r; exact ih _ _
  | ghost k ih => intro r; exact ih _
  | out x k ih => intro r; exact ih _

/-- C70: two decompositions, any message schedules: the same time, the same output, the same fields and forcing in every cell, the same forces on every
node. -/
theorem coupled3_decomposition_independent {a a' : SimArgs3} (hsame : a' = { a with pz := a'.pz, py := a'.py, px := a'.px }) {T' : Cart3}
    [NeZero T'.gz] [NeZero T'.gy] [NeZero T'.gx] {xr : ℝ} (hxr : 0 < xr) {nu cfl : ℝ} (hnu : 0 ≤ nu) (hcfl : 0 ≤ cfl) {tol : ℝ} (htol : 0 < tol)
    {K : Kern3} (hK : K.Local) (hKd : ∀ a, CrossLocal3 1 (K.div a)) (hK0 : ∀ r, K.upd r (fun _ _ => 0) = 0)
    {A A' : B → Ib3} (hA : ∀ b, A' b = { A b with m := (A' b).m, ord := (A' b).ord, junk := (A' b).junk })
    {X0 : B → LagField ℝ} {t0 : B → ℝ} {time : ℝ} {sc : ℝ → ℝ → ℝ → ℝ} {om u : Fin 3 → ℝ → ℝ → ℝ → ℝ}
    {S : CSt3 T B} (h : Setup3 a xr A X0 t0 time sc om u S) {S' : CSt3 T' B} (h' : Setup3 a' xr A' X0 t0 time sc om u S')
    {o o' : ℕ → CScheds3} (ho : ∀ n, (o n).Done T a.g) (ho' : ∀ n, (o' n).Done T' a.g) (p : Prog3 B)
    (hp : Proper3 (a.pars xr nu) K cfl tol A p (refStart3 (xr / a.gx) X0 t0 time sc om u))
    (ht : Tracked3 T (a.pars xr nu) K cfl tol A p (refStart3 (xr / a.gx) X0 t0 time sc om u))
    (ht' : Tracked3 T' (a.pars xr nu) K cfl tol A p (refStart3 (xr / a.gx) X0 t0 time sc om u)) :
    let out := cRun3 (simCfg3 a xr nu cfl) K tol A o p 0 S
    let out' := cRun3 (simCfg3 a' xr nu cfl) K tol A' o' p 0 S'
    out.2 = none ∧ out'.2 = none ∧ out.1.sim.time = out'.1.sim.time ∧ out.1.log = out'.1.log ∧
    (∀ c q c' q', Valid3 T c → Inner3 T a.g q → Valid3 T' c' → Inner3 T' a.g q' → globalIx3 T a.g c q = globalIx3 T' a.g c' q' →
      ∀ j, out.1.sim.om j c q = out'.1.sim.om j c' q' ∧ out.1.sim.vel j c q = out'.1.sim.vel j c' q' ∧ out.1.sim.forcing j c q = out'.1.sim.forcing j c' q') ∧
    ∀ b, (∀ k < 3, ∀ i < (A b).N, (out.1.ib b).v.gforce k i = (out'.1.ib b).v.gforce k i) ∧ (out.1.ib b).v.time = (out'.1.ib b).v.time := by
  have hNA : ∀ b, (A' b).N = (A b).N := fun b => by rw [hA b]
  have e : a'.pars xr nu = a.pars xr nu := by rw [hsame]; rfl
  have eg : (a'.gx : ℝ) = a.gx := by rw [hsame]
  have egs : a'.g = a.g := by rw [hsame]
  have hind := same_bodies3 hA
  have hp' := (hind (a.pars xr nu) K cfl tol T' p (refStart3 (xr / a.gx) X0 t0 time sc om u))
  obtain ⟨r1, r2, r3, r4, r5⟩ := coupled3_run hxr hnu hcfl htol hK hKd hK0 h ho p hp ht
  obtain ⟨s1, s2, s3, s4, s5⟩ := coupled3_run hxr hnu hcfl htol hK hKd hK0 h' (by rw [egs]; exact ho') p (by rw [e, eg]; exact hp'.2.1.2 hp)
    (by rw [e, eg]; exact hp'.2.2.2 ht')
  rw [e, eg, hp'.1] at s2 s3 s4 s5
  rw [egs] at s4
  intro out out'
  refine ⟨r1, s1, r2.trans s2.symm, r3.trans s3.symm, ?_, ?_⟩
  · intro c q c' q' hc hq hc' hq' hG j
    obtain ⟨x1, x2, x3⟩ := r4 c q hc hq j
    obtain ⟨y1, y2, y3⟩ := s4 c' q' hc' hq' j
    rw [hG] at x1 x2 x3
    exact ⟨x1.trans y1.symm, x2.trans y2.symm, x3.trans y3.symm⟩
  · intro b
    refine ⟨fun k hk i hi => ((r5 b).1 k hk i hi).trans ((s5 b).1 k hk i (by rw [hNA]; exact hi)).symm, (r5 b).2.trans (s5 b).2.symm⟩

/-! ## When remappings are noticed -/

omit [DecidableEq B] [NeZero T.gz] [NeZero T.gy] [NeZero T.gx] in
theorem mapping_valid3 {dx : ℝ} {a : Ib3} {X : LagField ℝ} {l : List C3} (h : a.mapping T dx X = .ok l) : l.length = a.N ∧ ∀ c ∈ l, Valid3 T c := by
  unfold Ib3.mapping rankAddress3 at h
  dsimp only at h
  split at h
  · cases h
  · have hf := mapM_ok_forall h
    refine ⟨?_, ?_⟩
    · rw [← hf.length_eq]; simp [points3]
    · intro c hc
      obtain ⟨x, -, hx⟩ : ∃ x, x ∈ (points3 a.N X).map (subblock3 T dx (a.sh dx)) ∧ (match npIdx T.pz x.1, npIdx T.py x.2.1, npIdx T.px x.2.2 with
          | some i, some j, some k => (Except.ok (i, j, k) : Except PyErr C3)
          | _, _, _ => .error .indexError) = .ok c := by
        exact forall2_mem_right hf c hc
      split at hx
      · rename_i i j k hi hj hk
        cases hx
        have r1 := npIdx_range hi
        have r2 := npIdx_range hj
        have r3 := npIdx_range hk
        exact ⟨r1.1, r1.2, r2.1, r2.2, r3.1, r3.2⟩
      · cases hx

omit [NeZero T.gz] [NeZero T.gy] [NeZero T.gx] in
/-- C70: on a single rank every remapping is noticed. -/
theorem tracked3_single (hpz : T.pz = 1) (hpy : T.py = 1) (hpx : T.px = 1) (P : Params3) (K : Kern3) (cfl tol : ℝ) (A : B → Ib3) (p : Prog3 B) :
    ∀ r : RefC3 B, Tracked3 T P K cfl tol A p r := by
  have hno : ∀ b X Y, Noticed3 T P.dx (A b) X Y := by
    intro b X Y l l' h h'
    obtain ⟨a1, a2⟩ := mapping_valid3 h
    obtain ⟨b1, b2⟩ := mapping_valid3 h'
    have hv : ∀ c : C3, Valid3 T c → c = (0, 0, 0) := by
      rintro ⟨c1, c2, c3⟩ ⟨h1, h2, h3, h4, h5, h6⟩
      rw [hpz] at h2; rw [hpy] at h4; rw [hpx] at h6
      simp only at h1 h2 h3 h4 h5 h6
      have e1 : c1 = 0 := by omega
      have e2 : c2 = 0 := by omega
      have e3 : c3 = 0 := by omega
      rw [e1, e2, e3]
    left
    rw [List.eq_replicate_iff.2 ⟨a1, fun c hc => hv c (a2 c hc)⟩, List.eq_replicate_iff.2 ⟨b1, fun c hc => hv c (b2 c hc)⟩]
  induction p with
  | stop => intro r; trivial
  | interact b X U k ih => intro r; exact ⟨hno b _ _, ih _⟩
  | forces b X U k ih => intro r; exact ⟨hno b _ _, ih _ _⟩
  | advance b dt k ih => intro r; exact ih _
  | flow dt fs k ih => intro r; exact ih _
  | stableDt pre k ih => intro r; exact ih _ _
  | deviation b k ih => intro r; exact ih _ _
  | maxVort k ih => intro r; exact ih _ _
  | divNorm k ih => intro r; exact ih _ _
  | ghost k ih => intro r; exact ih _
  | out x k ih => intro r; exact ih _

/-- The driver does not move the bodies. -/
def Still3 (X0 : B → LagField ℝ) : Prog3 B → Prop
  | .stop => True
  | .interact b X _ k => X = X0 b ∧ Still3 X0 k
  | .forces b X _ k => X = X0 b ∧ ∀ f, Still3 X0 (k f)
  | .advance _ _ k => Still3 X0 k
  | .flow _ _ k => Still3 X0 k
  | .stableDt _ k => ∀ x, Still3 X0 (k x)
  | .deviation _ k => ∀ x, Still3 X0 (k x)
  | .maxVort k => ∀ x, Still3 X0 (k x)
  | .divNorm k => ∀ x, Still3 X0 (k x)
  | .ghost k => Still3 X0 k
  | .out _ k => Still3 X0 k

omit [NeZero T.gz] [NeZero T.gy] [NeZero T.gx] in
/-- C70: bodies that do not move are never remapped, on any decomposition. -/
theorem tracked3_still (P : Params3) (K : Kern3) (cfl tol : ℝ) (A : B → Ib3) (X0 : B → LagField ℝ) (p : Prog3 B) (hs : Still3 X0 p) :
    ∀ r : RefC3 B, r.lastX = X0 → Tracked3 T P K cfl tol A p r := by
  have hno : ∀ b X, Noticed3 T P.dx (A b) X X := by
    intro b X l l' h h'
    rw [h] at h'
    exact Or.inl (Except.ok.inj h').symm
  induction p with
  | stop => intro r _; trivial
  | interact b X U k ih =>
    intro r hr
    obtain ⟨rfl, hs⟩ := hs
    refine ⟨by rw [hr]; exact hno b _, ih hs _ ?_⟩
    simp only [refFull3, refForces3]
    rw [hr, Function.update_eq_self]
  | forces b X U k ih =>
    intro r hr
    obtain ⟨rfl, hs⟩ := hs
    refine ⟨by rw [hr]; exact hno b _, ih _ (hs _) _ ?_⟩
    simp only [refForces3]
    rw [hr, Function.update_eq_self]
  | advance b dt k ih => intro r hr; exact ih hs _ hr
  | flow dt fs k ih => intro r hr; exact ih hs _ hr
  | stableDt pre k ih => intro r hr; exact ih _ (hs _) _ hr
  | deviation b k ih => intro r hr; exact ih _ (hs _) _ hr
  | maxVort k ih => intro r hr; exact ih _ (hs _) _ hr
  | divNorm k ih => intro r hr; exact ih _ (hs _) _ hr
  | ghost k ih => intro r hr; exact ih hs _ hr
  | out x k ih => intro r hr; exact ih hs _ hr

/-! ## The hypotheses can be met -/

omit [NeZero T.gz] [NeZero T.gy] [NeZero T.gx] in
theorem cscheds3_exist (T : Cart3) (g : ℕ) : ∃ o : ℕ → CScheds3, ∀ n, (o n).Done T g := by
  obtain ⟨s, hs⟩ := scheds3_exist T g true
  obtain ⟨g', hg⟩ := complete_schedule_exists (multiMsgs3 T g true ([0, 1, 2] : List (Fin 3)))
  exact ⟨fun _ => ⟨s, g', (fun _ => [], g')⟩, fun _ => ⟨hs, hg, hg⟩⟩

/-- A body of two nodes at (3.7, 5.5, 2.5) and (4.2, 6, 3.5) cell widths, between the two ranks of an 8 × 16 × 8 grid cut along x. -/
def exBody3 : Ib3 :=
  { N := 2, m := (0, 0, 1), ord := fun l => (l.dedup).filter (· ≠ (0, 0, 1)), junk := fun _ _ => 7, stiff := -5, damp := -1, lagDx := 1, shift := some 0,
    width := none, reset := false, auto := true }

/-- positions of its nodes, for a domain of length 8 -/
noncomputable def exPos3 : LagField ℝ := fun k i =>
  if k = 0 then (if i = 0 then 3.7 else 4.2) else if k = 1 then (if i = 0 then 5.5 else 6) else (if i = 0 then 2.5 else 3.5)

theorem exBody3_inside : Inside3 8 16 8 1 1 exBody3 exPos3 := by
  have f1 : ⌊(3.7 : ℝ)⌋ = 3 := by norm_num [Int.floor_eq_iff]
  have f2 : ⌊(4.2 : ℝ)⌋ = 4 := by norm_num [Int.floor_eq_iff]
  have f3 : ⌊(5.5 : ℝ)⌋ = 5 := by norm_num [Int.floor_eq_iff]
  have f4 : ⌊(6 : ℝ)⌋ = 6 := by norm_num
  have f5 : ⌊(2.5 : ℝ)⌋ = 2 := by norm_num [Int.floor_eq_iff]
  have f6 : ⌊(3.5 : ℝ)⌋ = 3 := by norm_num [Int.floor_eq_iff]
  intro i hi G hG
  change i < 2 at hi
  unfold window3 winCells cellOf at hG
  simp only [Finset.mem_product, Finset.mem_Ioc, Ib3.sh, exBody3, Option.getD_some, sub_zero, div_one] at hG
  unfold Away3
  interval_cases i <;> simp only [exPos3, if_true, if_false, one_ne_zero, OfNat.ofNat_ne_zero, OfNat.ofNat_ne_one] at hG
  · rw [f1, f3, f5] at hG; push_cast at hG ⊢; omega
  · rw [f2, f4, f6] at hG; push_cast at hG ⊢; omega

/-- The nodes belong to different ranks. -/
theorem exBody3_mapping : exBody3.mapping ⟨8, 16, 8, 1, 1, 2, 8, 16, 4, false⟩ 1 exPos3 = .ok [(0, 0, 0), (0, 0, 1)] := by
  have t1 : truncZ ((3.7 : ℝ) / 4) = 0 := by unfold truncZ; norm_num [Int.floor_eq_iff]
  have t2 : truncZ ((4.2 : ℝ) / 4) = 1 := by unfold truncZ; norm_num [Int.floor_eq_iff]
  have t3 : truncZ ((5.5 : ℝ) / 16) = 0 := by unfold truncZ; norm_num [Int.floor_eq_iff]
  have t4 : truncZ ((6 : ℝ) / 16) = 0 := by unfold truncZ; norm_num [Int.floor_eq_iff]
  have t5 : truncZ ((2.5 : ℝ) / 8) = 0 := by unfold truncZ; norm_num [Int.floor_eq_iff]
  have t6 : truncZ ((3.5 : ℝ) / 8) = 0 := by unfold truncZ; norm_num [Int.floor_eq_iff]
  have b0 : subblock3 ⟨8, 16, 8, 1, 1, 2, 8, 16, 4, false⟩ (1 : ℝ) 0 (3.7, 5.5, 2.5) = (0, 0, 0) := by
    unfold subblock3; simp only [sub_zero, one_mul]; push_cast; rw [t1, t3, t5]
  have b1 : subblock3 ⟨8, 16, 8, 1, 1, 2, 8, 16, 4, false⟩ (1 : ℝ) 0 (4.2, 6, 3.5) = (0, 0, 1) := by
    unfold subblock3; simp only [sub_zero, one_mul]; push_cast; rw [t2, t4, t6]
  have hp : points3 exBody3.N exPos3 = [(3.7, 5.5, 2.5), (4.2, 6, 3.5)] := by
    unfold points3 exBody3 exPos3
    simp [List.range_succ]
  unfold Ib3.mapping
  rw [hp]
  unfold rankAddress3
  simp only [Ib3.sh, exBody3, Option.getD_some, List.map_cons, List.map_nil, b0, b1]
  rfl

/-- One iteration of the flow past a body: ask for the time step, interact, advance the body and the flow, print the deviation; then the same again without
asking. -/
noncomputable def exProg3 : Prog3 Unit :=
  .stableDt 0.5 fun dt => .interact () exPos3 (fun _ _ => 0) <| .advance () dt <| .flow dt (fun _ => 1) <| .deviation () fun e => .out e <|
    .divNorm fun x => .out x <| .ghost <| .forces () exPos3 (fun _ _ => 0) fun f => .interact () exPos3 (fun k _ => f k 0) <| .flow (dt / 2) (fun _ => 1) .stop

/-- The driver `exProg3` meets the hypotheses. -/
theorem exProper3 (P : Params3) (hP : P.gz = 8 ∧ P.gy = 16 ∧ P.gx = 8 ∧ P.dx = 1) (K : Kern3) (cfl tol : ℝ) (T : Cart3) (r : RefC3 Unit) (hr : r.lastX = fun _ => exPos3) :
    Proper3 P K cfl tol (fun _ => exBody3) exProg3 r ∧ Tracked3 T P K cfl tol (fun _ => exBody3) exProg3 r := by
  obtain ⟨h0, h1, h2, h3⟩ := hP
  have hi := exBody3_inside
  have hi0 : Inside3 8 16 8 0 1 exBody3 exPos3 := by
    intro i hI G hG
    have := hi i hI G hG
    unfold Away3 at this ⊢
    push_cast at this ⊢; omega
  constructor
  · unfold exProg3
    simp only [Proper3, h0, h1, h2, h3]
    exact ⟨hi, Or.inl rfl, hi0, Or.inl rfl, hi, Or.inl rfl, trivial⟩
  · refine tracked3_still P K cfl tol _ (fun _ => exPos3) _ ?_ r hr
    unfold exProg3
    simp only [Still3]
    simp

/-- Flow and body can be set up on one rank and on two, and the driver above meets the hypotheses on both. -/
theorem exSetup3 [NeZero (⟨8, 16, 8, 1, 1, 2, 8, 16, 4, false⟩ : Cart3).gz] [NeZero (⟨8, 16, 8, 1, 1, 2, 8, 16, 4, false⟩ : Cart3).gy]
    [NeZero (⟨8, 16, 8, 1, 1, 2, 8, 16, 4, false⟩ : Cart3).gx] [NeZero (⟨8, 16, 8, 1, 1, 1, 8, 16, 8, false⟩ : Cart3).gz]
    [NeZero (⟨8, 16, 8, 1, 1, 1, 8, 16, 8, false⟩ : Cart3).gy] [NeZero (⟨8, 16, 8, 1, 1, 1, 8, 16, 8, false⟩ : Cart3).gx]
    (sc : ℝ → ℝ → ℝ → ℝ) (om u : Fin 3 → ℝ → ℝ → ℝ → ℝ) :
    (∃ S : CSt3 ⟨8, 16, 8, 1, 1, 2, 8, 16, 4, false⟩ Unit, Setup3 ⟨8, 16, 8, 1, 1, 2, "navier_stokes_with_forcing", true, none, false, 2, .int 2⟩ 8
      (fun _ => exBody3) (fun _ => exPos3) (fun _ => 0) 0 sc om u S) ∧
    (∃ S : CSt3 ⟨8, 16, 8, 1, 1, 1, 8, 16, 8, false⟩ Unit, Setup3 ⟨8, 16, 8, 1, 1, 1, "navier_stokes_with_forcing", true, none, false, 2, .int 2⟩ 8
      (fun _ => exBody3) (fun _ => exPos3) (fun _ => 0) 0 sc om u S) := by
  have hi0 : Inside3 8 16 8 0 1 exBody3 exPos3 := by
    intro i hI G hG
    have := exBody3_inside i hI G hG
    unfold Away3 at this ⊢
    push_cast at this ⊢; omega
  have key : ∀ (a : SimArgs3) (T : Cart3) [NeZero T.gz] [NeZero T.gy] [NeZero T.gx], Fit3 a T → a.gz = 8 → a.gy = 16 → a.gx = 8 → a.g = 2 →
      a.flowType = "navier_stokes_with_forcing" →
      ∃ S : CSt3 T Unit, Setup3 a 8 (fun _ => exBody3) (fun _ => exPos3) (fun _ => 0) 0 sc om u S := by
    intro a T _ _ _ hfit h0 h1 h2 hg h3
    obtain ⟨hT, -⟩ := simCheck3_cart hfit.built
    obtain ⟨e0, e1, e2, -⟩ := construct3_ok hT
    have hgood := hfit.good 8 0 0 (by rw [h3]; rfl)
    have hnz := hgood.nz
    have hny := hgood.ny
    have hnx := hgood.nx
    have hd : simDx3 T 8 = 1 := by unfold simDx3; rw [e2, h2]; norm_num
    have hd' : (8 : ℝ) / a.gx = 1 := by rw [h2]; norm_num
    obtain ⟨s, hs⟩ := (ibInit3_ok_iff hT (by omega) (by omega) (by omega) one_pos (g := a.g) (k := 0) (a := exBody3) (X0 := exPos3)
      (by rw [h0, h1, h2]; exact hi0) 0).2 ⟨rfl, by rw [hg]⟩
    refine ⟨⟨initFrom3 T a.g 8 0 0 0 sc om u, fun _ => s, []⟩, hfit, h3, ?_, ?_, ?_, ⟨_, _, rfl⟩, rfl⟩
    · intro _ l
      refine ⟨?_, ?_⟩
      · exact (List.nodup_dedup l).filter _
      · intro x; simp [exBody3]
    · intro _; rw [hd', h0, h1, h2]; exact hi0
    · intro _; rw [hd]; exact hs
  refine ⟨key _ _ ⟨by decide, (by intro h; cases h), fun _ => ⟨by decide, by decide, ⟨2, rfl, by decide, by decide, by decide, by decide⟩, by unfold EvenTopo3; decide, ?_⟩⟩ rfl rfl rfl rfl rfl,
    key _ _ ⟨by decide, (by intro h; cases h), fun _ => ⟨by decide, by decide, ⟨2, rfl, by decide, by decide, by decide, by decide⟩, by unfold EvenTopo3; decide, ?_⟩⟩ rfl rfl rfl rfl rfl⟩
  all_goals
    intro o ty hf
    simp only [filterInUse, if_true, Option.getD_none, Option.some.injEq, Prod.mk.injEq, PyNum.int.injEq] at hf
    omega

end Sopht
