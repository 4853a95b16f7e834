import Verif.Snapshots
import Verif.SubSteps
import Verif.Balance2D
import Verif.Rest

/-!
# Flow past a body that is held in place (2D)

examples/2d_examples/FlowPastCylinderCase/flow_past_cylinder.py:98-163: the time loop with its two timers and the recorded drag coefficients.
-/

namespace Sopht

variable {B : Type} [DecidableEq B]

/-- `n` iterations of the loop (flow_past_cylinder.py:151-158), then on with `k`: `dt = compute_stable_timestep(); interactor.time_step(dt); interactor();
flow_sim.time_step(dt, free_stream_velocity)`; the nodes are at `X` and do not move. -/
noncomputable def fixedProg2 (b : B) (X : LagField ℝ) (pre : ℝ) (fs : Fin 2 → ℝ) : ℕ → Prog2 B → Prog2 B
  | 0, k => k
  | n + 1, k => .stableDt pre fun dt => .advance b dt (.interact b X (fun _ _ => 0) (.flow dt fs (fixedProg2 b X pre fs n k)))

/-- The drag coefficient (flow_past_cylinder.py:142-148): `fabs(sum(global_lag_grid_forcing_field[0])) / scale` on the master rank. -/
noncomputable def dragOf2 {T : Cart2} (scale : ℝ) (N : ℕ) (b : B) (S : CSt2 T B) : ℝ := |nodeTotal N ((S.ib b).v.gforce 0)| / scale

variable {T : Cart2} [NeZero T.gy] [NeZero T.gx]

/-- An iteration of the loop, `core` of the timers. -/
noncomputable def fixedBody2 (C : Cfg2) (K : Kern2) (tol : ℝ) (A : B → Ib2) (o : ℕ → CScheds2) (b : B) (X : LagField ℝ) (pre : ℝ) (fs : Fin 2 → ℝ) (i : ℕ) (S : CSt2 T B) :
    CSt2 T B × Option PyErr := cRun2 C K tol A o (fixedProg2 b X pre fs 1 .stop) (4 * i) S

/-- The time step an iteration takes. -/
noncomputable def fixedDt2 (C : Cfg2) (tol pre : ℝ) (_ : ℕ) (S : CSt2 T B) : Except PyErr ℝ := (stableDt2 C tol pre S.sim).2

/-- The loop with its timers (flow_past_cylinder.py:98-163): `foto_timer` (plots at the times in the inner list), `data_timer` (drag coefficients with their times). -/
noncomputable def fixedLoop2 (C : Cfg2) (K : Kern2) (tol : ℝ) (A : B → Ib2) (o : ℕ → CScheds2) (b : B) (X : LagField ℝ) (pre : ℝ) (fs : Fin 2 → ℝ) (scale foto data : ℝ) :
    ℕ → (CSt2 T B × ℝ × List ℝ) × ℝ × List (ℝ × ℝ) → ((CSt2 T B × ℝ × List ℝ) × ℝ × List (ℝ × ℝ)) × Option PyErr :=
  snapBody false data (fun s => (s.1.sim.time, dragOf2 scale (A b).N b s.1)) (fun i s => fixedDt2 C tol pre i s.1)
    (snapBody false foto (fun S => S.sim.time) (fixedDt2 C tol pre) (fixedBody2 C K tol A o b X pre fs))

/-! ## Programs -/

section
variable {C : Cfg2} {K : Kern2} {tol : ℝ} {A : B → Ib2} {o : ℕ → CScheds2} {b : B} {X : LagField ℝ} {pre : ℝ} {fs : Fin 2 → ℝ}

theorem cRun2_fixed (k : Prog2 B) (n i : ℕ) {S S' : CSt2 T B} (h : cRun2 C K tol A o (fixedProg2 b X pre fs n .stop) i S = (S', none)) :
    cRun2 C K tol A o (fixedProg2 b X pre fs n k) i S = cRun2 C K tol A o k (i + 4 * n) S' := by
  induction n generalizing i S with
  | zero =>
    simp only [fixedProg2, cRun2] at h ⊢
    cases h; rfl
  | succ n ih =>
    simp only [fixedProg2, cRun2] at h ⊢
    split at h
    · simp at h
    · split at h
      · simp at h
      · split at h
        · simp at h
        · rw [ih _ h]
          congr 1
          ring

omit [DecidableEq B] in
theorem fixedProg2_add (m n : ℕ) (k : Prog2 B) : fixedProg2 b X pre fs (m + n) k = fixedProg2 b X pre fs m (fixedProg2 b X pre fs n k) := by
  induction m with
  | zero => simp [fixedProg2]
  | succ m ih => rw [Nat.succ_add]; simp only [fixedProg2, ih]

theorem cRef2_fixed {P : Params2} {cfl : ℝ} (k : Prog2 B) (n : ℕ) (r : RefC2 B) :
    cRef2 P K cfl tol A (fixedProg2 b X pre fs n k) r = cRef2 P K cfl tol A k (cRef2 P K cfl tol A (fixedProg2 b X pre fs n .stop) r) := by
  induction n generalizing r with
  | zero => rfl
  | succ n ih => exact ih _

omit [DecidableEq B] in
theorem still_fixed2 {X0 : B → LagField ℝ} (hX : X = X0 b) {k : Prog2 B} (hk : Still2 X0 k) (n : ℕ) : Still2 X0 (fixedProg2 b X pre fs n k) := by
  induction n with
  | zero => exact hk
  | succ n ih => exact fun dt => ⟨hX, ih⟩

omit [NeZero T.gy] [NeZero T.gx] in
theorem proper_fixed2 {P : Params2} (hauto : (A b).auto = true) (hin : Inside2 P.gy P.gx 1 P.dx (A b) X) {cfl : ℝ} {k : Prog2 B} (hk : ∀ r, Proper2 P K cfl tol A k r) (n : ℕ)
    (r : RefC2 B) : Proper2 P K cfl tol A (fixedProg2 b X pre fs n k) r := by
  induction n generalizing r with
  | zero => exact hk r
  | succ n ih => exact ⟨hin, .inl hauto, ih _⟩

omit [NeZero T.gy] [NeZero T.gx] in
theorem fixed_lastX2 {P : Params2} {cfl : ℝ} {X0 : B → LagField ℝ} (hX : X = X0 b) {dx : ℝ} {t0 : B → ℝ} {time : ℝ} {om : ℝ → ℝ → ℝ} {u : Fin 2 → ℝ → ℝ → ℝ} (n : ℕ) :
    (cRef2 P K cfl tol A (fixedProg2 b X pre fs n .stop) (refStart2 dx X0 t0 time om u)).lastX = X0 := by
  induction n with
  | zero => rfl
  | succ n ih =>
    rw [fixedProg2_add, cRef2_fixed]
    generalize cRef2 P K cfl tol A (fixedProg2 b X pre fs n .stop) (refStart2 dx X0 t0 time om u) = r at ih ⊢
    change Function.update r.lastX b X = X0
    rw [ih, hX, Function.update_eq_self]

end

/-! ## States of the loop -/

/-- All that is assumed of the example: simulator and interactor constructed (`Setup2`), the body inside the domain, ghost exchange left to the interactor (the default), all
messages delivered. -/
structure Fixed2 (a : SimArgs2) (xr nu cfl tol : ℝ) (K : Kern2) (A : B → Ib2) (X0 : B → LagField ℝ) (t0 : B → ℝ) (time : ℝ) (om : ℝ → ℝ → ℝ) (u : Fin 2 → ℝ → ℝ → ℝ) (S : CSt2 T B)
    (o : ℕ → CScheds2) (b : B) : Prop where
  setup : Setup2 a xr nu cfl A X0 t0 time om u S
  inside : Inside2 a.gy a.gx 1 (xr / a.gx) (A b) (X0 b)
  auto : (A b).auto = true
  sched : ∀ n, (o n).Done T (simCfg2 a T xr nu cfl).d
  xr : 0 < xr
  nu : 0 ≤ nu
  cfl : 0 < cfl
  tol : 0 < tol
  kern : K.Local
  zero : ∀ r, K.upd r (fun _ _ => 0) = 0

section
variable {a : SimArgs2} {xr nu cfl tol : ℝ} {K : Kern2} {A : B → Ib2} {X0 : B → LagField ℝ} {t0 : B → ℝ} {time : ℝ} {om : ℝ → ℝ → ℝ} {u : Fin 2 → ℝ → ℝ → ℝ} {S : CSt2 T B}
  {o : ℕ → CScheds2} {b : B} {pre : ℝ} {fs : Fin 2 → ℝ}

/-- The state before iteration `n`. -/
noncomputable def fixedState2 (C : Cfg2) (K : Kern2) (tol : ℝ) (A : B → Ib2) (o : ℕ → CScheds2) (b : B) (X : LagField ℝ) (pre : ℝ) (fs : Fin 2 → ℝ) (S : CSt2 T B) (n : ℕ) : CSt2 T B :=
  (cRun2 C K tol A o (fixedProg2 b X pre fs n .stop) 0 S).1

theorem Fixed2.run (h : Fixed2 a xr nu cfl tol K A X0 t0 time om u S o b) {k : Prog2 B} (hk : ∀ r, Proper2 ⟨a.gy, a.gx, xr, nu, widthOf a.width, a.freeStream⟩ K cfl tol A k r)
    (hs : Still2 X0 k) (n : ℕ) :
    let out := cRun2 (simCfg2 a T xr nu cfl) K tol A o (fixedProg2 b (X0 b) pre fs n k) 0 S
    out.2 = none ∧ CHolds2 a.gy a.gx (simCfg2 a T xr nu cfl) A (cRef2 ⟨a.gy, a.gx, xr, nu, widthOf a.width, a.freeStream⟩ K cfl tol A (fixedProg2 b (X0 b) pre fs n k)
      (refStart2 (xr / a.gx) X0 t0 time om u)) out.1 := by
  obtain ⟨h1, h2, -⟩ := coupled2_holds h.xr h.cfl.le h.tol h.kern h.zero h.setup h.sched (fixedProg2 b (X0 b) pre fs n k)
    (proper_fixed2 (P := ⟨a.gy, a.gx, xr, nu, widthOf a.width, a.freeStream⟩) h.auto h.inside hk n _)
    (tracked2_still _ _ _ _ _ X0 _ (still_fixed2 rfl hs n) _ rfl)
  exact ⟨h1, h2⟩

theorem Fixed2.state (h : Fixed2 a xr nu cfl tol K A X0 t0 time om u S o b) (n : ℕ) :
    cRun2 (simCfg2 a T xr nu cfl) K tol A o (fixedProg2 b (X0 b) pre fs n .stop) 0 S = (fixedState2 (simCfg2 a T xr nu cfl) K tol A o b (X0 b) pre fs S n, none) :=
  Prod.ext rfl (h.run (k := .stop) (fun _ => trivial) trivial n).1

/-- the next state is that after one more iteration -/
theorem Fixed2.next (h : Fixed2 a xr nu cfl tol K A X0 t0 time om u S o b) (n : ℕ) :
    fixedBody2 (simCfg2 a T xr nu cfl) K tol A o b (X0 b) pre fs n (fixedState2 (simCfg2 a T xr nu cfl) K tol A o b (X0 b) pre fs S n) =
      (fixedState2 (simCfg2 a T xr nu cfl) K tol A o b (X0 b) pre fs S (n + 1), none) := by
  have e := h.state (pre := pre) (fs := fs) (n + 1)
  rw [fixedProg2_add, cRun2_fixed _ n 0 (h.state n), Nat.zero_add] at e
  exact e

/-- the time step of an iteration -/
theorem Fixed2.dt (h : Fixed2 a xr nu cfl tol K A X0 t0 time om u S o b) (hpre : 0 < pre) (n : ℕ) :
    let st := fixedState2 (simCfg2 a T xr nu cfl) K tol A o b (X0 b) pre fs S
    ∃ M, IsGreatest {v | ∃ c p, Valid2 T c ∧ Inner2 T ((2 : ℕ) : ℤ) p ∧ v = |(st n).sim.vel 0 c p| + |(st n).sim.vel 1 c p|} M ∧
      fixedDt2 (simCfg2 a T xr nu cfl) tol pre n (st n) = .ok ((st (n + 1)).sim.time - (st n).sim.time) ∧
      (st (n + 1)).sim.time - (st n).sim.time = leastDt 4 cfl tol (xr / a.gx) nu pre M ∧ 0 < leastDt 4 cfl tol (xr / a.gx) nu pre M := by
  intro st
  obtain ⟨hT, -⟩ := simCheck2_cart' h.setup.fit.built
  obtain ⟨e1, e2, -⟩ := construct2_ok hT
  have hgy0 : 0 < a.gy := by rw [← e1]; exact Nat.pos_of_ne_zero (NeZero.ne _)
  have hgx0 : 0 < a.gx := by rw [← e2]; exact Nat.pos_of_ne_zero (NeZero.ne _)
  have hdx : 0 < xr / a.gx := div_pos h.xr (by exact_mod_cast hgx0)
  obtain ⟨-, hn⟩ := h.run (pre := pre) (fs := fs) (k := .stop) (fun _ => trivial) trivial n
  obtain ⟨-, hn1⟩ := h.run (pre := pre) (fs := fs) (k := .stop) (fun _ => trivial) trivial (n + 1)
  rw [fixedProg2_add, cRef2_fixed] at hn1
  generalize cRef2 ⟨a.gy, a.gx, xr, nu, widthOf a.width, a.freeStream⟩ K cfl tol A (fixedProg2 b (X0 b) pre fs n .stop) (refStart2 (xr / a.gx) X0 t0 time om u) = R at hn hn1
  have t0' : (st n).sim.time = R.time := hn.time
  have t1' : (st (n + 1)).sim.time = R.time + refDt2 ⟨a.gy, a.gx, xr, nu, widthOf a.width, a.freeStream⟩ cfl tol R.F (.stable pre) := by
    rw [show st (n + 1) = (cRun2 (simCfg2 a T xr nu cfl) K tol A o (fixedProg2 b (X0 b) pre fs (n + 1) .stop) 0 S).1 from rfl, fixedProg2_add]
    exact hn1.time
  have hd : fixedDt2 (simCfg2 a T xr nu cfl) tol pre n (st n) = .ok (refDt2 ⟨a.gy, a.gx, xr, nu, widthOf a.width, a.freeStream⟩ cfl tol R.F (.stable pre)) :=
    (pickDt2_holds hT (h.setup.fit.good h.xr nu cfl) h.cfl.le h.tol hn.sim (.stable pre)).1
  have hM := maxVel2_greatest hgy0 hgx0 R.F.u
  have hvel : ∀ j c p, Valid2 T c → Inner2 T ((2 : ℕ) : ℤ) p → (st n).sim.vel j c p = R.F.u j (globalIx2 T ((2 : ℕ) : ℤ) c p) := by
    intro j c p hc hp
    exact hn.sim.u j c p hc (inArr_of_inner2 hp) (Or.inl hp)
  have h0 : 0 ≤ maxVel2 a.gy a.gx R.F.u := by
    obtain ⟨⟨G, hG, hGe⟩, -⟩ := hM
    rw [hGe]; positivity
  refine ⟨maxVel2 a.gy a.gx R.F.u, ⟨?_, ?_⟩, ?_, ?_, leastDt_pos (by norm_num) h.cfl h.tol hdx h.nu hpre h0⟩
  · obtain ⟨⟨G, hG, hGe⟩, -⟩ := hM
    obtain ⟨c, p, hc, hp, hcp⟩ := domain_owned2 hT 2 ((dom2_iff hT G).1 hG)
    refine ⟨c, p, hc, hp, ?_⟩
    rw [hvel 0 c p hc hp, hvel 1 c p hc hp, hcp]; exact hGe
  · rintro v ⟨c, p, hc, hp, rfl⟩
    rw [hvel 0 c p hc hp, hvel 1 c p hc hp]
    exact hM.2 ⟨_, (dom2_iff hT _).2 (inner_inDomain2 hT hc hp), rfl⟩
  · rw [hd, t1', t0', add_sub_cancel_left]
  · rw [t1', t0', add_sub_cancel_left]; rfl

/-- plot and drag timers and records before iteration `n` -/
noncomputable def fixedRec2 (N : ℕ) (b : B) (scale foto data : ℝ) (st : ℕ → CSt2 T B) (n : ℕ) : (ℝ × List ℝ) × ℝ × List (ℝ × ℝ) :=
  (snapSeq false foto (fun i => (st i).sim.time) (fun i => (st (i + 1)).sim.time - (st i).sim.time) n,
   snapSeq false data (fun i => ((st i).sim.time, dragOf2 scale N b (st i))) (fun i => (st (i + 1)).sim.time - (st i).sim.time) n)

/-- the loop passes through these states -/
theorem Fixed2.loop (h : Fixed2 a xr nu cfl tol K A X0 t0 time om u S o b) (hpre : 0 < pre) (scale foto data tEnd : ℝ) {N : ℕ}
    {r : ((CSt2 T B × ℝ × List ℝ) × ℝ × List (ℝ × ℝ)) × Option PyErr} :
    let st := fixedState2 (simCfg2 a T xr nu cfl) K tol A o b (X0 b) pre fs S
    let rec_ := fixedRec2 (A b).N b scale foto data st
    While (fun s => s.1.1.sim.time < tEnd) (fixedLoop2 (simCfg2 a T xr nu cfl) K tol A o b (X0 b) pre fs scale foto data) 0 ((S, 0, []), 0, []) N r ↔
      (∀ i < N, (st i).sim.time < tEnd) ∧ tEnd ≤ (st N).sim.time ∧ r = (((st N, (rec_ N).1), (rec_ N).2), none) := by
  intro st rec_
  have hd : ∀ i, fixedDt2 (simCfg2 a T xr nu cfl) tol pre i (st i) = .ok ((st (i + 1)).sim.time - (st i).sim.time) := fun i => by
    obtain ⟨M, -, q, -⟩ := h.dt (fs := fs) hpre i
    exact q
  have h1 := snapBody_states (shot := fun S : CSt2 T B => S.sim.time) (it := st) (fun i => h.next i) hd false foto
  have h2 := snapBody_states (shot := fun s : CSt2 T B × ℝ × List ℝ => (s.1.sim.time, dragOf2 scale (A b).N b s.1)) (dtOf := fun i s => fixedDt2 (simCfg2 a T xr nu cfl) tol pre i s.1)
    (it := fun i => (st i, (rec_ i).1)) h1 hd false data
  constructor
  · intro hw
    obtain ⟨-, w2, w3, w4⟩ := hw.states (it := fun i => ((st i, (rec_ i).1), (rec_ i).2)) rfl h2
    exact ⟨fun i hi => w2 i (Nat.zero_le _) hi, not_lt.1 w3, w4⟩
  · rintro ⟨w2, w3, rfl⟩
    exact While.of_states (it := fun i => ((st i, (rec_ i).1), (rec_ i).2)) (Nat.zero_le N) (fun i _ hi => w2 i hi) (fun i _ _ => h2 i) (not_lt.2 w3)

/-! ## What a user can rely on -/

/-- C104 (2D): while velocities stay bounded, the driver ends without exception, with plots and drag coefficients recorded when they should be. -/
theorem fixedLoop2_ends (h : Fixed2 a xr nu cfl tol K A X0 t0 time om u S o b) (hpre : 0 < pre) (scale foto data tEnd : ℝ) {V : ℝ}
    (hV : ∀ n c p, (fixedState2 (simCfg2 a T xr nu cfl) K tol A o b (X0 b) pre fs S n).sim.time < tEnd → Valid2 T c → Inner2 T ((2 : ℕ) : ℤ) p →
      |(fixedState2 (simCfg2 a T xr nu cfl) K tol A o b (X0 b) pre fs S n).sim.vel 0 c p| + |(fixedState2 (simCfg2 a T xr nu cfl) K tol A o b (X0 b) pre fs S n).sim.vel 1 c p| ≤ V) :
    let st := fixedState2 (simCfg2 a T xr nu cfl) K tol A o b (X0 b) pre fs S
    ∃ N fotoTimer dataTimer plots drags,
      While (fun s => s.1.1.sim.time < tEnd) (fixedLoop2 (simCfg2 a T xr nu cfl) K tol A o b (X0 b) pre fs scale foto data) 0 ((S, 0, []), 0, []) N
        (((st N, fotoTimer, plots.map fun i => (st i).sim.time), dataTimer, drags.map fun i => ((st i).sim.time, dragOf2 scale (A b).N b (st i))), none) ∧
      Snapshots false foto (fun i => (st i).sim.time) N plots ∧ Snapshots false data (fun i => (st i).sim.time) N drags ∧
      N ≤ ⌈(tEnd - time) / leastDt 4 cfl tol (xr / a.gx) nu pre V⌉₊ ∧ tEnd ≤ (st N).sim.time := by
  intro st
  obtain ⟨hT, -⟩ := simCheck2_cart' h.setup.fit.built
  obtain ⟨e1, e2, -⟩ := construct2_ok hT
  have hgx0 : 0 < a.gx := by rw [← e2]; exact Nat.pos_of_ne_zero (NeZero.ne _)
  have hdx : 0 < xr / a.gx := div_pos h.xr (by exact_mod_cast hgx0)
  have hdt : ∀ n, (st n).sim.time < tEnd → (st n).sim.time + leastDt 4 cfl tol (xr / a.gx) nu pre V ≤ (st (n + 1)).sim.time ∧ 0 < leastDt 4 cfl tol (xr / a.gx) nu pre V := by
    intro n hnt
    obtain ⟨M, ⟨⟨c, p, hc, hp, hMe⟩, -⟩, -, q2, q3⟩ := h.dt (fs := fs) hpre n
    have hM0 : 0 ≤ M := by rw [hMe]; positivity
    have hMV : M ≤ V := by rw [hMe]; exact hV n c p hnt hc hp
    refine ⟨?_, leastDt_pos (by norm_num) h.cfl h.tol hdx h.nu hpre (hM0.trans hMV)⟩
    have q4 : (st (n + 1)).sim.time - (st n).sim.time = _ := q2
    have q5 := leastDt_mono (d := 4) (nu := nu) h.cfl h.tol hdx hpre hM0 hMV
    linarith
  have ht0 : (st 0).sim.time = time := by
    obtain ⟨dbl0, conv0, e⟩ := h.setup.sim
    change S.sim.time = time
    rw [e]; rfl
  obtain ⟨N, hN, hE, hB⟩ := clock_reaches (t := fun n => (st n).sim.time) tEnd hdt
  rw [ht0] at hN
  have hpos : ∀ n, 0 < (st (n + 1)).sim.time - (st n).sim.time := fun n => by
    obtain ⟨M, -, -, q2, q3⟩ := h.dt (fs := fs) hpre n
    have q4 : (st (n + 1)).sim.time - (st n).sim.time = _ := q2
    rw [q4]; exact q3
  obtain ⟨plots, p1, p2, -⟩ := snapSeq_spec (strict := false) (limit := foto) (t := fun i => (st i).sim.time) (v := fun i => (st i).sim.time)
    (dt := fun i => (st (i + 1)).sim.time - (st i).sim.time) hpos (fun n => by ring) N
  obtain ⟨drags, d1, d2, -⟩ := snapSeq_spec (strict := false) (limit := data) (t := fun i => (st i).sim.time) (v := fun i => ((st i).sim.time, dragOf2 scale (A b).N b (st i)))
    (dt := fun i => (st (i + 1)).sim.time - (st i).sim.time) hpos (fun n => by ring) N
  refine ⟨N, (fixedRec2 (A b).N b scale foto data st N).1.1, (fixedRec2 (A b).N b scale foto data st N).2.1, plots, drags, (h.loop hpre scale foto data tEnd).2 ⟨hB, hE, ?_⟩, p1, d1, hN, hE⟩
  rw [← p2, ← d2]
  rfl

/-- C104 (2D): the forces recorded are those of the last interaction.  In iteration `n` the interactor is called in a state `sim₁` without forcing, leaves a state `sim` whose
forcing adds up, over the inner cells of all ranks, to the sum of the forces on the nodes, in each component, and the flow step starts from `sim`; so the drag coefficient read
after the iteration is the total force along x on the fluid in that step. -/
theorem fixedLoop2_drag (h : Fixed2 a xr nu cfl tol K A X0 t0 time om u S o b) (scale : ℝ) (n : ℕ) :
    let C := simCfg2 a T xr nu cfl
    let st := fixedState2 C K tol A o b (X0 b) pre fs S
    ∃ dt sim₁ ib₁ sim ib, stableDt2 C tol pre (st n).sim = (sim₁, .ok dt) ∧ ib₁ = { (st n).ib b with v := vbfStep dt ((st n).ib b).v } ∧ (∀ k c p, Valid2 T c → Inner2 T ((2 : ℕ) : ℤ) p → sim₁.forcing k c p = 0) ∧
      fullInteract2 C (A b) (o (4 * n + 2)).ghost (X0 b) (fun _ _ => 0) sim₁ ib₁ = .ok (sim, ib) ∧
      (∀ k : Fin 2, (xr / a.gx) ^ 2 * innerTotal2 T 2 (sim.forcing k) = nodeTotal (A b).N (ib.v.gforce k)) ∧
      timeStep2 C K (o (4 * n + 3)).step dt fs sim = ((st (n + 1)).sim, none) ∧ (st (n + 1)).ib b = ib ∧
      dragOf2 scale (A b).N b (st (n + 1)) = |(xr / a.gx) ^ 2 * innerTotal2 T 2 (sim.forcing 0)| / scale := by
  intro C st
  have hnext := h.next (pre := pre) (fs := fs) n
  obtain ⟨-, hn⟩ := h.run (pre := pre) (fs := fs) (k := .stop) (fun _ => trivial) trivial n
  -- the forcing is clean before an iteration
  have hΦ : (cRef2 ⟨a.gy, a.gx, xr, nu, widthOf a.width, a.freeStream⟩ K cfl tol A (fixedProg2 b (X0 b) pre fs n .stop) (refStart2 (xr / a.gx) X0 t0 time om u)).Φ = fun _ _ => 0 := by
    cases n with
    | zero => rfl
    | succ m => rw [fixedProg2_add, cRef2_fixed]; rfl
  -- one more iteration, call by call
  have hlast : (cRef2 ⟨a.gy, a.gx, xr, nu, widthOf a.width, a.freeStream⟩ K cfl tol A (fixedProg2 b (X0 b) pre fs n .stop) (refStart2 (xr / a.gx) X0 t0 time om u)).lastX = X0 :=
    fixed_lastX2 rfl n
  have hin0 : Inside2 a.gy a.gx 0 (xr / a.gx) (A b) (X0 b) := by
    intro i hi G hG
    obtain ⟨q1, q2, q3, q4⟩ := h.inside i hi G hG
    unfold Away2 at *
    omega
  have hkP : ∀ r, Proper2 ⟨a.gy, a.gx, xr, nu, widthOf a.width, a.freeStream⟩ K cfl tol A (.stableDt pre fun dt => .advance b dt .stop) r := fun _ => trivial
  have hkS : Still2 X0 (.stableDt pre fun dt => .advance b dt .stop) := fun _ => trivial
  have hbal := interact2_balance h.xr h.cfl.le h.tol h.kern h.zero h.setup h.sched (fixedProg2 b (X0 b) pre fs n (.stableDt pre fun dt => .advance b dt .stop))
    (proper_fixed2 (P := ⟨a.gy, a.gx, xr, nu, widthOf a.width, a.freeStream⟩) h.auto h.inside hkP n _)
    (tracked2_still _ _ _ _ _ X0 _ (still_fixed2 rfl hkS n) _ rfl) b (X0 b) (fun _ _ => 0) (h.sched (4 * n + 2)).2 (Or.inl h.auto) hin0 (by
      rw [cRef2_fixed]
      change Noticed2 T (xr / a.gx) (A b) ((cRef2 _ K cfl tol A (fixedProg2 b (X0 b) pre fs n .stop) _).lastX b) (X0 b)
      rw [hlast]
      intro l l' h1 h2
      rw [h1] at h2
      exact Or.inl (Except.ok.inj h2).symm)
  have hrun : cRun2 C K tol A o (fixedProg2 b (X0 b) pre fs n (.stableDt pre fun dt => .advance b dt .stop)) 0 S =
    cRun2 C K tol A o (.stableDt pre fun dt => .advance b dt .stop) (0 + 4 * n) (st n) := cRun2_fixed _ n 0 (h.state n)
  dsimp only at hbal
  rw [hrun] at hbal
  simp only [fixedBody2, fixedProg2, cRun2] at hnext hbal
  rcases hsd : stableDt2 C tol pre (st n).sim with ⟨sim₁, dt | dt⟩
  · rw [hsd] at hnext
    simp at hnext
  rw [hsd] at hnext hbal
  dsimp only at hnext hbal
  simp only [Function.update_self] at hnext hbal
  obtain ⟨sim, ib, hfi, htot, -⟩ := hbal
  rw [hfi] at hnext
  dsimp only at hnext
  have hsim₁ : sim₁.forcing = (st n).sim.forcing := by
    have e : (stableDt2 C tol pre (st n).sim).1 = sim₁ := by rw [hsd]
    rw [← e]; rfl
  have hclean : ∀ k c p, Valid2 T c → Inner2 T ((2 : ℕ) : ℤ) p → sim₁.forcing k c p = 0 := by
    intro k c p hc hp
    rw [hsim₁]
    have q := (hn.force k c p hc).1 hp
    rw [hΦ] at q
    exact q
  have hz : ∀ k : Fin 2, innerTotal2 T 2 (sim₁.forcing k) = 0 := by
    intro k
    unfold innerTotal2
    apply Finset.sum_eq_zero; intro c hc
    apply Finset.sum_eq_zero; intro p hp
    exact hclean k c p (mem_rankSet2.1 hc) (mem_innerSet2.1 hp)
  have htot' : ∀ k : Fin 2, (xr / a.gx) ^ 2 * innerTotal2 T 2 (sim.forcing k) = nodeTotal (A b).N (ib.v.gforce k) := by
    intro k
    have q := htot k
    rw [hz k] at q
    simpa using q
  rcases hts : timeStep2 C K (o (4 * n + 3)).step dt fs sim with ⟨S', e | e⟩
  · rw [show 4 * n + 1 + 1 + 1 = 4 * n + 3 from rfl, hts] at hnext
    dsimp only at hnext
    have e1 := (Prod.mk.inj hnext).1
    have hib : (st (n + 1)).ib b = ib := by
      refine (congrArg (fun s : CSt2 T B => s.ib b) e1.symm).trans ?_
      simp only [Function.update_self]
    have hsim : (st (n + 1)).sim = S' := congrArg CSt2.sim e1.symm
    refine ⟨dt, sim₁, _, sim, ib, rfl, rfl, hclean, hfi, htot', hts.trans (congrArg (fun s => (s, none)) hsim.symm), hib, ?_⟩
    unfold dragOf2
    rw [hib, htot']
    rfl
  · rw [show 4 * n + 1 + 1 + 1 = 4 * n + 3 from rfl, hts] at hnext
    simp at hnext

/-- C104 (2D): the first coefficient is 0, and the clock of the interactor keeps in step with that of the flow. -/
theorem fixedLoop2_start (h : Fixed2 a xr nu cfl tol K A X0 t0 time om u S o b) (scale : ℝ) :
    let st := fixedState2 (simCfg2 a T xr nu cfl) K tol A o b (X0 b) pre fs S
    dragOf2 scale (A b).N b (st 0) = 0 ∧ ∀ n, ((st n).ib b).v.time - t0 b = (st n).sim.time - time := by
  intro st
  have href : ∀ n, let r := cRef2 ⟨a.gy, a.gx, xr, nu, widthOf a.width, a.freeStream⟩ K cfl tol A (fixedProg2 b (X0 b) pre fs n .stop) (refStart2 (xr / a.gx) X0 t0 time om u)
      (r.hist b).t - t0 b = r.time - time := by
    intro n
    induction n with
    | zero =>
      change t0 b - t0 b = time - time
      ring
    | succ n ih =>
      rw [fixedProg2_add, cRef2_fixed]
      dsimp only at ih ⊢
      generalize cRef2 ⟨a.gy, a.gx, xr, nu, widthOf a.width, a.freeStream⟩ K cfl tol A (fixedProg2 b (X0 b) pre fs n .stop) (refStart2 (xr / a.gx) X0 t0 time om u) = r at ih ⊢
      simp only [fixedProg2, cRef2, refFull2, refForces2, refLag2, Function.update_self]
      linarith
  constructor
  · obtain ⟨-, hn⟩ := h.run (pre := pre) (fs := fs) (k := .stop) (fun _ => trivial) trivial 0
    unfold dragOf2
    have hz : nodeTotal (A b).N (((st 0).ib b).v.gforce 0) = 0 := by
      apply Finset.sum_eq_zero
      intro i hi
      exact (hn.ib b).stores.force 0 (by norm_num [Ib2.vbf]) i (Finset.mem_range.1 hi)
    rw [hz, abs_zero, zero_div]
  · intro n
    obtain ⟨-, hn⟩ := h.run (pre := pre) (fs := fs) (k := .stop) (fun _ => trivial) trivial n
    have q1 : ((st n).ib b).v.time = _ := (hn.ib b).stores.time
    have q2 : (st n).sim.time = _ := hn.time
    rw [q1, q2]
    exact href n

/-- C104 (2D): the driver on two decompositions of the same problem: if it ends on one, it ends on the other, after as many iterations, with the same plots, the same drag
coefficients at the same times, and the same fields. -/
theorem fixedLoop2_same {T' : Cart2} [NeZero T'.gy] [NeZero T'.gx] {a' : SimArgs2} (hsame : a' = { a with py := a'.py, px := a'.px }) {A' : B → Ib2}
    (hA : ∀ b, A' b = { A b with m := (A' b).m, ord := (A' b).ord, junk := (A' b).junk }) {S' : CSt2 T' B} {o' : ℕ → CScheds2}
    (h : Fixed2 a xr nu cfl tol K A X0 t0 time om u S o b) (h' : Fixed2 a' xr nu cfl tol K A' X0 t0 time om u S' o' b) (hpre : 0 < pre) (scale foto data tEnd : ℝ)
    {N : ℕ} {R : CSt2 T B} {fotoTimer dataTimer : ℝ} {plots : List ℝ} {drags : List (ℝ × ℝ)} {e : Option PyErr}
    (hw : While (fun s => s.1.1.sim.time < tEnd) (fixedLoop2 (simCfg2 a T xr nu cfl) K tol A o b (X0 b) pre fs scale foto data) 0 ((S, 0, []), 0, []) N
      (((R, fotoTimer, plots), dataTimer, drags), e)) :
    e = none ∧ ∃ R' : CSt2 T' B,
      While (fun s => s.1.1.sim.time < tEnd) (fixedLoop2 (simCfg2 a' T' xr nu cfl) K tol A' o' b (X0 b) pre fs scale foto data) 0 ((S', 0, []), 0, []) N
        (((R', fotoTimer, plots), dataTimer, drags), none) ∧
      R.sim.time = R'.sim.time ∧
      ∀ c q c' q', Valid2 T c → Inner2 T ((2 : ℕ) : ℤ) q → Valid2 T' c' → Inner2 T' ((2 : ℕ) : ℤ) q' →
        globalIx2 T ((2 : ℕ) : ℤ) c q = globalIx2 T' ((2 : ℕ) : ℤ) c' q' →
        R.sim.prim c q = R'.sim.prim c' q' ∧ ∀ j, R.sim.vel j c q = R'.sim.vel j c' q' := by
  have hNA : (A' b).N = (A b).N := by rw [hA b]
  have hind := fun n => coupled2_decomposition_independent hsame h.xr h.cfl.le h.tol h.kern h.zero hA h.setup h'.setup h.sched h'.sched (fixedProg2 b (X0 b) pre fs n .stop)
    (proper_fixed2 (P := ⟨a.gy, a.gx, xr, nu, widthOf a.width, a.freeStream⟩) h.auto h.inside (k := .stop) (fun _ => trivial) n _)
    (tracked2_still _ _ _ _ _ X0 _ (still_fixed2 (k := .stop) rfl trivial n) _ rfl) (tracked2_still _ _ _ _ _ X0 _ (still_fixed2 (k := .stop) rfl trivial n) _ rfl)
  obtain ⟨w1, w2, w3⟩ := (h.loop hpre scale foto data tEnd).1 hw
  set st := fixedState2 (simCfg2 a T xr nu cfl) K tol A o b (X0 b) pre fs S with hst
  set st' := fixedState2 (simCfg2 a' T' xr nu cfl) K tol A' o' b (X0 b) pre fs S' with hst'
  have ht : ∀ n, (st n).sim.time = (st' n).sim.time := fun n => (hind n).2.2.1
  have hdrag : ∀ n, dragOf2 scale (A b).N b (st n) = dragOf2 scale (A' b).N b (st' n) := by
    intro n
    unfold dragOf2
    rw [hNA]
    have q : nodeTotal (A b).N (((st n).ib b).v.gforce 0) = nodeTotal (A b).N (((st' n).ib b).v.gforce 0) := by
      apply Finset.sum_congr rfl
      intro i hi
      exact ((hind n).2.2.2.2.2 b).1 0 (by norm_num) i (Finset.mem_range.1 hi)
    rw [q]
  have hrec : fixedRec2 (A b).N b scale foto data st N = fixedRec2 (A' b).N b scale foto data st' N := by
    unfold fixedRec2
    simp only [ht, hdrag]
  have e1 := Prod.mk.inj w3
  have e2 := Prod.mk.inj e1.1
  have e3 := Prod.mk.inj e2.1
  refine ⟨e1.2, st' N, (h'.loop hpre scale foto data tEnd).2 ⟨fun i hi => ?_, ?_, ?_⟩, ?_, ?_⟩
  · rw [← hst', ← ht]; exact w1 i hi
  · rw [← hst', ← ht]; exact w2
  · rw [← hst', ← hrec]
    rw [show (fotoTimer, plots) = (fixedRec2 (A b).N b scale foto data st N).1 from e3.2, show (dataTimer, drags) = (fixedRec2 (A b).N b scale foto data st N).2 from e2.2]
  · rw [e3.1]; exact ht N
  · intro c q c' q' hc hq hc' hq' he
    rw [e3.1]
    obtain ⟨q1, q2⟩ := (hind N).2.2.2.2.1 c q c' q' hc hq hc' hq' he
    exact ⟨q1, fun j => (q2 j).1⟩

end

/-! ## Examples -/

/-- at rest, everything stays at rest -/
theorem fixed_rest2 {P : Params2} {K : Kern2} (hK : K.Null) {cfl tol : ℝ} {A : B → Ib2} {b : B} {X : LagField ℝ} {pre : ℝ} {dx : ℝ} {X0 : B → LagField ℝ} {t0 : B → ℝ} {time : ℝ} (n : ℕ) :
    let r := cRef2 P K cfl tol A (fixedProg2 b X pre (fun _ => 0) n .stop) (refStart2 dx X0 t0 time (fun _ _ => 0) fun _ _ _ => 0)
    r.F = ⟨fun _ => 0, fun _ _ => 0⟩ ∧ r.Φ = (fun _ _ => 0) ∧ (r.hist b).P = (fun _ _ => 0) ∧ (r.hist b).V = fun _ _ => 0 := by
  induction n with
  | zero => exact ⟨rfl, rfl, rfl, rfl⟩
  | succ n ih =>
    rw [fixedProg2_add, cRef2_fixed]
    dsimp only at ih ⊢
    generalize cRef2 P K cfl tol A (fixedProg2 b X pre (fun _ => 0) n .stop) (refStart2 dx X0 t0 time (fun _ _ => 0) fun _ _ _ => 0) = r at ih ⊢
    obtain ⟨h1, h2, h3, h4⟩ := ih
    have hmis : mismatch2 P.dx (A b) (fun _ _ => 0) X (fun _ _ => 0) = fun _ _ => 0 := by
      funext k i
      unfold mismatch2 interp2
      simp
    have hsp : refSpread2 P.dx (A b) X (fun _ _ => 0) (fun _ _ => 0) = fun _ _ => 0 := by
      funext j G
      unfold refSpread2 share2n
      simp
    have hfo : ∀ dt, refForcing2 P K dt (fun _ => 0) (fun _ _ => 0) ⟨fun _ => 0, fun _ _ => 0⟩ = ⟨fun _ => 0, fun _ _ => 0⟩ := by
      intro dt
      have q := refStep2_zero "navier_stokes_with_forcing" P hK dt (fun _ => 0) (fun _ _ => 0)
      simpa [refStep2, isNS] using q
    simp only [fixedProg2, cRef2, refFull2, refForces2, refLag2, Function.update_self, h1, h2, h3, h4, hmis, mul_zero, add_zero, hsp, hfo]
    trivial

/-- the setting of the example: one body, two ranks -/
example [NeZero (⟨16, 8, 1, 2, 16, 4, false⟩ : Cart2).gy] [NeZero (⟨16, 8, 1, 2, 16, 4, false⟩ : Cart2).gx] [NeZero (⟨16, 8, 1, 1, 16, 8, false⟩ : Cart2).gy]
    [NeZero (⟨16, 8, 1, 1, 16, 8, false⟩ : Cart2).gx] {K : Kern2} (hK : K.Local) (hK0 : K.Null) (om : ℝ → ℝ → ℝ) (u : Fin 2 → ℝ → ℝ → ℝ)
    {o o' : ℕ → CScheds2} (ho : ∀ n, (o n).Done ⟨16, 8, 1, 2, 16, 4, false⟩
      (simCfg2 ⟨16, 8, 1, 2, "navier_stokes_with_forcing", true, 2, .int 2⟩ ⟨16, 8, 1, 2, 16, 4, false⟩ 8 0.01 0.1).d)
    (ho' : ∀ n, (o' n).Done ⟨16, 8, 1, 1, 16, 8, false⟩
      (simCfg2 ⟨16, 8, 1, 1, "navier_stokes_with_forcing", true, 2, .int 2⟩ ⟨16, 8, 1, 1, 16, 8, false⟩ 8 0.01 0.1).d) :
    (∃ S : CSt2 ⟨16, 8, 1, 2, 16, 4, false⟩ Unit,
      Fixed2 ⟨16, 8, 1, 2, "navier_stokes_with_forcing", true, 2, .int 2⟩ 8 0.01 0.1 1e-10 K (fun _ => exBody2) (fun _ => exPos2) (fun _ => 0) 0 om u S o ()) ∧
    (∃ S : CSt2 ⟨16, 8, 1, 1, 16, 8, false⟩ Unit,
      Fixed2 ⟨16, 8, 1, 1, "navier_stokes_with_forcing", true, 2, .int 2⟩ 8 0.01 0.1 1e-10 K (fun _ => exBody2) (fun _ => exPos2) (fun _ => 0) 0 om u S o' ()) := by
  obtain ⟨⟨S, hS⟩, S', hS'⟩ := exSetup2 0.01 0.1 om u
  have e : (8 : ℝ) / ((8 : ℕ) : ℝ) = 1 := by norm_num
  exact ⟨⟨S, hS, by rw [e]; exact exBody2_inside, rfl, ho, by norm_num, by norm_num, by norm_num, by norm_num, hK, hK0.upd⟩,
    S', hS', by rw [e]; exact exBody2_inside, rfl, ho', by norm_num, by norm_num, by norm_num, by norm_num, hK, hK0.upd⟩

/-- the loop from rest, without free stream, reaches `tEnd = 1` -/
example {a : SimArgs2} {xr nu cfl tol : ℝ} {K : Kern2} {A : B → Ib2} {X0 : B → LagField ℝ} {t0 : B → ℝ} {time : ℝ} {S : CSt2 T B} {o : ℕ → CScheds2} {b : B} {pre : ℝ}
    (h : Fixed2 a xr nu cfl tol K A X0 t0 time (fun _ _ => 0) (fun _ _ _ => 0) S o b) (hK : K.Null) (hpre : 0 < pre) (scale foto data : ℝ) :
    ∃ N r, While (fun s => s.1.1.sim.time < 1) (fixedLoop2 (simCfg2 a T xr nu cfl) K tol A o b (X0 b) pre (fun _ => 0) scale foto data) 0 ((S, 0, []), 0, []) N (r, none) := by
  obtain ⟨N, t1, t2, l1, l2, hw, -⟩ := fixedLoop2_ends (fs := fun _ => 0) h hpre scale foto data 1 (V := 0) (by
    intro n c p _ hc hp
    obtain ⟨-, hn⟩ := h.run (pre := pre) (fs := fun _ => 0) (k := .stop) (fun _ => trivial) trivial n
    have q := (fixed_rest2 (P := ⟨a.gy, a.gx, xr, nu, widthOf a.width, a.freeStream⟩) hK (cfl := cfl) (tol := tol) (A := A) (b := b) (X := X0 b) (pre := pre) (dx := xr / a.gx)
      (X0 := X0) (t0 := t0) (time := time) n).1
    have hv : ∀ j, (fixedState2 (simCfg2 a T xr nu cfl) K tol A o b (X0 b) pre (fun _ => 0) S n).sim.vel j c p = 0 := by
      intro j
      have q2 := hn.sim.u j c p hc (inArr_of_inner2 hp) (Or.inl hp)
      rw [q] at q2
      exact q2
    rw [hv, hv]; simp)
  exact ⟨N, _, hw⟩

end Sopht
