import Verif.FixedBody
import Verif.TimeLoop3
import Verif.Balance3D

/-!
# Flow past a body that is held in place (3D)

examples/3d_examples/FlowPastSphereCase/flow_past_sphere_case.py:144-202: the time loop with its timer and the recorded drag coefficients.
-/

namespace Sopht

variable {B : Type} [DecidableEq B]

/-- `n` iterations of the loop (flow_past_sphere_case.py:193-199), then on with `k`: `dt = compute_stable_timestep(); interactor.time_step(dt); interactor();
flow_sim.time_step(dt, free_stream_velocity)`; the nodes are at `X` and do not move. -/
noncomputable def fixedProg3 (b : B) (X : LagField ℝ) (pre : ℝ) (fs : Fin 3 → ℝ) : ℕ → Prog3 B → Prog3 B
  | 0, k => k
  | n + 1, k => .stableDt pre fun dt => .advance b dt (.interact b X (fun _ _ => 0) (.flow dt fs (fixedProg3 b X pre fs n k)))

/-- The drag coefficient (flow_past_sphere_case.py:158-168): `fabs(sum(global_lag_grid_forcing_field[0])) / scale` on the master rank. -/
noncomputable def dragOf3 {T : Cart3} (scale : ℝ) (N : ℕ) (b : B) (S : CSt3 T B) : ℝ := |nodeTotal N ((S.ib b).v.gforce 0)| / scale

variable {T : Cart3} [NeZero T.gz] [NeZero T.gy] [NeZero T.gx]

/-- An iteration of the loop, `core` of the timers. -/
noncomputable def fixedBody3 (C : Cfg3) (K : Kern3) (tol : ℝ) (A : B → Ib3) (o : ℕ → CScheds3) (b : B) (X : LagField ℝ) (pre : ℝ) (fs : Fin 3 → ℝ) (i : ℕ) (S : CSt3 T B) :
    CSt3 T B × Option PyErr := cRun3 C K tol A o (fixedProg3 b X pre fs 1 .stop) (4 * i) S

/-- The time step an iteration takes. -/
noncomputable def fixedDt3 (C : Cfg3) (tol pre : ℝ) (_ : ℕ) (S : CSt3 T B) : Except PyErr ℝ := (stableDt3 C tol pre S.sim).2

/-- The loop with its timer (flow_past_sphere_case.py:144-202): drag coefficients with their times. -/
noncomputable def fixedLoop3 (C : Cfg3) (K : Kern3) (tol : ℝ) (A : B → Ib3) (o : ℕ → CScheds3) (b : B) (X : LagField ℝ) (pre : ℝ) (fs : Fin 3 → ℝ) (scale foto : ℝ) :
    ℕ → CSt3 T B × ℝ × List (ℝ × ℝ) → (CSt3 T B × ℝ × List (ℝ × ℝ)) × Option PyErr :=
  snapBody true foto (fun S => (S.sim.time, dragOf3 scale (A b).N b S)) (fixedDt3 C tol pre) (fixedBody3 C K tol A o b X pre fs)

/-! ## Programs -/

section
variable {C : Cfg3} {K : Kern3} {tol : ℝ} {A : B → Ib3} {o : ℕ → CScheds3} {b : B} {X : LagField ℝ} {pre : ℝ} {fs : Fin 3 → ℝ}

theorem cRun3_fixed (k : Prog3 B) (n i : ℕ) {S S' : CSt3 T B} (h : cRun3 C K tol A o (fixedProg3 b X pre fs n .stop) i S = (S', none)) :
    cRun3 C K tol A o (fixedProg3 b X pre fs n k) i S = cRun3 C K tol A o k (i + 4 * n) S' := by
  induction n generalizing i S with
  | zero =>
    simp only [fixedProg3, cRun3] at h ⊢
    cases h; rfl
  | succ n ih =>
    simp only [fixedProg3, cRun3] at h ⊢
    split at h
    · simp at h
    · split at h
      · simp at h
      · split at h
        · simp at h
        · rw [ih _ h]
          congr 1
          ring

omit [DecidableEq B] in
theorem fixedProg3_add (m n : ℕ) (k : Prog3 B) : fixedProg3 b X pre fs (m + n) k = fixedProg3 b X pre fs m (fixedProg3 b X pre fs n k) := by
  induction m with
  | zero => simp [fixedProg3]
  | succ m ih => rw [Nat.succ_add]; simp only [fixedProg3, ih]

theorem cRef3_fixed {P : Params3} {cfl : ℝ} (k : Prog3 B) (n : ℕ) (r : RefC3 B) :
    cRef3 P K cfl tol A (fixedProg3 b X pre fs n k) r = cRef3 P K cfl tol A k (cRef3 P K cfl tol A (fixedProg3 b X pre fs n .stop) r) := by
  induction n generalizing r with
  | zero => rfl
  | succ n ih => exact ih _

omit [DecidableEq B] in
theorem still_fixed3 {X0 : B → LagField ℝ} (hX : X = X0 b) {k : Prog3 B} (hk : Still3 X0 k) (n : ℕ) : Still3 X0 (fixedProg3 b X pre fs n k) := by
  induction n with
  | zero => exact hk
  | succ n ih => exact fun dt => ⟨hX, ih⟩

omit [NeZero T.gz] [NeZero T.gy] [NeZero T.gx] in
theorem proper_fixed3 {P : Params3} (hauto : (A b).auto = true) (hin : Inside3 P.gz P.gy P.gx 1 P.dx (A b) X) {cfl : ℝ} {k : Prog3 B} (hk : ∀ r, Proper3 P K cfl tol A k r) (n : ℕ)
    (r : RefC3 B) : Proper3 P K cfl tol A (fixedProg3 b X pre fs n k) r := by
  induction n generalizing r with
  | zero => exact hk r
  | succ n ih => exact ⟨hin, .inl hauto, ih _⟩

omit [NeZero T.gz] [NeZero T.gy] [NeZero T.gx] in
theorem fixed_lastX3 {P : Params3} {cfl : ℝ} {X0 : B → LagField ℝ} (hX : X = X0 b) {dx : ℝ} {t0 : B → ℝ} {time : ℝ} {sc : ℝ → ℝ → ℝ → ℝ} {om u : Fin 3 → ℝ → ℝ → ℝ → ℝ} (n : ℕ) :
    (cRef3 P K cfl tol A (fixedProg3 b X pre fs n .stop) (refStart3 dx X0 t0 time sc om u)).lastX = X0 := by
  induction n with
  | zero => rfl
  | succ n ih =>
    rw [fixedProg3_add, cRef3_fixed]
    generalize cRef3 P K cfl tol A (fixedProg3 b X pre fs n .stop) (refStart3 dx X0 t0 time sc om u) = r at ih ⊢
    change Function.update r.lastX b X = X0
    rw [ih, hX, Function.update_eq_self]

end

/-! ## States of the loop -/

/-- All that is assumed of the example: simulator and interactor constructed (`Setup3`), the body inside the domain, ghost exchange left to the interactor (the default), all
messages delivered. -/
structure Fixed3 (a : SimArgs3) (xr nu cfl tol : ℝ) (K : Kern3) (A : B → Ib3) (X0 : B → LagField ℝ) (t0 : B → ℝ) (time : ℝ) (sc : ℝ → ℝ → ℝ → ℝ) (om u : Fin 3 → ℝ → ℝ → ℝ → ℝ) (S : CSt3 T B)
    (o : ℕ → CScheds3) (b : B) : Prop where
  setup : Setup3 a xr A X0 t0 time sc om u S
  inside : Inside3 a.gz a.gy a.gx 1 (xr / a.gx) (A b) (X0 b)
  auto : (A b).auto = true
  sched : ∀ n, (o n).Done T a.g
  xr : 0 < xr
  nu : 0 ≤ nu
  cfl : 0 < cfl
  tol : 0 < tol
  kern : K.Local
  kdiv : ∀ a, CrossLocal3 1 (K.div a)
  zero : ∀ r, K.upd r (fun _ _ => 0) = 0

section
variable {a : SimArgs3} {xr nu cfl tol : ℝ} {K : Kern3} {A : B → Ib3} {X0 : B → LagField ℝ} {t0 : B → ℝ} {time : ℝ} {sc : ℝ → ℝ → ℝ → ℝ} {om u : Fin 3 → ℝ → ℝ → ℝ → ℝ} {S : CSt3 T B}
  {o : ℕ → CScheds3} {b : B} {pre : ℝ} {fs : Fin 3 → ℝ}

omit [DecidableEq B] in
theorem Fixed3.one (h : Fixed3 a xr nu cfl tol K A X0 t0 time sc om u S o b) : 1 ≤ a.g := by
  exact (h.setup.fit.good xr nu cfl (by rw [h.setup.flowType]; rfl)).g.trans' (by norm_num)

/-- The state before iteration `n`. -/
noncomputable def fixedState3 (C : Cfg3) (K : Kern3) (tol : ℝ) (A : B → Ib3) (o : ℕ → CScheds3) (b : B) (X : LagField ℝ) (pre : ℝ) (fs : Fin 3 → ℝ) (S : CSt3 T B) (n : ℕ) : CSt3 T B :=
  (cRun3 C K tol A o (fixedProg3 b X pre fs n .stop) 0 S).1

theorem Fixed3.run (h : Fixed3 a xr nu cfl tol K A X0 t0 time sc om u S o b) {k : Prog3 B} (hk : ∀ r, Proper3 (a.pars xr nu) K cfl tol A k r)
    (hs : Still3 X0 k) (n : ℕ) :
    let out := cRun3 (simCfg3 a xr nu cfl) K tol A o (fixedProg3 b (X0 b) pre fs n k) 0 S
    out.2 = none ∧ CHolds3 a.gz a.gy a.gx (simCfg3 a xr nu cfl) A (cRef3 (a.pars xr nu) K cfl tol A (fixedProg3 b (X0 b) pre fs n k)
      (refStart3 (xr / a.gx) X0 t0 time sc om u)) out.1 := by
  obtain ⟨h1, h2, -⟩ := coupled3_holds h.xr h.nu h.cfl.le h.tol h.kern h.kdiv h.zero h.setup h.sched (fixedProg3 b (X0 b) pre fs n k)
    (proper_fixed3 (P := (a.pars xr nu)) h.auto h.inside hk n _)
    (tracked3_still _ _ _ _ _ X0 _ (still_fixed3 rfl hs n) _ rfl)
  exact ⟨h1, h2⟩

theorem Fixed3.state (h : Fixed3 a xr nu cfl tol K A X0 t0 time sc om u S o b) (n : ℕ) :
    cRun3 (simCfg3 a xr nu cfl) K tol A o (fixedProg3 b (X0 b) pre fs n .stop) 0 S = (fixedState3 (simCfg3 a xr nu cfl) K tol A o b (X0 b) pre fs S n, none) :=
  Prod.ext rfl (h.run (k := .stop) (fun _ => trivial) trivial n).1

/-- the next state is that after one more iteration -/
theorem Fixed3.next (h : Fixed3 a xr nu cfl tol K A X0 t0 time sc om u S o b) (n : ℕ) :
    fixedBody3 (simCfg3 a xr nu cfl) K tol A o b (X0 b) pre fs n (fixedState3 (simCfg3 a xr nu cfl) K tol A o b (X0 b) pre fs S n) =
      (fixedState3 (simCfg3 a xr nu cfl) K tol A o b (X0 b) pre fs S (n + 1), none) := by
  have e := h.state (pre := pre) (fs := fs) (n + 1)
  rw [fixedProg3_add, cRun3_fixed _ n 0 (h.state n), Nat.zero_add] at e
  exact e

/-- the time step of an iteration -/
theorem Fixed3.dt (h : Fixed3 a xr nu cfl tol K A X0 t0 time sc om u S o b) (hpre : 0 < pre) (n : ℕ) :
    let st := fixedState3 (simCfg3 a xr nu cfl) K tol A o b (X0 b) pre fs S
    ∃ M, IsGreatest {v | ∃ c p, Valid3 T c ∧ Inner3 T (a.g : ℤ) p ∧ v = |(st n).sim.vel 0 c p| + |(st n).sim.vel 1 c p| + |(st n).sim.vel 2 c p|} M ∧
      fixedDt3 (simCfg3 a xr nu cfl) tol pre n (st n) = .ok ((st (n + 1)).sim.time - (st n).sim.time) ∧
      (st (n + 1)).sim.time - (st n).sim.time = leastDt 6 cfl tol (xr / a.gx) (nu + tol) pre M ∧ 0 < leastDt 6 cfl tol (xr / a.gx) (nu + tol) pre M := by
  intro st
  obtain ⟨hT, -⟩ := simCheck3_cart h.setup.fit.built
  obtain ⟨e0, e1, e2, -⟩ := construct3_ok hT
  have hgz0 : 0 < a.gz := by rw [← e0]; exact Nat.pos_of_ne_zero (NeZero.ne _)
  have hgy0 : 0 < a.gy := by rw [← e1]; exact Nat.pos_of_ne_zero (NeZero.ne _)
  have hgx0 : 0 < a.gx := by rw [← e2]; exact Nat.pos_of_ne_zero (NeZero.ne _)
  have hdx : 0 < xr / a.gx := div_pos h.xr (by exact_mod_cast hgx0)
  obtain ⟨-, hn⟩ := h.run (pre := pre) (fs := fs) (k := .stop) (fun _ => trivial) trivial n
  obtain ⟨-, hn1⟩ := h.run (pre := pre) (fs := fs) (k := .stop) (fun _ => trivial) trivial (n + 1)
  rw [fixedProg3_add, cRef3_fixed] at hn1
  generalize cRef3 (a.pars xr nu) K cfl tol A (fixedProg3 b (X0 b) pre fs n .stop) (refStart3 (xr / a.gx) X0 t0 time sc om u) = R at hn hn1
  have t0' : (st n).sim.time = R.time := hn.time
  have t1' : (st (n + 1)).sim.time = R.time + refDt3 (a.pars xr nu) cfl tol R.F (.stable pre) := by
    rw [show st (n + 1) = (cRun3 (simCfg3 a xr nu cfl) K tol A o (fixedProg3 b (X0 b) pre fs (n + 1) .stop) 0 S).1 from rfl, fixedProg3_add]
    exact hn1.time
  have hd : fixedDt3 (simCfg3 a xr nu cfl) tol pre n (st n) = .ok (refDt3 (a.pars xr nu) cfl tol R.F (.stable pre)) :=
    (pickDt3_holds hT (C := simCfg3 a xr nu cfl) h.one h.cfl.le h.xr h.nu h.tol hn.sim (.stable pre)).1
  have hM := maxVel3_greatest hgz0 hgy0 hgx0 R.F.u
  have hvel : ∀ j c p, Valid3 T c → Inner3 T (a.g : ℤ) p → (st n).sim.vel j c p = R.F.u j (globalIx3 T (a.g : ℤ) c p) := by
    intro j c p hc hp
    exact hn.sim.u j c p hc (inArr_of_inner3 hp) (Or.inl hp)
  have h0 : 0 ≤ maxVel3 a.gz a.gy a.gx R.F.u := by
    obtain ⟨⟨G, hG, hGe⟩, -⟩ := hM
    rw [hGe]; positivity
  refine ⟨maxVel3 a.gz a.gy a.gx R.F.u, ⟨?_, ?_⟩, ?_, ?_, leastDt_pos (by norm_num) h.cfl h.tol hdx (add_nonneg h.nu h.tol.le) hpre h0⟩
  · obtain ⟨⟨G, hG, hGe⟩, -⟩ := hM
    obtain ⟨c, p, hc, hp, hcp⟩ := domain_owned3 hT a.g ((dom3_iff hT G).1 hG)
    refine ⟨c, p, hc, hp, ?_⟩
    rw [hvel 0 c p hc hp, hvel 1 c p hc hp, hvel 2 c p hc hp, hcp]; exact hGe
  · rintro v ⟨c, p, hc, hp, rfl⟩
    rw [hvel 0 c p hc hp, hvel 1 c p hc hp, hvel 2 c p hc hp]
    exact hM.2 ⟨_, (dom3_iff hT _).2 (inner_inDomain3 hT hc hp), rfl⟩
  · rw [hd, t1', t0', add_sub_cancel_left]
  · rw [t1', t0', add_sub_cancel_left]
    unfold leastDt
    rw [if_neg (add_pos_of_nonneg_of_pos h.nu h.tol).ne']
    rfl

/-- timer and records before iteration `n` -/
noncomputable def fixedRec3 (N : ℕ) (b : B) (scale foto : ℝ) (st : ℕ → CSt3 T B) (n : ℕ) : ℝ × List (ℝ × ℝ) :=
  snapSeq true foto (fun i => ((st i).sim.time, dragOf3 scale N b (st i))) (fun i => (st (i + 1)).sim.time - (st i).sim.time) n

/-- the loop passes through these states -/
theorem Fixed3.loop (h : Fixed3 a xr nu cfl tol K A X0 t0 time sc om u S o b) (hpre : 0 < pre) (scale foto tEnd : ℝ) {N : ℕ} {r : (CSt3 T B × ℝ × List (ℝ × ℝ)) × Option PyErr} :
    let st := fixedState3 (simCfg3 a xr nu cfl) K tol A o b (X0 b) pre fs S
    let rec_ := fixedRec3 (A b).N b scale foto st
    While (fun s => s.1.sim.time < tEnd) (fixedLoop3 (simCfg3 a xr nu cfl) K tol A o b (X0 b) pre fs scale foto) 0 (S, 0, []) N r ↔
      (∀ i < N, (st i).sim.time < tEnd) ∧ tEnd ≤ (st N).sim.time ∧ r = ((st N, rec_ N), none) := by
  intro st rec_
  have hd : ∀ i, fixedDt3 (simCfg3 a xr nu cfl) tol pre i (st i) = .ok ((st (i + 1)).sim.time - (st i).sim.time) := fun i => by
    obtain ⟨M, -, q, -⟩ := h.dt (fs := fs) hpre i
    exact q
  have h1 := snapBody_states (shot := fun S : CSt3 T B => (S.sim.time, dragOf3 scale (A b).N b S)) (it := st) (fun i => h.next i) hd true foto
  constructor
  · intro hw
    obtain ⟨-, w2, w3, w4⟩ := hw.states (it := fun i => (st i, rec_ i)) rfl h1
    exact ⟨fun i hi => w2 i (Nat.zero_le _) hi, not_lt.1 w3, w4⟩
  · rintro ⟨w2, w3, rfl⟩
    exact While.of_states (it := fun i => (st i, rec_ i)) (Nat.zero_le N) (fun i _ hi => w2 i hi) (fun i _ _ => h1 i) (not_lt.2 w3)

/-! ## What a user can rely on -/

/-- C104 (3D): while velocities stay bounded, the driver ends without exception, with drag coefficients recorded when they should be. -/
theorem fixedLoop3_ends (h : Fixed3 a xr nu cfl tol K A X0 t0 time sc om u S o b) (hpre : 0 < pre) (scale foto tEnd : ℝ) {V : ℝ}
    (hV : ∀ n c p, (fixedState3 (simCfg3 a xr nu cfl) K tol A o b (X0 b) pre fs S n).sim.time < tEnd → Valid3 T c → Inner3 T (a.g : ℤ) p →
      |(fixedState3 (simCfg3 a xr nu cfl) K tol A o b (X0 b) pre fs S n).sim.vel 0 c p| + |(fixedState3 (simCfg3 a xr nu cfl) K tol A o b (X0 b) pre fs S n).sim.vel 1 c p| + |(fixedState3 (simCfg3 a xr nu cfl) K tol A o b (X0 b) pre fs S n).sim.vel 2 c p| ≤ V) :
    let st := fixedState3 (simCfg3 a xr nu cfl) K tol A o b (X0 b) pre fs S
    ∃ N timer drags,
      While (fun s => s.1.sim.time < tEnd) (fixedLoop3 (simCfg3 a xr nu cfl) K tol A o b (X0 b) pre fs scale foto) 0 (S, 0, []) N
        ((st N, timer, drags.map fun i => ((st i).sim.time, dragOf3 scale (A b).N b (st i))), none) ∧
      Snapshots true foto (fun i => (st i).sim.time) N drags ∧
      N ≤ ⌈(tEnd - time) / leastDt 6 cfl tol (xr / a.gx) (nu + tol) pre V⌉₊ ∧ tEnd ≤ (st N).sim.time := by
  intro st
  obtain ⟨hT, -⟩ := simCheck3_cart h.setup.fit.built
  obtain ⟨e0, e1, e2, -⟩ := construct3_ok hT
  have hgx0 : 0 < a.gx := by rw [← e2]; exact Nat.pos_of_ne_zero (NeZero.ne _)
  have hdx : 0 < xr / a.gx := div_pos h.xr (by exact_mod_cast hgx0)
  have hdt : ∀ n, (st n).sim.time < tEnd → (st n).sim.time + leastDt 6 cfl tol (xr / a.gx) (nu + tol) pre V ≤ (st (n + 1)).sim.time ∧ 0 < leastDt 6 cfl tol (xr / a.gx) (nu + tol) pre V := by
    intro n hnt
    obtain ⟨M, ⟨⟨c, p, hc, hp, hMe⟩, -⟩, -, q2, q3⟩ := h.dt (fs := fs) hpre n
    have hM0 : 0 ≤ M := by rw [hMe]; positivity
    have hMV : M ≤ V := by rw [hMe]; exact hV n c p hnt hc hp
    refine ⟨?_, leastDt_pos (by norm_num) h.cfl h.tol hdx (add_nonneg h.nu h.tol.le) hpre (hM0.trans hMV)⟩
    have q4 : (st (n + 1)).sim.time - (st n).sim.time = _ := q2
    have q5 := leastDt_mono (d := 6) (nu := nu + tol) h.cfl h.tol hdx hpre hM0 hMV
    linarith
  have ht0 : (st 0).sim.time = time := by
    obtain ⟨dbl0, conv0, e⟩ := h.setup.sim
    change S.sim.time = time
    rw [e]; rfl
  obtain ⟨N, hN, hE, hB⟩ := clock_reaches (t := fun n => (st n).sim.time) tEnd hdt
  rw [ht0] at hN
  have hpos : ∀ n, 0 < (st (n + 1)).sim.time - (st n).sim.time := fun n => by
    obtain ⟨M, -, -, q2, q3⟩ := h.dt (fs := fs) hpre n
    have q4 : (st (n + 1)).sim.time - (st n).sim.time = _ := q2
    rw [q4]; exact q3
  obtain ⟨drags, d1, d2, -⟩ := snapSeq_spec (strict := true) (limit := foto) (t := fun i => (st i).sim.time) (v := fun i => ((st i).sim.time, dragOf3 scale (A b).N b (st i)))
    (dt := fun i => (st (i + 1)).sim.time - (st i).sim.time) hpos (fun n => by ring) N
  refine ⟨N, (fixedRec3 (A b).N b scale foto st N).1, drags, (h.loop hpre scale foto tEnd).2 ⟨hB, hE, ?_⟩, d1, hN, hE⟩
  rw [← d2]
  rfl

/-- C104 (3D): the forces recorded are those of the last interaction.  In iteration `n` the interactor is called in a state `sim₁` without forcing, leaves a state `sim` whose
forcing adds up, over the inner cells of all ranks, to the sum of the forces on the nodes, in each component, and the flow step starts from `sim`; so the drag coefficient read
after the iteration is the total force along x on the fluid in that step. -/
theorem fixedLoop3_drag (h : Fixed3 a xr nu cfl tol K A X0 t0 time sc om u S o b) (scale : ℝ) (n : ℕ) :
    let C := simCfg3 a xr nu cfl
    let st := fixedState3 C K tol A o b (X0 b) pre fs S
    ∃ dt sim₁ ib₁ sim ib, stableDt3 C tol pre (st n).sim = (sim₁, .ok dt) ∧ ib₁ = { (st n).ib b with v := vbfStep dt ((st n).ib b).v } ∧ (∀ k c p, Valid3 T c → Inner3 T (a.g : ℤ) p → sim₁.forcing k c p = 0) ∧
      fullInteract3 C (A b) (o (4 * n + 2)).ghost (X0 b) (fun _ _ => 0) sim₁ ib₁ = .ok (sim, ib) ∧
      (∀ k : Fin 3, (xr / a.gx) ^ 3 * innerTotal3 T a.g (sim.forcing k) = nodeTotal (A b).N (ib.v.gforce k)) ∧
      timeStep3 C K (o (4 * n + 3)).step dt fs sim = ((st (n + 1)).sim, none) ∧ (st (n + 1)).ib b = ib ∧
      dragOf3 scale (A b).N b (st (n + 1)) = |(xr / a.gx) ^ 3 * innerTotal3 T a.g (sim.forcing 0)| / scale := by
  intro C st
  have hnext := h.next (pre := pre) (fs := fs) n
  obtain ⟨-, hn⟩ := h.run (pre := pre) (fs := fs) (k := .stop) (fun _ => trivial) trivial n
  -- the forcing is clean before an iteration
  have hΦ : (cRef3 (a.pars xr nu) K cfl tol A (fixedProg3 b (X0 b) pre fs n .stop) (refStart3 (xr / a.gx) X0 t0 time sc om u)).Φ = fun _ _ => 0 := by
    cases n with
    | zero => rfl
    | succ m => rw [fixedProg3_add, cRef3_fixed]; rfl
  -- one more iteration, call by call
  have hlast : (cRef3 (a.pars xr nu) K cfl tol A (fixedProg3 b (X0 b) pre fs n .stop) (refStart3 (xr / a.gx) X0 t0 time sc om u)).lastX = X0 :=
    fixed_lastX3 rfl n
  have hin0 : Inside3 a.gz a.gy a.gx 0 (xr / a.gx) (A b) (X0 b) := by
    intro i hi G hG
    have q := h.inside i hi G hG
    unfold Away3 at q ⊢
    push_cast at q ⊢; omega
  have hkP : ∀ r, Proper3 (a.pars xr nu) K cfl tol A (.stableDt pre fun dt => .advance b dt .stop) r := fun _ => trivial
  have hkS : Still3 X0 (.stableDt pre fun dt => .advance b dt .stop) := fun _ => trivial
  have hbal := interact3_balance h.xr h.nu h.cfl.le h.tol h.kern h.kdiv h.zero h.setup h.sched (fixedProg3 b (X0 b) pre fs n (.stableDt pre fun dt => .advance b dt .stop))
    (proper_fixed3 (P := (a.pars xr nu)) h.auto h.inside hkP n _)
    (tracked3_still _ _ _ _ _ X0 _ (still_fixed3 rfl hkS n) _ rfl) b (X0 b) (fun _ _ => 0) (h.sched (4 * n + 2)).2 (Or.inl h.auto) hin0 (by
      rw [cRef3_fixed]
      change Noticed3 T (xr / a.gx) (A b) ((cRef3 _ K cfl tol A (fixedProg3 b (X0 b) pre fs n .stop) _).lastX b) (X0 b)
      rw [hlast]
      intro l l' h1 h2
      rw [h1] at h2
      exact Or.inl (Except.ok.inj h2).symm)
  have hrun : cRun3 C K tol A o (fixedProg3 b (X0 b) pre fs n (.stableDt pre fun dt => .advance b dt .stop)) 0 S =
    cRun3 C K tol A o (.stableDt pre fun dt => .advance b dt .stop) (0 + 4 * n) (st n) := cRun3_fixed _ n 0 (h.state n)
  dsimp only at hbal
  rw [hrun] at hbal
  simp only [fixedBody3, fixedProg3, cRun3] at hnext hbal
  rcases hsd : stableDt3 C tol pre (st n).sim with ⟨sim₁, dt | dt⟩
  · rw [hsd] at hnext
    simp at hnext
  rw [hsd] at hnext hbal
  dsimp only at hnext hbal
  simp only [Function.update_self] at hnext hbal
  obtain ⟨sim, ib, hfi, htot, -⟩ := hbal
  rw [hfi] at hnext
  dsimp only at hnext
  have hsim₁ : sim₁.forcing = (st n).sim.forcing := by
    have e : (stableDt3 C tol pre (st n).sim).1 = sim₁ := by rw [hsd]
    rw [← e]; rfl
  have hclean : ∀ k c p, Valid3 T c → Inner3 T (a.g : ℤ) p → sim₁.forcing k c p = 0 := by
    intro k c p hc hp
    rw [hsim₁]
    have q := (hn.force k c p hc).1 hp
    rw [hΦ] at q
    exact q
  have hz : ∀ k : Fin 3, innerTotal3 T a.g (sim₁.forcing k) = 0 := by
    intro k
    unfold innerTotal3
    apply Finset.sum_eq_zero; intro c hc
    apply Finset.sum_eq_zero; intro p hp
    exact hclean k c p (mem_rankSet3.1 hc) (mem_innerSet3.1 hp)
  have htot' : ∀ k : Fin 3, (xr / a.gx) ^ 3 * innerTotal3 T a.g (sim.forcing k) = nodeTotal (A b).N (ib.v.gforce k) := by
    intro k
    have q := htot k
    rw [hz k] at q
    simpa using q
  rcases hts : timeStep3 C K (o (4 * n + 3)).step dt fs sim with ⟨S', e | e⟩
  · rw [show 4 * n + 1 + 1 + 1 = 4 * n + 3 from rfl, hts] at hnext
    dsimp only at hnext
    have e1 := (Prod.mk.inj hnext).1
    have hib : (st (n + 1)).ib b = ib := by
      refine (congrArg (fun s : CSt3 T B => s.ib b) e1.symm).trans ?_
      simp only [Function.update_self]
    have hsim : (st (n + 1)).sim = S' := congrArg CSt3.sim e1.symm
    refine ⟨dt, sim₁, _, sim, ib, rfl, rfl, hclean, hfi, htot', hts.trans (congrArg (fun s => (s, none)) hsim.symm), hib, ?_⟩
    unfold dragOf3
    rw [hib, htot']
    rfl
  · rw [show 4 * n + 1 + 1 + 1 = 4 * n + 3 from rfl, hts] at hnext
    simp at hnext

/-- C104 (3D): the first coefficient is 0, and the clock of the interactor keeps in step with that of the flow. -/
theorem fixedLoop3_start (h : Fixed3 a xr nu cfl tol K A X0 t0 time sc om u S o b) (scale : ℝ) :
    let st := fixedState3 (simCfg3 a xr nu cfl) K tol A o b (X0 b) pre fs S
    dragOf3 scale (A b).N b (st 0) = 0 ∧ ∀ n, ((st n).ib b).v.time - t0 b = (st n).sim.time - time := by
  intro st
  have href : ∀ n, let r := cRef3 (a.pars xr nu) K cfl tol A (fixedProg3 b (X0 b) pre fs n .stop) (refStart3 (xr / a.gx) X0 t0 time sc om u)
      (r.hist b).t - t0 b = r.time - time := by
    intro n
    induction n with
    | zero =>
      change t0 b - t0 b = time - time
      ring
    | succ n ih =>
      rw [fixedProg3_add, cRef3_fixed]
      dsimp only at ih ⊢
      generalize cRef3 (a.pars xr nu) K cfl tol A (fixedProg3 b (X0 b) pre fs n .stop) (refStart3 (xr / a.gx) X0 t0 time sc om u) = r at ih ⊢
      simp only [fixedProg3, cRef3, refFull3, refForces3, refLag3, Function.update_self]
      linarith
  constructor
  · obtain ⟨-, hn⟩ := h.run (pre := pre) (fs := fs) (k := .stop) (fun _ => trivial) trivial 0
    unfold dragOf3
    have hz : nodeTotal (A b).N (((st 0).ib b).v.gforce 0) = 0 := by
      apply Finset.sum_eq_zero
      intro i hi
      exact (hn.ib b).stores.force 0 (by norm_num [Ib3.vbf]) i (Finset.mem_range.1 hi)
    rw [hz, abs_zero, zero_div]
  · intro n
    obtain ⟨-, hn⟩ := h.run (pre := pre) (fs := fs) (k := .stop) (fun _ => trivial) trivial n
    have q1 : ((st n).ib b).v.time = _ := (hn.ib b).stores.time
    have q2 : (st n).sim.time = _ := hn.time
    rw [q1, q2]
    exact href n

/-- C104 (3D): the driver on two decompositions of the same problem: if it ends on one, it ends on the other, after as many iterations, with the same drag
coefficients at the same times, and the same fields. -/
theorem fixedLoop3_same {T' : Cart3} [NeZero T'.gz] [NeZero T'.gy] [NeZero T'.gx] {a' : SimArgs3} (hsame : a' = { a with pz := a'.pz, py := a'.py, px := a'.px }) {A' : B → Ib3}
    (hA : ∀ b, A' b = { A b with m := (A' b).m, ord := (A' b).ord, junk := (A' b).junk }) {S' : CSt3 T' B} {o' : ℕ → CScheds3}
    (h : Fixed3 a xr nu cfl tol K A X0 t0 time sc om u S o b) (h' : Fixed3 a' xr nu cfl tol K A' X0 t0 time sc om u S' o' b) (hpre : 0 < pre) (scale foto tEnd : ℝ)
    {N : ℕ} {R : CSt3 T B} {timer : ℝ} {drags : List (ℝ × ℝ)} {e : Option PyErr}
    (hw : While (fun s => s.1.sim.time < tEnd) (fixedLoop3 (simCfg3 a xr nu cfl) K tol A o b (X0 b) pre fs scale foto) 0 (S, 0, []) N ((R, timer, drags), e)) :
    e = none ∧ ∃ R' : CSt3 T' B,
      While (fun s => s.1.sim.time < tEnd) (fixedLoop3 (simCfg3 a' xr nu cfl) K tol A' o' b (X0 b) pre fs scale foto) 0 (S', 0, []) N ((R', timer, drags), none) ∧
      R.sim.time = R'.sim.time ∧
      ∀ c q c' q', Valid3 T c → Inner3 T (a.g : ℤ) q → Valid3 T' c' → Inner3 T' a.g q' →
        globalIx3 T (a.g : ℤ) c q = globalIx3 T' a.g c' q' →
        ∀ j, R.sim.om j c q = R'.sim.om j c' q' ∧ R.sim.vel j c q = R'.sim.vel j c' q' := by
  have hNA : (A' b).N = (A b).N := by rw [hA b]
  have hgg : a'.g = a.g := by rw [hsame]
  have hind := fun n => coupled3_decomposition_independent hsame h.xr h.nu h.cfl.le h.tol h.kern h.kdiv h.zero hA h.setup h'.setup h.sched (fun n => hgg ▸ h'.sched n) (fixedProg3 b (X0 b) pre fs n .stop)
    (proper_fixed3 (P := (a.pars xr nu)) h.auto h.inside (k := .stop) (fun _ => trivial) n _)
    (tracked3_still _ _ _ _ _ X0 _ (still_fixed3 (k := .stop) rfl trivial n) _ rfl) (tracked3_still _ _ _ _ _ X0 _ (still_fixed3 (k := .stop) rfl trivial n) _ rfl)
  obtain ⟨w1, w2, w3⟩ := (h.loop hpre scale foto tEnd).1 hw
  set st := fixedState3 (simCfg3 a xr nu cfl) K tol A o b (X0 b) pre fs S with hst
  set st' := fixedState3 (simCfg3 a' xr nu cfl) K tol A' o' b (X0 b) pre fs S' with hst'
  have ht : ∀ n, (st n).sim.time = (st' n).sim.time := fun n => (hind n).2.2.1
  have hdrag : ∀ n, dragOf3 scale (A b).N b (st n) = dragOf3 scale (A' b).N b (st' n) := by
    intro n
    unfold dragOf3
    rw [hNA]
    have q : nodeTotal (A b).N (((st n).ib b).v.gforce 0) = nodeTotal (A b).N (((st' n).ib b).v.gforce 0) := by
      apply Finset.sum_congr rfl
      intro i hi
      exact ((hind n).2.2.2.2.2 b).1 0 (by norm_num) i (Finset.mem_range.1 hi)
    rw [q]
  have hrec : fixedRec3 (A b).N b scale foto st N = fixedRec3 (A' b).N b scale foto st' N := by
    unfold fixedRec3
    simp only [ht, hdrag]
  have e1 := Prod.mk.inj w3
  have e2 := Prod.mk.inj e1.1
  refine ⟨e1.2, st' N, (h'.loop hpre scale foto tEnd).2 ⟨fun i hi => ?_, ?_, ?_⟩, ?_, ?_⟩
  · rw [← hst', ← ht]; exact w1 i hi
  · rw [← hst', ← ht]; exact w2
  · rw [← hst', ← hrec, show (timer, drags) = fixedRec3 (A b).N b scale foto st N from e2.2]
  · rw [e2.1]; exact ht N
  · intro c q c' q' hc hq hc' hq' he j
    rw [e2.1]
    obtain ⟨q1, q2, -⟩ := (hind N).2.2.2.2.1 c q c' q' hc hq hc' hq' he j
    exact ⟨q1, q2⟩

end

/-! ## Examples -/

/-- at rest, everything stays at rest -/
theorem fixed_rest3 {P : Params3} {K : Kern3} (hK : K.Null) {cfl tol : ℝ} {A : B → Ib3} {b : B} {X : LagField ℝ} {pre : ℝ} {dx : ℝ} {X0 : B → LagField ℝ} {t0 : B → ℝ} {time : ℝ} (n : ℕ) :
    let r := cRef3 P K cfl tol A (fixedProg3 b X pre (fun _ => 0) n .stop) (refStart3 dx X0 t0 time (fun _ _ _ => 0) (fun _ _ _ _ => 0) fun _ _ _ _ => 0)
    r.F = ⟨fun _ => 0, fun _ _ => 0, fun _ _ => 0⟩ ∧ r.Φ = (fun _ _ => 0) ∧ (r.hist b).P = (fun _ _ => 0) ∧ (r.hist b).V = fun _ _ => 0 := by
  induction n with
  | zero => exact ⟨rfl, rfl, rfl, rfl⟩
  | succ n ih =>
    rw [fixedProg3_add, cRef3_fixed]
    dsimp only at ih ⊢
    generalize cRef3 P K cfl tol A (fixedProg3 b X pre (fun _ => 0) n .stop) (refStart3 dx X0 t0 time (fun _ _ _ => 0) (fun _ _ _ _ => 0) fun _ _ _ _ => 0) = r at ih ⊢
    obtain ⟨h1, h2, h3, h4⟩ := ih
    have hmis : mismatch3 P.dx (A b) (fun _ _ => 0) X (fun _ _ => 0) = fun _ _ => 0 := by
      funext k i
      unfold mismatch3 interp3
      simp
    have hsp : refSpread3 P.dx (A b) X (fun _ _ => 0) (fun _ _ => 0) = fun _ _ => 0 := by
      funext j G
      unfold refSpread3 share3n
      simp
    have hfo : ∀ dt, refForcing3 P K dt (fun _ => 0) (fun _ _ => 0) ⟨fun _ => 0, fun _ _ => 0, fun _ _ => 0⟩ = ⟨fun _ => 0, fun _ _ => 0, fun _ _ => 0⟩ := by
      intro dt
      have q := refStep3_zero "navier_stokes_with_forcing" P hK dt (fun _ => 0) (fun _ _ => 0)
      simpa [refStep3, isNS] using q
    simp only [fixedProg3, cRef3, refFull3, refForces3, refLag3, Function.update_self, h1, h2, h3, h4, hmis, mul_zero, add_zero, hsp, hfo]
    trivial

/-- the setting of the example: one body, two ranks -/
example [NeZero (⟨8, 16, 8, 1, 1, 2, 8, 16, 4, false⟩ : Cart3).gz] [NeZero (⟨8, 16, 8, 1, 1, 2, 8, 16, 4, false⟩ : Cart3).gy]
    [NeZero (⟨8, 16, 8, 1, 1, 2, 8, 16, 4, false⟩ : Cart3).gx] [NeZero (⟨8, 16, 8, 1, 1, 1, 8, 16, 8, false⟩ : Cart3).gz]
    [NeZero (⟨8, 16, 8, 1, 1, 1, 8, 16, 8, false⟩ : Cart3).gy] [NeZero (⟨8, 16, 8, 1, 1, 1, 8, 16, 8, false⟩ : Cart3).gx]
    {K : Kern3} (hK : K.Local) (hKd : ∀ a, CrossLocal3 1 (K.div a)) (hK0 : K.Null) (sc : ℝ → ℝ → ℝ → ℝ) (om u : Fin 3 → ℝ → ℝ → ℝ → ℝ)
    {o o' : ℕ → CScheds3} (ho : ∀ n, (o n).Done ⟨8, 16, 8, 1, 1, 2, 8, 16, 4, false⟩ 2) (ho' : ∀ n, (o' n).Done ⟨8, 16, 8, 1, 1, 1, 8, 16, 8, false⟩ 2) :
    (∃ S : CSt3 ⟨8, 16, 8, 1, 1, 2, 8, 16, 4, false⟩ Unit,
      Fixed3 ⟨8, 16, 8, 1, 1, 2, "navier_stokes_with_forcing", true, none, false, 2, .int 2⟩ 8 0.01 0.1 1e-10 K (fun _ => exBody3) (fun _ => exPos3) (fun _ => 0) 0 sc om u S o ()) ∧
    (∃ S : CSt3 ⟨8, 16, 8, 1, 1, 1, 8, 16, 8, false⟩ Unit,
      Fixed3 ⟨8, 16, 8, 1, 1, 1, "navier_stokes_with_forcing", true, none, false, 2, .int 2⟩ 8 0.01 0.1 1e-10 K (fun _ => exBody3) (fun _ => exPos3) (fun _ => 0) 0 sc om u S o' ()) := by
  obtain ⟨⟨S, hS⟩, S', hS'⟩ := exSetup3 sc om u
  have e : (8 : ℝ) / ((8 : ℕ) : ℝ) = 1 := by norm_num
  exact ⟨⟨S, hS, by rw [e]; exact exBody3_inside, rfl, ho, by norm_num, by norm_num, by norm_num, by norm_num, hK, hKd, hK0.upd⟩,
    S', hS', by rw [e]; exact exBody3_inside, rfl, ho', by norm_num, by norm_num, by norm_num, by norm_num, hK, hKd, hK0.upd⟩

/-- the loop from rest, without free stream, reaches `tEnd = 1` -/
example {a : SimArgs3} {xr nu cfl tol : ℝ} {K : Kern3} {A : B → Ib3} {X0 : B → LagField ℝ} {t0 : B → ℝ} {time : ℝ} {S : CSt3 T B} {o : ℕ → CScheds3} {b : B} {pre : ℝ}
    (h : Fixed3 a xr nu cfl tol K A X0 t0 time (fun _ _ _ => 0) (fun _ _ _ _ => 0) (fun _ _ _ _ => 0) S o b) (hK : K.Null) (hpre : 0 < pre) (scale foto : ℝ) :
    ∃ N r, While (fun s => s.1.sim.time < 1) (fixedLoop3 (simCfg3 a xr nu cfl) K tol A o b (X0 b) pre (fun _ => 0) scale foto) 0 (S, 0, []) N (r, none) := by
  obtain ⟨N, t1, l1, hw, -⟩ := fixedLoop3_ends (fs := fun _ => 0) h hpre scale foto 1 (V := 0) (by
    intro n c p _ hc hp
    obtain ⟨-, hn⟩ := h.run (pre := pre) (fs := fun _ => 0) (k := .stop) (fun _ => trivial) trivial n
    have q := (fixed_rest3 (P := (a.pars xr nu)) hK (cfl := cfl) (tol := tol) (A := A) (b := b) (X := X0 b) (pre := pre) (dx := xr / a.gx)
      (X0 := X0) (t0 := t0) (time := time) n).1
    have hv : ∀ j, (fixedState3 (simCfg3 a xr nu cfl) K tol A o b (X0 b) pre (fun _ => 0) S n).sim.vel j c p = 0 := by
      intro j
      have q2 := hn.sim.u j c p hc (inArr_of_inner3 hp) (Or.inl hp)
      rw [q] at q2
      exact q2
    rw [hv, hv, hv]; simp)
  exact ⟨N, _, hw⟩

end Sopht
