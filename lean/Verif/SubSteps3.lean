import Verif.SubSteps
import Verif.AsyncIb3DProps
import Verif.Interactor3DRun

/-!
# Sub-stepping a body through a flow step, 3D

examples/3d_examples/FlowPastRodCase/flow_past_rod_case.py:257-285, FlowPastFreelyRotatingRodCase/flow_past_freely_rotating_rod_case.py:294-316.
-/

namespace Sopht

variable {σ : Type} {B : Type} [DecidableEq B]

/-- `n` sub-steps of size `h` (flow_past_rod_case.py:264-269): `rod_time = do_step(…, rod_time, local_rod_dt); interactor.time_step(dt=local_rod_dt)`; then on with `k`. -/
noncomputable def subSteps3 (R : Stepper σ) (b : B) (h : ℝ) : ℕ → ℝ → σ → (ℝ → σ → Prog3 B) → Prog3 B
  | 0, rt, s, k => k rt s
  | n + 1, rt, s, k => .forces b (R.pos (R.move rt h s)) (R.vel (R.move rt h s)) fun F =>
      .advance b h (subSteps3 R b h n (rt + h) (R.move' rt h (R.kick rt h F (R.move rt h s))) k)

/-- The loop `while flow_sim.time < final_time` (flow_past_rod_case.py:220-279), at most `n` iterations; `t` is `flow_sim.time`, `fs t` the free stream. -/
noncomputable def rodLoop3 (R : Stepper σ) (b : B) (rodDt pre final : ℝ) (fs : ℝ → Fin 3 → ℝ) : ℕ → ℝ → σ → Prog3 B
  | 0, _, _ => .stop
  | n + 1, t, s =>
    if t < final then
      .stableDt pre fun dt =>
        subSteps3 R b (localDt dt rodDt) (rodSteps dt rodDt) t s fun _ s' =>
          .interact b (R.pos s') (R.vel s') (.flow dt (fs t) (rodLoop3 R b rodDt pre final fs n (t + dt) s'))
    else .stop

variable {T : Cart3} [NeZero T.gz] [NeZero T.gy] [NeZero T.gx] {C : Cfg3} {K : Kern3} {tol : ℝ} {A : B → Ib3} {o : ℕ → CScheds3}

omit [NeZero T.gz] [NeZero T.gy] [NeZero T.gx] in
theorem lagInteract3_time {a : Ib3} {s : List Ev} {X U : LagField ℝ} {S : Sim3 T} {ib : IbSt3} {r : Sim3 T × IbSt3} (h : lagInteract3 C a s X U S ib = .ok r) :
    r.1.time = S.time ∧ r.2.v.time = ib.v.time := by
  unfold lagInteract3 at h
  dsimp only at h
  split at h
  · cases h
  · cases h
    exact ⟨rfl, vbfInteract_time _ _ _ _ _⟩

omit [NeZero T.gz] [NeZero T.gy] [NeZero T.gx] in
theorem fullInteract3_time {a : Ib3} {s : List Ev} {X U : LagField ℝ} {S : Sim3 T} {ib : IbSt3} {r : Sim3 T × IbSt3} (h : fullInteract3 C a s X U S ib = .ok r) :
    r.1.time = S.time ∧ r.2.v.time = ib.v.time := by
  unfold fullInteract3 at h
  dsimp only at h
  split at h
  · cases h
  · rename_i S2 b2 h2
    cases h
    have := lagInteract3_time h2
    refine ⟨this.1.trans ?_, this.2⟩
    split <;> rfl

/-- C100 (3D): when the sub-steps are done, the flow and all other interactors have not moved in time, the clock of this body's interactor and the clock handed to the body
have advanced by the number of sub-steps times their size, and the driver goes on from there. -/
theorem subSteps3_clock (R : Stepper σ) (b : B) (h : ℝ) (k : ℝ → σ → Prog3 B) {S' : CSt3 T B} (n : ℕ) (rt : ℝ) (s : σ) (i : ℕ) (S : CSt3 T B)
    (hrun : cRun3 C K tol A o (subSteps3 R b h n rt s k) i S = (S', none)) :
    ∃ (S1 : CSt3 T B) (s1 : σ), cRun3 C K tol A o (k (rt + n * h) s1) (i + 2 * n) S1 = (S', none) ∧ S1.sim.time = S.sim.time ∧
      (S1.ib b).v.time = (S.ib b).v.time + n * h ∧ (∀ b' ≠ b, S1.ib b' = S.ib b') ∧ S1.log = S.log := by
  induction n generalizing rt s i S with
  | zero => exact ⟨S, s, by simpa [subSteps3] using hrun, rfl, by simp, fun _ _ => rfl, rfl⟩
  | succ n ih =>
    simp only [subSteps3, cRun3] at hrun
    split at hrun
    · simp at hrun
    · rename_i r hr
      obtain ⟨S1, s1, h1, h2, h3, h4, h5⟩ := ih _ _ _ _ hrun
      obtain ⟨e1, e2⟩ := lagInteract3_time hr
      refine ⟨S1, s1, ?_, h2.trans e1, ?_, ?_, h5⟩
      · have q1 : rt + h + n * h = rt + (n + 1 : ℕ) * h := by push_cast; ring
        have q2 : i + 1 + 1 + 2 * n = i + 2 * (n + 1) := by ring
        rw [q1, q2] at h1
        exact h1
      · rw [h3]
        simp only [Function.update_self, vbfStep, e2]
        push_cast; ring
      · intro b' hb
        rw [h4 b' hb]
        simp only [Function.update_of_ne hb]

/-- C100 (3D): through a run of the driver, of any number of iterations, that raises no exception, the clock of the flow and the clock of the body's interactor stay in
step; so do the time the driver reads and the time of the flow. -/
theorem rodLoop3_clocks {gz gy gx pz py px : ℕ} (hT : mkCart3 gz gy gx pz py px false = .ok T) (hg : 1 ≤ C.g) (hcfl : 0 < C.cfl) (hxr : 0 < C.xr) (hnu : 0 ≤ C.nu) (htol : 0 < tol)
    (R : Stepper σ) (b : B) {rodDt pre : ℝ} (hrod : 0 < rodDt) (hpre : 0 < pre) (hpre1 : pre ≤ 1) (final : ℝ) (fs : ℝ → Fin 3 → ℝ) {S' : CSt3 T B} (n : ℕ) (s : σ)
    (i : ℕ) (S : CSt3 T B) (hrun : cRun3 C K tol A o (rodLoop3 R b rodDt pre final fs n S.sim.time s) i S = (S', none)) :
    S'.sim.time - (S'.ib b).v.time = S.sim.time - (S.ib b).v.time ∧ S.sim.time ≤ S'.sim.time ∧
      (S'.sim.time < final → n = 0 ∨ S.sim.time < S'.sim.time) ∧ ∀ b' ≠ b, (S'.ib b').v.time = (S.ib b').v.time := by
  induction n generalizing s i S with
  | zero =>
    simp only [rodLoop3, cRun3] at hrun
    cases hrun
    exact ⟨rfl, le_rfl, fun _ => .inl rfl, fun _ _ => rfl⟩
  | succ n ih =>
    simp only [rodLoop3] at hrun
    split at hrun
    · rename_i hlt
      simp only [cRun3] at hrun
      obtain ⟨dt, hdt, hpos, -⟩ := stableDt3_limits hT C hg hcfl hxr hnu htol hpre hpre1 S.sim
      have etime : (stableDt3 C tol pre S.sim).1.time = S.sim.time := rfl
      generalize hst : stableDt3 C tol pre S.sim = st at hrun hdt etime
      obtain ⟨S0, res⟩ := st
      simp only at hdt etime
      subst hdt
      simp only at hrun
      obtain ⟨S1, s1, h1, h2, h3, h4, h5⟩ := subSteps3_clock R b _ _ _ _ _ _ _ hrun
      rw [localDt_sum hpos hrod] at h3
      simp only [cRun3] at h1
      split at h1
      · simp at h1
      · rename_i r hr
        obtain ⟨e1, e2⟩ := fullInteract3_time hr
        split at h1
        · simp at h1
        · rename_i S2 hts
          have ht := timeStep3_time C K (o (i + 1 + 2 * rodSteps dt rodDt + 1)).step dt (some (fs S.sim.time)) r.1
          rw [hts] at ht
          simp only [↓reduceIte] at ht
          have et : S2.time = S.sim.time + dt := by
            rw [ht, e1, h2]; exact congrArg (· + dt) etime
          rw [← et] at h1
          obtain ⟨q1, q2, -, q4⟩ := ih s1 _ { sim := S2, ib := Function.update S1.ib b r.2, log := S1.log } h1
          simp only [Function.update_self, e2, h3] at q1
          simp only at q2
          refine ⟨by rw [q1, et]; ring, by linarith, fun _ => .inr (by linarith), ?_⟩
          intro b' hb
          rw [q4 b' hb]
          simp only [Function.update_of_ne hb, h4 b' hb]
    · simp only [cRun3] at hrun
      cases hrun
      rename_i hlt
      exact ⟨rfl, le_rfl, fun h => absurd h hlt, fun _ _ => rfl⟩

/-! ## The clock of the body -/

/-- C100 (3D): the body is always stepped from its own time: a stepper with a clock that starts at the time of the flow cannot notice – whatever it would do with other times – that the driver hands it the
time anew in every flow step. -/
theorem rodLoop3_body_clock {gz gy gx pz py px : ℕ} (hT : mkCart3 gz gy gx pz py px false = .ok T) (hg : 1 ≤ C.g) (hcfl : 0 < C.cfl) (hxr : 0 < C.xr) (hnu : 0 ≤ C.nu) (htol : 0 < tol)
    {R R' : Stepper σ} {clk : σ → ℝ} (hR : SameAt clk R R') (b : B) {rodDt pre : ℝ} (hrod : 0 < rodDt) (hpre : 0 < pre) (hpre1 : pre ≤ 1) (final : ℝ) (fs : ℝ → Fin 3 → ℝ) (n : ℕ) (s : σ)
    (i : ℕ) (S : CSt3 T B) (hs : clk s = S.sim.time) :
    cRun3 C K tol A o (rodLoop3 R' b rodDt pre final fs n S.sim.time s) i S = cRun3 C K tol A o (rodLoop3 R b rodDt pre final fs n S.sim.time s) i S := by
  have sub : ∀ (h : ℝ) {k k' : ℝ → σ → Prog3 B} (t : ℝ) (m : ℕ) (rt : ℝ) (s : σ) (i : ℕ) (S : CSt3 T B),
      (∀ (i : ℕ) (S : CSt3 T B) (s1 : σ), S.sim.time = t → clk s1 = rt + m * h → cRun3 C K tol A o (k' (rt + m * h) s1) i S = cRun3 C K tol A o (k (rt + m * h) s1) i S) → clk s = rt → S.sim.time = t →
      cRun3 C K tol A o (subSteps3 R' b h m rt s k') i S = cRun3 C K tol A o (subSteps3 R b h m rt s k) i S := by
    intro h k k' t m
    induction m with
    | zero =>
      intro rt s i S hk hs ht
      have q := hk i S s ht (by rw [hs]; simp)
      simp only [Nat.cast_zero, zero_mul, add_zero] at q
      exact q
    | succ m ih =>
      intro rt s i S hk hs ht
      subst hs
      obtain ⟨h1, h2, h3, h4⟩ := hR.step s h
      simp only [subSteps3, cRun3]
      rw [hR.pos, hR.vel, h1]
      split
      · rfl
      · rename_i r hr
        obtain ⟨e1, -⟩ := lagInteract3_time hr
        rw [h2, h3]
        refine ih _ _ _ _ ?_ (h4 _) (e1.trans ht)
        intro i' S1 s1 g1 g2
        have q := hk i' S1 s1 g1
        have e : clk s + h + m * h = clk s + (m + 1 : ℕ) * h := by push_cast; ring
        rw [e] at g2 ⊢
        exact q g2
  induction n generalizing s i S with
  | zero => rfl
  | succ n ih =>
    simp only [rodLoop3]
    split
    · simp only [cRun3]
      obtain ⟨dt, hdt, hpos, -⟩ := stableDt3_limits hT C hg hcfl hxr hnu htol hpre hpre1 S.sim
      have etime : (stableDt3 C tol pre S.sim).1.time = S.sim.time := rfl
      generalize hst : stableDt3 C tol pre S.sim = st at hdt etime
      obtain ⟨S0, res⟩ := st
      simp only at hdt etime
      subst hdt
      simp only
      refine sub _ S.sim.time _ _ _ _ _ ?_ hs etime
      intro i' S1 s1 g1 g2
      rw [localDt_sum hpos hrod] at g2
      simp only [cRun3]
      rw [hR.pos, hR.vel]
      split
      · rfl
      · rename_i r hr
        obtain ⟨e1, -⟩ := fullInteract3_time hr
        split
        · rfl
        · rename_i S2 hts
          have ht := timeStep3_time C K (o (i' + 1)).step dt (some (fs S.sim.time)) r.1
          rw [hts] at ht
          simp only [↓reduceIte] at ht
          have et : S2.time = S.sim.time + dt := by rw [ht, e1, g1]
          rw [← et]
          exact ih s1 _ { sim := S2, ib := Function.update S1.ib b r.2, log := S1.log } (by rw [g2, et])
    · rfl

/-! ## Started from the constructors -/

omit [NeZero T.gz] [NeZero T.gy] [NeZero T.gx] in
theorem proper_subSteps3 {P : Params3} {R : Stepper σ} {b : B} (hauto : (A b).auto = true) (hin : ∀ s, Inside3 P.gz P.gy P.gx 0 P.dx (A b) (R.pos s)) {cfl : ℝ} {h : ℝ}
    {k : ℝ → σ → Prog3 B} (hk : ∀ rt s r, Proper3 P K cfl tol A (k rt s) r) (n : ℕ) (rt : ℝ) (s : σ) (r : RefC3 B) : Proper3 P K cfl tol A (subSteps3 R b h n rt s k) r := by
  induction n generalizing rt s r with
  | zero => exact hk _ _ _
  | succ n ih => exact ⟨hin _, .inl hauto, ih _ _ _⟩

omit [NeZero T.gz] [NeZero T.gy] [NeZero T.gx] in
theorem proper_rodLoop3 {P : Params3} {R : Stepper σ} {b : B} (hauto : (A b).auto = true) (hin : ∀ s, Inside3 P.gz P.gy P.gx 1 P.dx (A b) (R.pos s)) {cfl : ℝ} {rodDt pre final : ℝ}
    {fs : ℝ → Fin 3 → ℝ} (n : ℕ) (t : ℝ) (s : σ) (r : RefC3 B) : Proper3 P K cfl tol A (rodLoop3 R b rodDt pre final fs n t s) r := by
  have hin0 : ∀ s, Inside3 P.gz P.gy P.gx 0 P.dx (A b) (R.pos s) := by
    intro s i hI G hG
    have := hin s i hI G hG
    unfold Away3 at this ⊢
    push_cast at this ⊢; omega
  induction n generalizing t s r with
  | zero => trivial
  | succ n ih =>
    simp only [rodLoop3]
    split
    · simp only [Proper3]
      refine proper_subSteps3 hauto hin0 ?_ _ _ _ _
      intro rt s r
      exact ⟨hin _, .inl hauto, ih _ _ _⟩
    · trivial

omit [DecidableEq B] in
theorem still_rodLoop3 {R : Stepper σ} {b : B} {X0 : B → LagField ℝ} (hX : ∀ s, R.pos s = X0 b) {rodDt pre final : ℝ} {fs : ℝ → Fin 3 → ℝ} (n : ℕ) (t : ℝ) (s : σ) :
    Still3 X0 (rodLoop3 R b rodDt pre final fs n t s) := by
  induction n generalizing t s with
  | zero => trivial
  | succ n ih =>
    simp only [rodLoop3]
    split
    · intro dt
      have key : ∀ (m : ℕ) (h rt : ℝ) (s : σ) (k : ℝ → σ → Prog3 B), (∀ rt s, Still3 X0 (k rt s)) → Still3 X0 (subSteps3 R b h m rt s k) := by
        intro m
        induction m with
        | zero => intro h rt s k hk; exact hk _ _
        | succ m ih' => intro h rt s k hk; exact ⟨hX _, fun F => ih' _ _ _ _ hk⟩
      exact key _ _ _ _ _ fun rt s => ⟨hX _, ih _ _⟩
    · trivial

/-- C100 (3D): a flow with a body, set up as in the examples and driven by the loop above through any number of iterations, under any message schedules, while the body stays
inside: no exception, and the clocks of the flow and of the interactor are in step at the end. -/
theorem rodRun3 {a : SimArgs3} {xr : ℝ} (hxr : 0 < xr) {nu cfl : ℝ} (hnu : 0 ≤ nu) (hcfl : 0 < cfl) (htol : 0 < tol) (hK : K.Local)
    (hKd : ∀ a, CrossLocal3 1 (K.div a)) (hK0 : ∀ r, K.upd r (fun _ _ => 0) = 0) {X0 : B → LagField ℝ} {t0 : B → ℝ} {time : ℝ} {sc : ℝ → ℝ → ℝ → ℝ} {om u : Fin 3 → ℝ → ℝ → ℝ → ℝ}
    {S : CSt3 T B} (h : Setup3 a xr A X0 t0 time sc om u S) (ho : ∀ n, (o n).Done T a.g) (R : Stepper σ) (b : B) (hauto : (A b).auto = true)
    (hin : ∀ s, Inside3 a.gz a.gy a.gx 1 (xr / a.gx) (A b) (R.pos s)) {rodDt pre : ℝ} (hrod : 0 < rodDt) (hpre : 0 < pre) (hpre1 : pre ≤ 1) (final : ℝ) (fs : ℝ → Fin 3 → ℝ)
    (n : ℕ) (s : σ)
    (ht : Tracked3 T (a.pars xr nu) K cfl tol A (rodLoop3 R b rodDt pre final fs n time s) (refStart3 (xr / a.gx) X0 t0 time sc om u)) :
    ∃ S', cRun3 (simCfg3 a xr nu cfl) K tol A o (rodLoop3 R b rodDt pre final fs n time s) 0 S = (S', none) ∧
      S'.sim.time - (S'.ib b).v.time = time - t0 b ∧ ∀ b' ≠ b, (S'.ib b').v.time = t0 b' := by
  obtain ⟨hT, -⟩ := simCheck3_cart h.fit.built
  have hp := proper_rodLoop3 (K := K) (tol := tol) (cfl := cfl) (rodDt := rodDt) (pre := pre) (final := final) (fs := fs)
    (P := (a.pars xr nu)) hauto hin n time s (refStart3 (xr / a.gx) X0 t0 time sc om u)
  obtain ⟨hr, -, -⟩ := coupled3_holds hxr hnu hcfl.le htol hK hKd hK0 h ho (rodLoop3 R b rodDt pre final fs n time s) hp ht
  obtain ⟨-, h0, hA⟩ := coupled3_holds (K := K) hxr hnu hcfl.le htol hK hKd hK0 h ho .stop trivial trivial
  have e0 : S.sim.time = time := h0.time
  have e1 : ∀ b, (S.ib b).v.time = t0 b := fun b => (h0.ib b).stores.time
  have hg : 1 ≤ (simCfg3 a xr nu cfl).g := by
    exact (hA b).2.trans' (by norm_num)
  subst e0
  generalize hout : cRun3 (simCfg3 a xr nu cfl) K tol A o (rodLoop3 R b rodDt pre final fs n S.sim.time s) 0 S = out at hr ⊢
  obtain ⟨S', err⟩ := out
  simp only at hr
  subst hr
  obtain ⟨q1, -, -, q4⟩ := rodLoop3_clocks hT hg hcfl hxr hnu htol R b hrod hpre hpre1 final fs n s 0 S hout
  exact ⟨S', rfl, by rw [q1, e1], fun b' hb => by rw [q4 b' hb, e1]⟩

/-! ## Examples -/

/-- a body that is held in place (its state counts the sub-steps) on two ranks, any number of iterations -/
example [NeZero (⟨8, 16, 8, 1, 1, 2, 8, 16, 4, false⟩ : Cart3).gz] [NeZero (⟨8, 16, 8, 1, 1, 2, 8, 16, 4, false⟩ : Cart3).gy]
    [NeZero (⟨8, 16, 8, 1, 1, 2, 8, 16, 4, false⟩ : Cart3).gx] [NeZero (⟨8, 16, 8, 1, 1, 1, 8, 16, 8, false⟩ : Cart3).gz]
    [NeZero (⟨8, 16, 8, 1, 1, 1, 8, 16, 8, false⟩ : Cart3).gy] [NeZero (⟨8, 16, 8, 1, 1, 1, 8, 16, 8, false⟩ : Cart3).gx]
    {K : Kern3} (hK : K.Local) (hKd : ∀ a, CrossLocal3 1 (K.div a)) (hK0 : ∀ r, K.upd r (fun _ _ => 0) = 0) (sc : ℝ → ℝ → ℝ → ℝ) (om u : Fin 3 → ℝ → ℝ → ℝ → ℝ)
    {o : ℕ → CScheds3} (ho : ∀ n, (o n).Done ⟨8, 16, 8, 1, 1, 2, 8, 16, 4, false⟩ 2) (n : ℕ) :
    ∃ S S' : CSt3 ⟨8, 16, 8, 1, 1, 2, 8, 16, 4, false⟩ Unit,
      cRun3 (simCfg3 ⟨8, 16, 8, 1, 1, 2, "navier_stokes_with_forcing", true, none, false, 2, .int 2⟩ 8 0.01 0.1) K 1e-10 (fun _ => exBody3) o
        (rodLoop3 (⟨fun _ _ m => m, fun _ _ _ m => m + 1, fun _ _ m => m, fun _ => exPos3, fun _ _ _ => 0⟩ : Stepper ℕ) () 0.01 0.5 1 (fun _ _ => 1) n 0 0) 0 S = (S', none) ∧
      S'.sim.time = (S'.ib ()).v.time := by
  obtain ⟨⟨S, hS⟩, -⟩ := exSetup3 sc om u
  have e : (8 : ℝ) / ((8 : ℕ) : ℝ) = 1 := by norm_num
  obtain ⟨S', q1, q2, -⟩ := rodRun3 (tol := 1e-10) (nu := 0.01) (cfl := 0.1) (by norm_num) (by norm_num) (by norm_num) (by norm_num) hK hKd hK0 hS ho
    (⟨fun _ _ m => m, fun _ _ _ m => m + 1, fun _ _ m => m, fun _ => exPos3, fun _ _ _ => 0⟩ : Stepper ℕ) () rfl (fun _ => by rw [e]; exact exBody3_inside)
    (rodDt := 0.01) (pre := 0.5) (by norm_num) (by norm_num) (by norm_num) 1 (fun _ _ => 1) n 0
    (tracked3_still _ _ _ _ _ (fun _ => exPos3) _ (still_rodLoop3 (fun _ => rfl) _ _ _) _ rfl)
  exact ⟨S, S', q1, by linarith⟩

end Sopht
