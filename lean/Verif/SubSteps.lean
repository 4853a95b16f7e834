import Verif.StableDt
import Verif.FileNames
import Verif.AsyncIb2DProps
import Verif.Interactor2DRun

/-!
# Sub-stepping a body through a flow step

Examples with a rod (examples/2d_examples/FlowPastRodCase/flow_past_rod.py:269-300; the 3D examples FlowPastRodCase/flow_past_rod_case.py:257-285 and
FlowPastFreelyRotatingRodCase/flow_past_freely_rotating_rod_case.py:294-316 have the same lines): the body takes several steps through one step of the flow.
-/

namespace Sopht

/-! ## The number and the size of the sub-steps -/

/-- `rod_time_steps = int(flow_dt / min(flow_dt, rod_dt))` (flow_past_rod.py:276); `range` of a negative number is empty. -/
noncomputable def rodSteps (flowDt rodDt : ℝ) : ℕ := (pyTrunc (flowDt / min flowDt rodDt)).toNat

/-- `local_rod_dt = flow_dt / rod_time_steps` (flow_past_rod.py:277). -/
noncomputable def localDt (flowDt rodDt : ℝ) : ℝ := flowDt / rodSteps flowDt rodDt

theorem rodSteps_floor {flowDt rodDt : ℝ} (hf : 0 < flowDt) (hr : 0 < rodDt) : rodSteps flowDt rodDt = ⌊flowDt / min flowDt rodDt⌋₊ := by
  have h : 0 ≤ flowDt / min flowDt rodDt := div_nonneg hf.le (lt_min hf hr).le
  unfold rodSteps pyTrunc
  rw [if_pos h]
  exact Int.floor_toNat _

/-- C100: there is at least one sub-step, so the division is by a positive number. -/
theorem rodSteps_pos {flowDt rodDt : ℝ} (hf : 0 < flowDt) (hr : 0 < rodDt) : 1 ≤ rodSteps flowDt rodDt := by
  rw [rodSteps_floor hf hr, Nat.one_le_floor_iff, le_div_iff₀ (lt_min hf hr), one_mul]
  exact min_le_left _ _

/-- C100: the sub-steps add up to the flow step, exactly. -/
theorem localDt_sum {flowDt rodDt : ℝ} (hf : 0 < flowDt) (hr : 0 < rodDt) : rodSteps flowDt rodDt * localDt flowDt rodDt = flowDt := by
  have h := rodSteps_pos hf hr
  have : (rodSteps flowDt rodDt : ℝ) ≠ 0 := by positivity
  unfold localDt
  field_simp

/-- C100: a flow step not above the step wanted for the body is taken in one go. -/
theorem localDt_small {flowDt rodDt : ℝ} (hf : 0 < flowDt) (h : flowDt ≤ rodDt) : rodSteps flowDt rodDt = 1 ∧ localDt flowDt rodDt = flowDt := by
  have e : rodSteps flowDt rodDt = 1 := by
    rw [rodSteps_floor hf (hf.trans_le h), min_eq_left h, div_self hf.ne', Nat.floor_one]
  refine ⟨e, ?_⟩
  unfold localDt
  rw [e]; simp

/-- C100: otherwise the sub-steps are at least as long as the step wanted for the body, and less than twice as long. -/
theorem localDt_large {flowDt rodDt : ℝ} (hr : 0 < rodDt) (h : rodDt ≤ flowDt) : rodDt ≤ localDt flowDt rodDt ∧ localDt flowDt rodDt < 2 * rodDt := by
  have hf : 0 < flowDt := hr.trans_le h
  have h1 := rodSteps_pos hf hr
  have hn : (0 : ℝ) < rodSteps flowDt rodDt := by exact_mod_cast h1
  have e := rodSteps_floor hf hr
  rw [min_eq_right h] at e
  have hle : (rodSteps flowDt rodDt : ℝ) * rodDt ≤ flowDt := by
    rw [← le_div_iff₀ hr, e]; exact Nat.floor_le (div_nonneg hf.le hr.le)
  have hlt : flowDt < ((rodSteps flowDt rodDt : ℝ) + 1) * rodDt := by
    rw [← div_lt_iff₀ hr, e]; exact Nat.lt_floor_add_one _
  unfold localDt
  refine ⟨by rw [le_div_iff₀ hn]; linarith, ?_⟩
  rw [div_lt_iff₀ hn]
  have : (1 : ℝ) ≤ rodSteps flowDt rodDt := by exact_mod_cast h1
  nlinarith

/-- C100 (negative): the damper of the rod is set up with `time_step=rod_dt` (flow_past_rod.py:95-102) and acts once per sub-step, as if `rod_time_steps * rod_dt` had
passed.  That is the flow step only if the flow step is a multiple of `rod_dt`; else it is too short by up to one `rod_dt` – or, if the flow step is below `rod_dt`, too long. -/
theorem damper_time {flowDt rodDt : ℝ} (hf : 0 < flowDt) (hr : 0 < rodDt) :
    (rodSteps flowDt rodDt * rodDt = flowDt ↔ ∃ k : ℕ, flowDt = k * rodDt) ∧
      (rodDt ≤ flowDt → rodSteps flowDt rodDt * rodDt ≤ flowDt ∧ flowDt - rodSteps flowDt rodDt * rodDt < rodDt) ∧
      (flowDt < rodDt → flowDt < rodSteps flowDt rodDt * rodDt) := by
  have big : rodDt ≤ flowDt → rodSteps flowDt rodDt * rodDt ≤ flowDt ∧ flowDt - rodSteps flowDt rodDt * rodDt < rodDt := by
    intro h
    have e := rodSteps_floor hf hr
    rw [min_eq_right h] at e
    have hle : (rodSteps flowDt rodDt : ℝ) * rodDt ≤ flowDt := by
      rw [← le_div_iff₀ hr, e]; exact Nat.floor_le (div_nonneg hf.le hr.le)
    have hlt : flowDt < ((rodSteps flowDt rodDt : ℝ) + 1) * rodDt := by
      rw [← div_lt_iff₀ hr, e]; exact Nat.lt_floor_add_one _
    exact ⟨hle, by linarith⟩
  have small : flowDt < rodDt → flowDt < rodSteps flowDt rodDt * rodDt := by
    intro h
    rw [(localDt_small hf h.le).1]; simpa using h
  refine ⟨⟨fun h => ⟨_, h.symm⟩, fun ⟨k, hk⟩ => ?_⟩, big, small⟩
  have hk0 : 0 < k := by
    rcases Nat.eq_zero_or_pos k with h | h
    · rw [h] at hk; simp at hk; linarith
    · exact h
  have hge : rodDt ≤ flowDt := by
    rw [hk]
    have : (1 : ℝ) ≤ k := by exact_mod_cast hk0
    nlinarith
  have e := rodSteps_floor hf hr
  rw [min_eq_right hge, hk, mul_div_assoc, div_self hr.ne', mul_one, Nat.floor_natCast] at e
  rw [hk, e]

/-! ## The driver -/

/-- A body and its time stepper (PyElastica; not part of the code), as the driver uses it: `do_step(time, dt)` moves the body (`move`), asks the interactor for the forces
at the new place, updates the velocities with them (`kick`) and moves on (`move'`).  `pos`, `vel`: the forcing grid of the body. -/
structure Stepper (σ : Type) where
  move : ℝ → ℝ → σ → σ
  kick : ℝ → ℝ → LagField ℝ → σ → σ
  move' : ℝ → ℝ → σ → σ
  pos : σ → LagField ℝ
  vel : σ → LagField ℝ

variable {σ : Type} {B : Type} [DecidableEq B]

/-- `n` sub-steps of size `h` (flow_past_rod.py:279-284): `rod_time = do_step(…, rod_time, local_rod_dt); interactor.time_step(dt=local_rod_dt)`; then on with `k`. -/
noncomputable def subSteps2 (R : Stepper σ) (b : B) (h : ℝ) : ℕ → ℝ → σ → (ℝ → σ → Prog2 B) → Prog2 B
  | 0, rt, s, k => k rt s
  | n + 1, rt, s, k => .forces b (R.pos (R.move rt h s)) (R.vel (R.move rt h s)) fun F =>
      .advance b h (subSteps2 R b h n (rt + h) (R.move' rt h (R.kick rt h F (R.move rt h s))) k)

/-- The loop `while flow_sim.time < final_time` (flow_past_rod.py:210-300), at most `n` iterations; `t` is `flow_sim.time`, `fs t` the free stream. -/
noncomputable def rodLoop2 (R : Stepper σ) (b : B) (rodDt pre final : ℝ) (fs : ℝ → Fin 2 → ℝ) : ℕ → ℝ → σ → Prog2 B
  | 0, _, _ => .stop
  | n + 1, t, s =>
    if t < final then
      .stableDt pre fun dt =>
        subSteps2 R b (localDt dt rodDt) (rodSteps dt rodDt) t s fun _ s' =>
          .interact b (R.pos s') (R.vel s') (.flow dt (fs t) (rodLoop2 R b rodDt pre final fs n (t + dt) s'))
    else .stop

variable {T : Cart2} [NeZero T.gy] [NeZero T.gx] {C : Cfg2} {K : Kern2} {tol : ℝ} {A : B → Ib2} {o : ℕ → CScheds2}

omit [NeZero T.gy] [NeZero T.gx] in
theorem lagInteract2_time {a : Ib2} {s : List Ev} {X U : LagField ℝ} {S : Sim2 T} {ib : IbSt2} {r : Sim2 T × IbSt2} (h : lagInteract2 C a s X U S ib = .ok r) :
    r.1.time = S.time ∧ r.2.v.time = ib.v.time := by
  unfold lagInteract2 at h
  dsimp only at h
  split at h
  · cases h
  · cases h
    exact ⟨rfl, vbfInteract_time _ _ _ _ _⟩

omit [NeZero T.gy] [NeZero T.gx] in
theorem fullInteract2_time {a : Ib2} {s : List Ev} {X U : LagField ℝ} {S : Sim2 T} {ib : IbSt2} {r : Sim2 T × IbSt2} (h : fullInteract2 C a s X U S ib = .ok r) :
    r.1.time = S.time ∧ r.2.v.time = ib.v.time := by
  unfold fullInteract2 at h
  dsimp only at h
  split at h
  · cases h
  · rename_i S2 b2 h2
    cases h
    have := lagInteract2_time h2
    refine ⟨this.1.trans ?_, this.2⟩
    split <;> rfl

/-- C100 (2D): when the sub-steps are done, the flow and all other interactors have not moved in time, the clock of this body's interactor and the clock handed to the body
have advanced by the number of sub-steps times their size, and the driver goes on from there. -/
theorem subSteps2_clock (R : Stepper σ) (b : B) (h : ℝ) (k : ℝ → σ → Prog2 B) {S' : CSt2 T B} (n : ℕ) (rt : ℝ) (s : σ) (i : ℕ) (S : CSt2 T B)
    (hrun : cRun2 C K tol A o (subSteps2 R b h n rt s k) i S = (S', none)) :
    ∃ (S1 : CSt2 T B) (s1 : σ), cRun2 C K tol A o (k (rt + n * h) s1) (i + 2 * n) S1 = (S', none) ∧ S1.sim.time = S.sim.time ∧
      (S1.ib b).v.time = (S.ib b).v.time + n * h ∧ (∀ b' ≠ b, S1.ib b' = S.ib b') ∧ S1.log = S.log := by
  induction n generalizing rt s i S with
  | zero => exact ⟨S, s, by simpa [subSteps2] using hrun, rfl, by simp, fun _ _ => rfl, rfl⟩
  | succ n ih =>
    simp only [subSteps2, cRun2] at hrun
    split at hrun
    · simp at hrun
    · rename_i r hr
      obtain ⟨S1, s1, h1, h2, h3, h4, h5⟩ := ih _ _ _ _ hrun
      obtain ⟨e1, e2⟩ := lagInteract2_time hr
      refine ⟨S1, s1, ?_, h2.trans e1, ?_, ?_, h5⟩
      · have q1 : rt + h + n * h = rt + (n + 1 : ℕ) * h := by push_cast; ring
        have q2 : i + 1 + 1 + 2 * n = i + 2 * (n + 1) := by ring
        rw [q1, q2] at h1
        exact h1
      · rw [h3]
        simp only [Function.update_self, vbfStep, e2]
        push_cast; ring
      · intro b' hb
        rw [h4 b' hb]
        simp only [Function.update_of_ne hb]

/-- C100 (2D): through a run of the driver, of any number of iterations, that raises no exception, the clock of the flow and the clock of the body's interactor stay in
step; so do the time the driver reads and the time of the flow. -/
theorem rodLoop2_clocks {gy gx py px : ℕ} (hT : mkCart2 gy gx py px false = .ok T) (hg : 1 ≤ C.g) (hcfl : 0 < C.cfl) (hxr : 0 < C.xr) (hnu : 0 ≤ C.nu) (htol : 0 < tol)
    (R : Stepper σ) (b : B) {rodDt pre : ℝ} (hrod : 0 < rodDt) (hpre : 0 < pre) (hpre1 : pre ≤ 1) (final : ℝ) (fs : ℝ → Fin 2 → ℝ) {S' : CSt2 T B} (n : ℕ) (s : σ)
    (i : ℕ) (S : CSt2 T B) (hrun : cRun2 C K tol A o (rodLoop2 R b rodDt pre final fs n S.sim.time s) i S = (S', none)) :
    S'.sim.time - (S'.ib b).v.time = S.sim.time - (S.ib b).v.time ∧ S.sim.time ≤ S'.sim.time ∧
      (S'.sim.time < final → n = 0 ∨ S.sim.time < S'.sim.time) ∧ ∀ b' ≠ b, (S'.ib b').v.time = (S.ib b').v.time := by
  induction n generalizing s i S with
  | zero =>
    simp only [rodLoop2, cRun2] at hrun
    cases hrun
    exact ⟨rfl, le_rfl, fun _ => .inl rfl, fun _ _ => rfl⟩
  | succ n ih =>
    simp only [rodLoop2] at hrun
    split at hrun
    · rename_i hlt
      simp only [cRun2] at hrun
      obtain ⟨dt, hdt, hpos, -⟩ := stableDt2_limits hT C hg hcfl hxr hnu htol hpre hpre1 S.sim
      have etime : (stableDt2 C tol pre S.sim).1.time = S.sim.time := rfl
      generalize hst : stableDt2 C tol pre S.sim = st at hrun hdt etime
      obtain ⟨S0, res⟩ := st
      simp only at hdt etime
      subst hdt
      simp only at hrun
      obtain ⟨S1, s1, h1, h2, h3, h4, h5⟩ := subSteps2_clock R b _ _ _ _ _ _ _ hrun
      rw [localDt_sum hpos hrod] at h3
      simp only [cRun2] at h1
      split at h1
      · simp at h1
      · rename_i r hr
        obtain ⟨e1, e2⟩ := fullInteract2_time hr
        split at h1
        · simp at h1
        · rename_i S2 hts
          have ht := timeStep2_time C K (o (i + 1 + 2 * rodSteps dt rodDt + 1)).step dt (fs S.sim.time) r.1
          rw [hts] at ht
          simp only [↓reduceIte] at ht
          have et : S2.time = S.sim.time + dt := by
            rw [ht, e1, h2]; exact congrArg (· + dt) etime
          rw [← et] at h1
          obtain ⟨q1, q2, -, q4⟩ := ih s1 _ { sim := S2, ib := Function.update S1.ib b r.2, log := S1.log } h1
          simp only [Function.update_self, e2, h3] at q1
          simp only at q2
          refine ⟨by rw [q1, et]; ring, by linarith, fun _ => .inr (by linarith), ?_⟩
          intro b' hb
          rw [q4 b' hb]
          simp only [Function.update_of_ne hb, h4 b' hb]
    · simp only [cRun2] at hrun
      cases hrun
      rename_i hlt
      exact ⟨rfl, le_rfl, fun h => absurd h hlt, fun _ _ => rfl⟩

/-! ## The clock of the body -/

/-- `R` and `R'` do the same when a body with clock `clk` is stepped from its own time, and a step of size `h` advances the clock by `h`. -/
structure SameAt (clk : σ → ℝ) (R R' : Stepper σ) : Prop where
  pos : R'.pos = R.pos
  vel : R'.vel = R.vel
  step : ∀ s h, R'.move (clk s) h s = R.move (clk s) h s ∧ (∀ F, R'.kick (clk s) h F (R.move (clk s) h s) = R.kick (clk s) h F (R.move (clk s) h s)) ∧
    (∀ F, R'.move' (clk s) h (R.kick (clk s) h F (R.move (clk s) h s)) = R.move' (clk s) h (R.kick (clk s) h F (R.move (clk s) h s))) ∧
    ∀ F, clk (R.move' (clk s) h (R.kick (clk s) h F (R.move (clk s) h s))) = clk s + h

/-- C100 (2D): the body is always stepped from its own time: a stepper with a clock that starts at the time of the flow cannot notice – whatever it would do with other times – that the driver hands it the
time anew in every flow step. -/
theorem rodLoop2_body_clock {gy gx py px : ℕ} (hT : mkCart2 gy gx py px false = .ok T) (hg : 1 ≤ C.g) (hcfl : 0 < C.cfl) (hxr : 0 < C.xr) (hnu : 0 ≤ C.nu) (htol : 0 < tol)
    {R R' : Stepper σ} {clk : σ → ℝ} (hR : SameAt clk R R') (b : B) {rodDt pre : ℝ} (hrod : 0 < rodDt) (hpre : 0 < pre) (hpre1 : pre ≤ 1) (final : ℝ) (fs : ℝ → Fin 2 → ℝ) (n : ℕ) (s : σ)
    (i : ℕ) (S : CSt2 T B) (hs : clk s = S.sim.time) :
    cRun2 C K tol A o (rodLoop2 R' b rodDt pre final fs n S.sim.time s) i S = cRun2 C K tol A o (rodLoop2 R b rodDt pre final fs n S.sim.time s) i S := by
  have sub : ∀ (h : ℝ) {k k' : ℝ → σ → Prog2 B} (t : ℝ) (m : ℕ) (rt : ℝ) (s : σ) (i : ℕ) (S : CSt2 T B),
      (∀ (i : ℕ) (S : CSt2 T B) (s1 : σ), S.sim.time = t → clk s1 = rt + m * h → cRun2 C K tol A o (k' (rt + m * h) s1) i S = cRun2 C K tol A o (k (rt + m * h) s1) i S) → clk s = rt → S.sim.time = t →
      cRun2 C K tol A o (subSteps2 R' b h m rt s k') i S = cRun2 C K tol A o (subSteps2 R b h m rt s k) i S := by
    intro h k k' t m
    induction m with
    | zero =>
      intro rt s i S hk hs ht
      have q := hk i S s ht (by rw [hs]; simp)
      simp only [Nat.cast_zero, zero_mul, add_zero] at q
      exact q
    | succ m ih =>
      intro rt s i S hk hs ht
      subst hs
      obtain ⟨h1, h2, h3, h4⟩ := hR.step s h
      simp only [subSteps2, cRun2]
      rw [hR.pos, hR.vel, h1]
      split
      · rfl
      · rename_i r hr
        obtain ⟨e1, -⟩ := lagInteract2_time hr
        rw [h2, h3]
        refine ih _ _ _ _ ?_ (h4 _) (e1.trans ht)
        intro i' S1 s1 g1 g2
        have q := hk i' S1 s1 g1
        have e : clk s + h + m * h = clk s + (m + 1 : ℕ) * h := by push_cast; ring
        rw [e] at g2 ⊢
        exact q g2
  induction n generalizing s i S with
  | zero => rfl
  | succ n ih =>
    simp only [rodLoop2]
    split
    · simp only [cRun2]
      obtain ⟨dt, hdt, hpos, -⟩ := stableDt2_limits hT C hg hcfl hxr hnu htol hpre hpre1 S.sim
      have etime : (stableDt2 C tol pre S.sim).1.time = S.sim.time := rfl
      generalize hst : stableDt2 C tol pre S.sim = st at hdt etime
      obtain ⟨S0, res⟩ := st
      simp only at hdt etime
      subst hdt
      simp only
      refine sub _ S.sim.time _ _ _ _ _ ?_ hs etime
      intro i' S1 s1 g1 g2
      rw [localDt_sum hpos hrod] at g2
      simp only [cRun2]
      rw [hR.pos, hR.vel]
      split
      · rfl
      · rename_i r hr
        obtain ⟨e1, -⟩ := fullInteract2_time hr
        split
        · rfl
        · rename_i S2 hts
          have ht := timeStep2_time C K (o (i' + 1)).step dt (fs S.sim.time) r.1
          rw [hts] at ht
          simp only [↓reduceIte] at ht
          have et : S2.time = S.sim.time + dt := by rw [ht, e1, g1]
          rw [← et]
          exact ih s1 _ { sim := S2, ib := Function.update S1.ib b r.2, log := S1.log } (by rw [g2, et])
    · rfl

/-- A body whose speed depends on the time it is handed, and the same body with a clock of its own. -/
example (X : LagField ℝ) : SameAt (σ := ℝ × ℝ) (fun s => s.2) ⟨fun t h s => (s.1 + h * t, s.2), fun _ _ F s => (s.1 + F 0 0, s.2), fun t h s => (s.1, t + h), fun s k i => X k i + s.1, fun s _ _ => s.1⟩
    ⟨fun _ h s => (s.1 + h * s.2, s.2), fun _ _ F s => (s.1 + F 0 0, s.2), fun _ h s => (s.1, s.2 + h), fun s k i => X k i + s.1, fun s _ _ => s.1⟩ :=
  ⟨rfl, rfl, fun _ _ => ⟨rfl, fun _ => rfl, fun _ => rfl, fun _ => rfl⟩⟩

/-! ## Started from the constructors -/

omit [NeZero T.gy] [NeZero T.gx] in
theorem proper_subSteps2 {P : Params2} {R : Stepper σ} {b : B} (hauto : (A b).auto = true) (hin : ∀ s, Inside2 P.gy P.gx 0 P.dx (A b) (R.pos s)) {cfl : ℝ} {h : ℝ}
    {k : ℝ → σ → Prog2 B} (hk : ∀ rt s r, Proper2 P K cfl tol A (k rt s) r) (n : ℕ) (rt : ℝ) (s : σ) (r : RefC2 B) : Proper2 P K cfl tol A (subSteps2 R b h n rt s k) r := by
  induction n generalizing rt s r with
  | zero => exact hk _ _ _
  | succ n ih => exact ⟨hin _, .inl hauto, ih _ _ _⟩

omit [NeZero T.gy] [NeZero T.gx] in
theorem proper_rodLoop2 {P : Params2} {R : Stepper σ} {b : B} (hauto : (A b).auto = true) (hin : ∀ s, Inside2 P.gy P.gx 1 P.dx (A b) (R.pos s)) {cfl : ℝ} {rodDt pre final : ℝ}
    {fs : ℝ → Fin 2 → ℝ} (n : ℕ) (t : ℝ) (s : σ) (r : RefC2 B) : Proper2 P K cfl tol A (rodLoop2 R b rodDt pre final fs n t s) r := by
  have hin0 : ∀ s, Inside2 P.gy P.gx 0 P.dx (A b) (R.pos s) := by
    intro s i hI G hG
    have := hin s i hI G hG
    unfold Away2 at this ⊢
    push_cast at this ⊢; omega
  induction n generalizing t s r with
  | zero => trivial
  | succ n ih =>
    simp only [rodLoop2]
    split
    · simp only [Proper2]
      refine proper_subSteps2 hauto hin0 ?_ _ _ _ _
      intro rt s r
      exact ⟨hin _, .inl hauto, ih _ _ _⟩
    · trivial

omit [DecidableEq B] in
theorem still_rodLoop2 {R : Stepper σ} {b : B} {X0 : B → LagField ℝ} (hX : ∀ s, R.pos s = X0 b) {rodDt pre final : ℝ} {fs : ℝ → Fin 2 → ℝ} (n : ℕ) (t : ℝ) (s : σ) :
    Still2 X0 (rodLoop2 R b rodDt pre final fs n t s) := by
  induction n generalizing t s with
  | zero => trivial
  | succ n ih =>
    simp only [rodLoop2]
    split
    · intro dt
      have key : ∀ (m : ℕ) (h rt : ℝ) (s : σ) (k : ℝ → σ → Prog2 B), (∀ rt s, Still2 X0 (k rt s)) → Still2 X0 (subSteps2 R b h m rt s k) := by
        intro m
        induction m with
        | zero => intro h rt s k hk; exact hk _ _
        | succ m ih' => intro h rt s k hk; exact ⟨hX _, fun F => ih' _ _ _ _ hk⟩
      exact key _ _ _ _ _ fun rt s => ⟨hX _, ih _ _⟩
    · trivial

/-- C100 (2D): a flow with a body, set up as in the examples and driven by the loop above through any number of iterations, under any message schedules, while the body stays
inside: no exception, and the clocks of the flow and of the interactor are in step at the end. -/
theorem rodRun2 {a : SimArgs2} {xr : ℝ} (hxr : 0 < xr) {nu cfl : ℝ} (hnu : 0 ≤ nu) (hcfl : 0 < cfl) (htol : 0 < tol) (hK : K.Local)
    (hK0 : ∀ r, K.upd r (fun _ _ => 0) = 0) {X0 : B → LagField ℝ} {t0 : B → ℝ} {time : ℝ} {om : ℝ → ℝ → ℝ} {u : Fin 2 → ℝ → ℝ → ℝ}
    {S : CSt2 T B} (h : Setup2 a xr nu cfl A X0 t0 time om u S) (ho : ∀ n, (o n).Done T (simCfg2 a T xr nu cfl).d) (R : Stepper σ) (b : B) (hauto : (A b).auto = true)
    (hin : ∀ s, Inside2 a.gy a.gx 1 (xr / a.gx) (A b) (R.pos s)) {rodDt pre : ℝ} (hrod : 0 < rodDt) (hpre : 0 < pre) (hpre1 : pre ≤ 1) (final : ℝ) (fs : ℝ → Fin 2 → ℝ)
    (n : ℕ) (s : σ)
    (ht : Tracked2 T ⟨a.gy, a.gx, xr, nu, widthOf a.width, a.freeStream⟩ K cfl tol A (rodLoop2 R b rodDt pre final fs n time s) (refStart2 (xr / a.gx) X0 t0 time om u)) :
    ∃ S', cRun2 (simCfg2 a T xr nu cfl) K tol A o (rodLoop2 R b rodDt pre final fs n time s) 0 S = (S', none) ∧
      S'.sim.time - (S'.ib b).v.time = time - t0 b ∧ ∀ b' ≠ b, (S'.ib b').v.time = t0 b' := by
  obtain ⟨hT, -⟩ := simCheck2_cart' h.fit.built
  have hp := proper_rodLoop2 (K := K) (tol := tol) (cfl := cfl) (rodDt := rodDt) (pre := pre) (final := final) (fs := fs)
    (P := ⟨a.gy, a.gx, xr, nu, widthOf a.width, a.freeStream⟩) hauto hin n time s (refStart2 (xr / a.gx) X0 t0 time om u)
  obtain ⟨hr, -, -⟩ := coupled2_holds hxr hcfl.le htol hK hK0 h ho (rodLoop2 R b rodDt pre final fs n time s) hp ht
  obtain ⟨-, h0, -⟩ := coupled2_holds (K := K) hxr hcfl.le htol hK hK0 h ho .stop trivial trivial
  have e0 : S.sim.time = time := h0.time
  have e1 : ∀ b, (S.ib b).v.time = t0 b := fun b => (h0.ib b).stores.time
  have hg : 1 ≤ (simCfg2 a T xr nu cfl).g := by
    change 1 ≤ a.g
    rw [h.fit.g]; norm_num
  subst e0
  generalize hout : cRun2 (simCfg2 a T xr nu cfl) K tol A o (rodLoop2 R b rodDt pre final fs n S.sim.time s) 0 S = out at hr ⊢
  obtain ⟨S', err⟩ := out
  simp only at hr
  subst hr
  obtain ⟨q1, -, -, q4⟩ := rodLoop2_clocks hT hg hcfl hxr hnu htol R b hrod hpre hpre1 final fs n s 0 S hout
  exact ⟨S', rfl, by rw [q1, e1], fun b' hb => by rw [q4 b' hb, e1]⟩

/-! ## Examples -/

/-- a body that is held in place (its state counts the sub-steps) on two ranks, any number of iterations -/
example [NeZero (⟨16, 8, 1, 2, 16, 4, false⟩ : Cart2).gy] [NeZero (⟨16, 8, 1, 2, 16, 4, false⟩ : Cart2).gx] [NeZero (⟨16, 8, 1, 1, 16, 8, false⟩ : Cart2).gy]
    [NeZero (⟨16, 8, 1, 1, 16, 8, false⟩ : Cart2).gx] {K : Kern2} (hK : K.Local) (hK0 : ∀ r, K.upd r (fun _ _ => 0) = 0) (om : ℝ → ℝ → ℝ)
    (u : Fin 2 → ℝ → ℝ → ℝ) {o : ℕ → CScheds2} (ho : ∀ n, (o n).Done ⟨16, 8, 1, 2, 16, 4, false⟩
      (simCfg2 ⟨16, 8, 1, 2, "navier_stokes_with_forcing", true, 2, .int 2⟩ ⟨16, 8, 1, 2, 16, 4, false⟩ 8 0.01 0.1).d) (n : ℕ) :
    ∃ S S' : CSt2 ⟨16, 8, 1, 2, 16, 4, false⟩ Unit,
      cRun2 (simCfg2 ⟨16, 8, 1, 2, "navier_stokes_with_forcing", true, 2, .int 2⟩ ⟨16, 8, 1, 2, 16, 4, false⟩ 8 0.01 0.1) K 1e-10 (fun _ => exBody2) o
        (rodLoop2 (⟨fun _ _ m => m, fun _ _ _ m => m + 1, fun _ _ m => m, fun _ => exPos2, fun _ _ _ => 0⟩ : Stepper ℕ) () 0.01 0.5 1 (fun t _ => 1 - Real.exp (-t)) n 0 0) 0 S = (S', none) ∧
      S'.sim.time = (S'.ib ()).v.time := by
  obtain ⟨⟨S, hS⟩, -⟩ := exSetup2 0.01 0.1 om u
  have e : (8 : ℝ) / ((8 : ℕ) : ℝ) = 1 := by norm_num
  obtain ⟨S', q1, q2, -⟩ := rodRun2 (tol := 1e-10) (by norm_num) (by norm_num) (by norm_num) (by norm_num) hK hK0 hS ho
    (⟨fun _ _ m => m, fun _ _ _ m => m + 1, fun _ _ m => m, fun _ => exPos2, fun _ _ _ => 0⟩ : Stepper ℕ) () rfl (fun _ => by rw [e]; exact exBody2_inside)
    (rodDt := 0.01) (pre := 0.5) (by norm_num) (by norm_num) (by norm_num) 1 (fun t _ => 1 - Real.exp (-t)) n 0
    (tracked2_still _ _ _ _ _ (fun _ => exPos2) _ (still_rodLoop2 (fun _ => rfl) _ _ _) _ rfl)
  exact ⟨S, S', q1, by linarith⟩


/-- a flow step of 2.5 steps of the body: two sub-steps of 1.25 times the wanted step, but the damper sees 2 -/
example : rodSteps 2.5 1 = 2 ∧ localDt 2.5 1 = 1.25 := by
  have e : rodSteps 2.5 1 = 2 := by
    rw [rodSteps_floor (by norm_num) (by norm_num), min_eq_right (by norm_num), div_one]
    rw [Nat.floor_eq_iff (by norm_num)]; norm_num
  refine ⟨e, ?_⟩
  unfold localDt
  rw [e]; norm_num

end Sopht
