import Verif.RodDriver
import Verif.FixedBody3
import Verif.Validate3D

/-!
# Flow past a rod, end to end (3D)

examples/3d_examples/FlowPastRodCase/flow_past_rod_case.py:215-283 (and FlowPastFreelyRotatingRodCase/flow_past_freely_rotating_rod_case.py:256-322, whose loop is the same): the time loop
with its timer, what is logged and recorded in it, and a body that moves under the forces of the flow.
The norm of the divergence of the vorticity is computed at every snapshot, and for it the ghost cells of the vorticity are exchanged: a snapshot writes to the arrays of the simulator.
-/

namespace Sopht

/-! ## A timer and snapshots that write -/

section
variable {S V E : Type}

/-- The rest of an iteration: `core` gives the time step; `foto_timer += dt`. -/
def coreBody (core : ℕ → S → S × Except E ℝ) (i : ℕ) (s : S × ℝ × List V) : (S × ℝ × List V) × Option E :=
  match core i s.1 with
  | (s', .error e) => ((s', s.2), some e)
  | (s', .ok dt) => ((s', s.2.1 + dt, s.2.2), none)

open Classical in
/-- An iteration of a driver with a timer: snapshot if due (`look`, which may write and raise), then `core`, then `foto_timer += dt` (flow_past_rod_case.py:225-283). -/
noncomputable def lookBody (strict : Bool) (limit : ℝ) (look : ℕ → S → S × Except E V) (core : ℕ → S → S × Except E ℝ) (i : ℕ) (s : S × ℝ × List V) : (S × ℝ × List V) × Option E :=
  if Due strict limit s.2.1 ∨ s.2.1 = 0 then
    match look i s.1 with
    | (s', .error e) => ((s', 0, s.2.2), some e)
    | (s', .ok v) => coreBody core i (s', 0, s.2.2 ++ [v])
  else coreBody core i s

/-- The loop, if `look` and `core` keep an invariant. -/
theorem lookLoop {Inv : ℕ → S → Prop} {strict : Bool} {limit : ℝ} {look : ℕ → S → S × Except E V} {core : ℕ → S → S × Except E ℝ} {v : ℕ → V} {dt : ℕ → ℝ} {clock : S → ℝ} {t : ℕ → ℝ} {tEnd : ℝ}
    {N : ℕ} (hl : ∀ n s, n < N → Inv n s → ∃ s', look n s = (s', .ok (v n)) ∧ Inv n s') (hc : ∀ n s, n < N → Inv n s → ∃ s', core n s = (s', .ok (dt n)) ∧ Inv (n + 1) s')
    (ht : ∀ n s, Inv n s → clock s = t n) (hB : ∀ n < N, t n < tEnd) (hE : tEnd ≤ t N) {s0 : S} (h0 : Inv 0 s0) :
    ∃ s, Inv N s ∧ While (fun q => clock q.1 < tEnd) (lookBody strict limit look core) 0 (s0, 0, []) N ((s, snapSeq strict limit v dt N), none) := by
  have hnext : ∀ n s, n < N → Inv n s → ∃ s', lookBody strict limit look core n (s, snapSeq strict limit v dt n) = ((s', snapSeq strict limit v dt (n + 1)), none) ∧ Inv (n + 1) s' := by
    intro n s hn hs
    obtain ⟨s1, a1, a2⟩ := hl n s hn hs
    obtain ⟨s2, b1, b2⟩ := hc n s1 hn a2
    obtain ⟨s3, c1, c2⟩ := hc n s hn hs
    unfold lookBody coreBody
    simp only [snapSeq, a1, b1, c1]
    by_cases hd : Due strict limit (snapSeq strict limit v dt n).1 ∨ (snapSeq strict limit v dt n).1 = 0
    · simp only [if_pos hd]
      exact ⟨s2, rfl, b2⟩
    · simp only [if_neg hd]
      exact ⟨s3, rfl, c2⟩
  let f : ℕ → S := fun n => Nat.rec s0 (fun n x => (lookBody strict limit look core n (x, snapSeq strict limit v dt n)).1.1) n
  have key : ∀ n, n ≤ N → Inv n (f n) := by
    intro n
    induction n with
    | zero => intro _; exact h0
    | succ n ih =>
      intro hn
      obtain ⟨s', q1, q2⟩ := hnext n (f n) (by omega) (ih (by omega))
      have : f (n + 1) = s' := congrArg (fun r : (S × ℝ × List V) × Option E => r.1.1) q1
      rw [this]; exact q2
  refine ⟨f N, key N le_rfl, ?_⟩
  exact While.of_states (cond := fun q : S × ℝ × List V => clock q.1 < tEnd) (body := lookBody strict limit look core) (it := fun n => (f n, snapSeq strict limit v dt n)) (Nat.zero_le N)
    (fun i _ hi => by change clock (f i) < tEnd; rw [ht i _ (key i hi.le)]; exact hB i hi)
    (fun i _ hi => by
      obtain ⟨s', q1, -⟩ := hnext i (f i) hi (key i hi.le)
      have e : f (i + 1) = s' := congrArg (fun r : (S × ℝ × List V) × Option E => r.1.1) q1
      rw [e]; exact q1)
    (by change ¬clock (f N) < tEnd; rw [ht N _ (key N le_rfl)]; exact not_lt.2 hE)

end

variable {B : Type} [DecidableEq B] {σ Ω : Type}

section
variable {T : Cart3} [NeZero T.gz] [NeZero T.gy] [NeZero T.gx]

/-- Sub-step number `j` at time `rt` (flow_past_rod_case.py:264-269): the body moves, asks the interactor for the forces on its nodes, and goes on with them; `interactor.time_step(h)`. -/
noncomputable def rodSub3 (C : Cfg3) (K : Kern3) (tol : ℝ) (A : B → Ib3) (o : ℕ → CScheds3) (R : Stepper σ) (b : B) (h rt : ℝ) (j : ℕ) (q : CSt3 T B × σ) : (CSt3 T B × σ) × Option PyErr :=
  match cRun3 C K tol A o (.forces b (R.pos (R.move rt h q.2)) (R.vel (R.move rt h q.2)) fun _ => .advance b h .stop) (2 * j) q.1 with
  | (S, some e) => ((S, q.2), some e)
  | (S, none) => ((S, R.move' rt h (R.kick rt h (forcesOf3 3 (A b).N (S.ib b).v) (R.move rt h q.2))), none)

/-- `n` sub-steps (flow_past_rod_case.py:261-269). -/
noncomputable def rodSubs3 (C : Cfg3) (K : Kern3) (tol : ℝ) (A : B → Ib3) (o : ℕ → CScheds3) (R : Stepper σ) (b : B) (h rt : ℝ) : ℕ → CSt3 T B × σ → (CSt3 T B × σ) × Option PyErr
  | 0, q => (q, none)
  | n + 1, q => match rodSubs3 C K tol A o R b h rt n q with
    | (q', some e) => (q', some e)
    | (q', none) => rodSub3 C K tol A o R b h (rt + n * h) n q'

/-- An iteration (flow_past_rod_case.py:257-279): stable time step, sub-steps of the body, interaction, flow step; the time step taken.  `o i` has the messages of iteration `i`. -/
noncomputable def rodBody3 (C : Cfg3) (K : Kern3) (tol : ℝ) (A : B → Ib3) (o : ℕ → ℕ → CScheds3) (R : Stepper σ) (b : B) (rodDt pre : ℝ) (fs : ℝ → Fin 3 → ℝ) (i : ℕ) (q : CSt3 T B × σ) :
    (CSt3 T B × σ) × Except PyErr ℝ :=
  match stableDt3 C tol pre q.1.sim with
  | (S, .error e) => (({ q.1 with sim := S }, q.2), .error e)
  | (S, .ok dt) => match rodSubs3 C K tol A (o i) R b (localDt dt rodDt) q.1.sim.time (rodSteps dt rodDt) ({ q.1 with sim := S }, q.2) with
    | (q', some e) => (q', .error e)
    | (q', none) => match cRun3 C K tol A (o i) (.interact b (R.pos q'.2) (R.vel q'.2) (.flow dt (fs q.1.sim.time) .stop)) (2 * rodSteps dt rodDt) q'.1 with
      | (S', some e) => ((S', q'.2), .error e)
      | (S', none) => ((S', q'.2), .ok dt)

/-- What is logged and recorded at a snapshot (flow_past_rod_case.py:238-254): time, largest vorticity, what is observed of the body (the angle), norm of the divergence of the vorticity,
deviation, sum of the forces on the nodes (on the master rank). -/
structure RodLog (Ω : Type) where
  time : ℝ
  maxVort : ℝ
  body : Ω
  divNorm : ℝ
  deviation : ℝ
  force : ℕ → ℝ

/-- A snapshot (flow_past_rod_case.py:238-254).  The norm of the divergence needs an exchange of ghost cells of the vorticity (`ol i`). -/
noncomputable def rodLook3 (C : Cfg3) (K : Kern3) (A : B → Ib3) (ol : ℕ → CScheds3) (b : B) (obs : σ → Ω) (i : ℕ) (q : CSt3 T B × σ) : (CSt3 T B × σ) × Except PyErr (RodLog Ω) :=
  match maxVorticity3 C q.1.sim with
  | .error e => (q, .error e)
  | .ok m => match divNorm3 C K (ol i).div q.1.sim with
    | (S, .error e) => (({ q.1 with sim := S }, q.2), .error e)
    | (S, .ok d) => (({ q.1 with sim := S }, q.2),
        .ok ⟨q.1.sim.time, m, obs q.2, d, gridDeviation 3 (ranks3 T) (A b).N (q.1.ib b).v (A b).m, fun k => if k < 3 then nodeTotal (A b).N ((q.1.ib b).v.gforce k) else 0⟩)

/-- The loop with its timer (flow_past_rod_case.py:225-283). -/
noncomputable def rodCase3 (C : Cfg3) (K : Kern3) (tol : ℝ) (A : B → Ib3) (o : ℕ → ℕ → CScheds3) (ol : ℕ → CScheds3) (R : Stepper σ) (b : B) (rodDt pre : ℝ) (fs : ℝ → Fin 3 → ℝ) (foto : ℝ) (obs : σ → Ω) :
    ℕ → (CSt3 T B × σ) × ℝ × List (RodLog Ω) → ((CSt3 T B × σ) × ℝ × List (RodLog Ω)) × Option PyErr :=
  lookBody true foto (rodLook3 C K A ol b obs) (rodBody3 C K tol A o R b rodDt pre fs)

end

/-! ## Specification: flow and body on the global grid -/

/-- A sub-step. -/
noncomputable def refSub3 (P : Params3) (K : Kern3) (cfl tol : ℝ) (A : B → Ib3) (R : Stepper σ) (b : B) (h rt : ℝ) (q : RefC3 B × σ) : RefC3 B × σ :=
  let s := R.move rt h q.2
  let r := cRef3 P K cfl tol A (.forces b (R.pos s) (R.vel s) fun _ => .advance b h .stop) q.1
  (r, R.move' rt h (R.kick rt h (refForceField3 (A b).N (r.hist b)) s))

/-- `n` sub-steps. -/
noncomputable def refSubs3 (P : Params3) (K : Kern3) (cfl tol : ℝ) (A : B → Ib3) (R : Stepper σ) (b : B) (h rt : ℝ) : ℕ → RefC3 B × σ → RefC3 B × σ
  | 0, q => q
  | n + 1, q => refSub3 P K cfl tol A R b h (rt + n * h) (refSubs3 P K cfl tol A R b h rt n q)

/-- The time step of an iteration. -/
noncomputable def rodDt3 (P : Params3) (cfl tol pre : ℝ) (q : RefC3 B × σ) : ℝ := refDt3 P cfl tol q.1.F (.stable pre)

/-- An iteration. -/
noncomputable def refRod3 (P : Params3) (K : Kern3) (cfl tol : ℝ) (A : B → Ib3) (R : Stepper σ) (b : B) (rodDt pre : ℝ) (fs : ℝ → Fin 3 → ℝ) (q : RefC3 B × σ) : RefC3 B × σ :=
  let dt := rodDt3 P cfl tol pre q
  let q' := refSubs3 P K cfl tol A R b (localDt dt rodDt) q.1.time (rodSteps dt rodDt) q
  (cRef3 P K cfl tol A (.interact b (R.pos q'.2) (R.vel q'.2) (.flow dt (fs q.1.time) .stop)) q'.1, q'.2)

/-- Flow and body after `n` iterations. -/
noncomputable def refRods3 (P : Params3) (K : Kern3) (cfl tol : ℝ) (A : B → Ib3) (R : Stepper σ) (b : B) (rodDt pre : ℝ) (fs : ℝ → Fin 3 → ℝ) (q : RefC3 B × σ) : ℕ → RefC3 B × σ
  | 0 => q
  | n + 1 => refRod3 P K cfl tol A R b rodDt pre fs (refRods3 P K cfl tol A R b rodDt pre fs q n)

/-- What a snapshot shows. -/
noncomputable def refLog3 (P : Params3) (K : Kern3) (A : B → Ib3) (b : B) (obs : σ → Ω) (q : RefC3 B × σ) : RodLog Ω :=
  ⟨q.1.time, maxCell3 P.gz P.gy P.gx q.1.F.om, obs q.2, refDiv3 P K q.1.F.om, refDeviation 3 (A b).N (q.1.hist b), fun k => ∑ i ∈ Finset.range (A b).N, refForceField3 (A b).N (q.1.hist b) k i⟩

/-- In an iteration from `q` the body stays inside, and the ranks notice when its nodes change hands. -/
structure RodStep3 (T : Cart3) (P : Params3) (K : Kern3) (cfl tol : ℝ) (A : B → Ib3) (R : Stepper σ) (b : B) (rodDt pre : ℝ) (q : RefC3 B × σ) : Prop where
  sub : let dt := rodDt3 P cfl tol pre q
    let h := localDt dt rodDt
    ∀ j < rodSteps dt rodDt,
      let q' := refSubs3 P K cfl tol A R b h q.1.time j q
      let X := R.pos (R.move (q.1.time + j * h) h q'.2)
      Inside3 P.gz P.gy P.gx 0 P.dx (A b) X ∧ Noticed3 T P.dx (A b) (q'.1.lastX b) X
  full : let dt := rodDt3 P cfl tol pre q
    let q' := refSubs3 P K cfl tol A R b (localDt dt rodDt) q.1.time (rodSteps dt rodDt) q
    Inside3 P.gz P.gy P.gx 1 P.dx (A b) (R.pos q'.2) ∧ Noticed3 T P.dx (A b) (q'.1.lastX b) (R.pos q'.2)

/-! ## Lemmas -/

section
variable {T : Cart3} [NeZero T.gz] [NeZero T.gy] [NeZero T.gx] {gz gy gx pz py px : ℕ} {C : Cfg3} {K : Kern3} {tol : ℝ} {A : B → Ib3} {R : Stepper σ} {b : B}

/-- The facts about the simulator used in every call. -/
structure Ready3 (gz gy gx pz py px : ℕ) (T : Cart3) (C : Cfg3) (K : Kern3) (tol : ℝ) (A : B → Ib3) : Prop where
  cart : mkCart3 gz gy gx pz py px false = .ok T
  good : Good3 T C
  type : C.flowType = "navier_stokes_with_forcing"
  xr : 0 < C.xr
  cfl : 0 < C.cfl
  nu : 0 ≤ C.nu
  tol : 0 < tol
  kern : K.Local
  kdiv : ∀ a, CrossLocal3 1 (K.div a)
  zero : ∀ a, K.upd a (fun _ _ => 0) = 0
  ok : ∀ b, (A b).Ok
  two : ∀ _ : B, 2 ≤ C.g

theorem Ready3.run (h : Ready3 gz gy gx pz py px T C K tol A) {o : ℕ → CScheds3} (ho : ∀ n, (o n).Done T C.g) (p : Prog3 B) (n : ℕ) {r : RefC3 B} {S : CSt3 T B} (hr : CHolds3 gz gy gx C A r S)
    (hp : Proper3 (C.params gz gy gx) K C.cfl tol A p r) (ht : Tracked3 T (C.params gz gy gx) K C.cfl tol A p r) :
    ∃ S', cRun3 C K tol A o p n S = (S', none) ∧ CHolds3 gz gy gx C A (cRef3 (C.params gz gy gx) K C.cfl tol A p r) S' := by
  obtain ⟨q1, q2⟩ := cRun3_holds h.cart h.good h.xr h.type h.cfl.le h.nu h.tol h.kern h.kdiv h.zero h.ok h.two ho p n hr hp ht
  exact ⟨_, Prod.ext rfl q1, q2⟩

theorem rodSub3_holds (hR : Ready3 gz gy gx pz py px T C K tol A) {o : ℕ → CScheds3} (ho : ∀ n, (o n).Done T C.g) (hauto : (A b).auto = true) (h rt : ℝ) (j : ℕ) {r : RefC3 B} {S : CSt3 T B} (s : σ)
    (hr : CHolds3 gz gy gx C A r S) (hin : Inside3 gz gy gx 0 (C.params gz gy gx).dx (A b) (R.pos (R.move rt h s))) (hn : Noticed3 T (C.params gz gy gx).dx (A b) (r.lastX b) (R.pos (R.move rt h s))) :
    ∃ S', rodSub3 C K tol A o R b h rt j (S, s) = ((S', (refSub3 (C.params gz gy gx) K C.cfl tol A R b h rt (r, s)).2), none) ∧
      CHolds3 gz gy gx C A (refSub3 (C.params gz gy gx) K C.cfl tol A R b h rt (r, s)).1 S' := by
  obtain ⟨S', q1, q2⟩ := hR.run ho (.forces b (R.pos (R.move rt h s)) (R.vel (R.move rt h s)) fun _ => .advance b h .stop) (2 * j) hr ⟨hin, .inl hauto, trivial⟩ ⟨hn, trivial⟩
  refine ⟨S', ?_, q2⟩
  have hforce : forcesOf3 3 (A b).N (S'.ib b).v = refForceField3 (A b).N ((refSub3 (C.params gz gy gx) K C.cfl tol A R b h rt (r, s)).1.hist b) := by
    funext k i
    unfold forcesOf3 refForceField3
    split
    · rename_i hki
      exact (q2.ib b).stores.force k hki.1 i hki.2
    · rfl
  unfold rodSub3
  dsimp only
  rw [q1]
  dsimp only
  rw [hforce]
  rfl

theorem rodSubs3_holds (hR : Ready3 gz gy gx pz py px T C K tol A) {o : ℕ → CScheds3} (ho : ∀ n, (o n).Done T C.g) (hauto : (A b).auto = true) (h rt : ℝ) {r : RefC3 B} {S : CSt3 T B} (s : σ)
    (hr : CHolds3 gz gy gx C A r S) (n : ℕ)
    (hsub : ∀ j < n, let q' := refSubs3 (C.params gz gy gx) K C.cfl tol A R b h rt j (r, s)
      let X := R.pos (R.move (rt + j * h) h q'.2)
      Inside3 gz gy gx 0 (C.params gz gy gx).dx (A b) X ∧ Noticed3 T (C.params gz gy gx).dx (A b) (q'.1.lastX b) X) :
    ∃ S', rodSubs3 C K tol A o R b h rt n (S, s) = ((S', (refSubs3 (C.params gz gy gx) K C.cfl tol A R b h rt n (r, s)).2), none) ∧
      CHolds3 gz gy gx C A (refSubs3 (C.params gz gy gx) K C.cfl tol A R b h rt n (r, s)).1 S' := by
  induction n with
  | zero => exact ⟨S, rfl, hr⟩
  | succ n ih =>
    obtain ⟨S1, q1, q2⟩ := ih fun j hj => hsub j (by omega)
    obtain ⟨p1, p2⟩ := hsub n (by omega)
    obtain ⟨S2, q3, q4⟩ := rodSub3_holds hR ho hauto h (rt + n * h) n (refSubs3 (C.params gz gy gx) K C.cfl tol A R b h rt n (r, s)).2 q2 p1 p2
    refine ⟨S2, ?_, q4⟩
    simp only [rodSubs3]
    rw [q1]
    exact q3

theorem rodBody3_holds (hR : Ready3 gz gy gx pz py px T C K tol A) {o : ℕ → ℕ → CScheds3} (ho : ∀ i n, (o i n).Done T C.g) (hauto : (A b).auto = true) {rodDt pre : ℝ} (fs : ℝ → Fin 3 → ℝ)
    (i : ℕ) {q : RefC3 B × σ} {S : CSt3 T B} (hr : CHolds3 gz gy gx C A q.1 S) (hs : RodStep3 T (C.params gz gy gx) K C.cfl tol A R b rodDt pre q) :
    ∃ S', rodBody3 C K tol A o R b rodDt pre fs i (S, q.2) = ((S', (refRod3 (C.params gz gy gx) K C.cfl tol A R b rodDt pre fs q).2), .ok (rodDt3 (C.params gz gy gx) C.cfl tol pre q)) ∧
      CHolds3 gz gy gx C A (refRod3 (C.params gz gy gx) K C.cfl tol A R b rodDt pre fs q).1 S' := by
  obtain ⟨a1, a2, a3⟩ := pickDt3_holds hR.cart hR.good.g hR.cfl.le hR.xr hR.nu hR.tol hr.sim (.stable pre)
  have hst : ∃ s1 : Sim3 T, stableDt3 C tol pre S.sim = (s1, .ok (rodDt3 (C.params gz gy gx) C.cfl tol pre q)) ∧ s1 = { S.sim with
      buf := (stableDt3 C tol pre S.sim).1.buf } := by
    refine ⟨_, ?_, rfl⟩
    unfold pickDt3 at a1
    simp only at a1
    unfold rodDt3
    rw [← a1]; rfl
  obtain ⟨s1, hst, hs1⟩ := hst
  have hr' : CHolds3 gz gy gx C A q.1 { S with
      sim := s1 } := by
    subst hs1
    exact ⟨⟨hr.sim.sc, hr.sim.om, hr.sim.u, hr.sim.green⟩, hr.time, hr.force, hr.conf, hr.fresh, hr.ib, hr.log⟩
  obtain ⟨S1, b1, b2⟩ := rodSubs3_holds hR (ho i) hauto (localDt (rodDt3 (C.params gz gy gx) C.cfl tol pre q) rodDt) q.1.time q.2 hr' (rodSteps (rodDt3 (C.params gz gy gx) C.cfl tol pre q) rodDt) hs.sub
  obtain ⟨p1, p2⟩ := hs.full
  set q' := refSubs3 (C.params gz gy gx) K C.cfl tol A R b (localDt (rodDt3 (C.params gz gy gx) C.cfl tol pre q) rodDt) q.1.time (rodSteps (rodDt3 (C.params gz gy gx) C.cfl tol pre q) rodDt) q with hq'
  obtain ⟨S2, c1, c2⟩ := hR.run (ho i) (.interact b (R.pos q'.2) (R.vel q'.2) (.flow (rodDt3 (C.params gz gy gx) C.cfl tol pre q) (fs q.1.time) .stop))
    (2 * rodSteps (rodDt3 (C.params gz gy gx) C.cfl tol pre q) rodDt) b2 ⟨p1, .inl hauto, trivial⟩ ⟨p2, trivial⟩
  refine ⟨S2, ?_, c2⟩
  unfold rodBody3
  dsimp only
  rw [hst]
  dsimp only
  have htime : S.sim.time = q.1.time := hr.time
  rw [htime]
  have b1' : rodSubs3 C K tol A (o i) R b (localDt (rodDt3 (C.params gz gy gx) C.cfl tol pre q) rodDt) q.1.time (rodSteps (rodDt3 (C.params gz gy gx) C.cfl tol pre q) rodDt) ({ S with
      sim := s1 }, q.2) = ((S1, q'.2), none) := b1
  rw [b1']
  dsimp only
  have c1' : cRun3 C K tol A (o i) (.interact b (R.pos q'.2) (R.vel q'.2) (.flow (rodDt3 (C.params gz gy gx) C.cfl tol pre q) (fs q.1.time) .stop))
    (2 * rodSteps (rodDt3 (C.params gz gy gx) C.cfl tol pre q) rodDt) S1 = (S2, none) := c1
  rw [c1']
  rfl

omit [DecidableEq B] in
theorem rodLook3_holds (hR : Ready3 gz gy gx pz py px T C K tol A) {ol : ℕ → CScheds3} (ho : ∀ n, (ol n).Done T C.g) (obs : σ → Ω) (i : ℕ) {q : RefC3 B × σ} {S : CSt3 T B}
    (hr : CHolds3 gz gy gx C A q.1 S) :
    ∃ S', rodLook3 C K A ol b obs i (S, q.2) = ((S', q.2), .ok (refLog3 (C.params gz gy gx) K A b obs q)) ∧ CHolds3 gz gy gx C A q.1 S' := by
  obtain ⟨e0, e1, e2, -⟩ := construct3_ok hR.cart
  have hgz0 : 0 < gz := by rw [← e0]; exact Nat.pos_of_ne_zero (NeZero.ne _)
  have hgy0 : 0 < gy := by rw [← e1]; exact Nat.pos_of_ne_zero (NeZero.ne _)
  have hgx0 : 0 < gx := by rw [← e2]; exact Nat.pos_of_ne_zero (NeZero.ne _)
  have hns : isNS C.flowType = true := by rw [hR.type]; rfl
  have hfull : C.full = true := by unfold Cfg3.full; rw [hR.type]; rfl
  have hM := maxCell3_greatest hgz0 hgy0 hgx0 q.1.F.om
  have hset : {x | ∃ j G, Dom3 gz gy gx G ∧ x = q.1.F.om j G} = {x | ∃ j G, InDomain3 T G ∧ x = q.1.F.om j G} := by
    ext x
    exact ⟨fun ⟨j, G, hG, hx⟩ => ⟨j, G, (dom3_iff hR.cart G).1 hG, hx⟩, fun ⟨j, G, hG, hx⟩ => ⟨j, G, (dom3_iff hR.cart G).2 hG, hx⟩⟩
  rw [hset] at hM
  have h1 : maxVorticity3 C S.sim = .ok (maxCell3 gz gy gx q.1.F.om) := maxVorticity3_global hR.cart C hR.good.g hns S.sim (fun j => holdsX3_holds (hr.sim.om j)) hM
  have h2 : gridDeviation 3 (ranks3 T) (A b).N (S.ib b).v (A b).m = refDeviation 3 (A b).N (q.1.hist b) :=
    gridDeviation_rms ((A b).vbf T (C.params gz gy gx).dx) (ranks3_nodup T) (hr.ib b).stores (A b).m
  have h3 : ∀ k, (if k < 3 then nodeTotal (A b).N ((S.ib b).v.gforce k) else 0) = ∑ i ∈ Finset.range (A b).N, refForceField3 (A b).N (q.1.hist b) k i := by
    intro k
    split
    · rename_i hk
      refine Finset.sum_congr rfl fun i hi => ?_
      have hi' := Finset.mem_range.1 hi
      unfold refForceField3
      rw [if_pos ⟨hk, hi'⟩]
      exact (hr.ib b).stores.force k hk i hi'
    · rename_i hk
      symm
      refine Finset.sum_eq_zero fun i _ => ?_
      unfold refForceField3
      rw [if_neg (fun h => hk h.1)]
  have hd : (divNorm3 C K (ol i).div S.sim).2 = .ok (refDiv3 (C.params gz gy gx) K q.1.F.om) :=
    divNorm3_global hR.cart ⟨hgz0, hgy0, hgx0⟩ C hR.good.g hR.good.gz hR.good.gy hR.good.gx hns K hR.kdiv (by rw [hfull]; exact (ho i).div) S.sim (fun j => holdsX3_holds (hr.sim.om j))
  have hst : ∃ s1 : Sim3 T, divNorm3 C K (ol i).div S.sim = (s1, .ok (refDiv3 (C.params gz gy gx) K q.1.F.om)) ∧ s1 = { S.sim with
      buf := (divNorm3 C K (ol i).div S.sim).1.buf, om := ofFam (multiExchange3 T C.g C.full [0, 1, 2] (asFam S.sim.om) (ol i).div.2) } := by
    refine ⟨_, ?_, rfl⟩
    rw [← hd]
    unfold divNorm3
    rw [if_pos hns]
  obtain ⟨s1, hst, hs1⟩ := hst
  have hom : ∀ j, HoldsX3 T C.g (q.1.F.om j) (ofFam (multiExchange3 T C.g C.full [0, 1, 2] (asFam S.sim.om) (ol i).div.2) j) := fun j =>
    multi3_holdsX hR.cart hR.good.gz hR.good.gy hR.good.gx C.full mem_fin3 (asFam S.sim.om) (by rw [hfull]; exact (ho i).div) j (hr.sim.om j)
  refine ⟨{ S with
    sim := s1 }, ?_, ?_⟩
  · unfold rodLook3 refLog3
    dsimp only
    rw [h1]
    dsimp only
    rw [hst]
    dsimp only
    rw [h2, hr.time]
    simp only [h3]
    rfl
  · subst hs1
    exact ⟨⟨hr.sim.sc, hom, hr.sim.u, hr.sim.green⟩, hr.time, hr.force, hr.conf, hr.fresh, hr.ib, hr.log⟩

end

/-! ## Times -/

section
variable {P : Params3} {K : Kern3} {cfl tol : ℝ} {A : B → Ib3} {R : Stepper σ} {b : B}

theorem refSubs3_clock (h rt : ℝ) (q : RefC3 B × σ) (n : ℕ) :
    (refSubs3 P K cfl tol A R b h rt n q).1.time = q.1.time ∧ ((refSubs3 P K cfl tol A R b h rt n q).1.hist b).t = (q.1.hist b).t + n * h := by
  induction n with
  | zero => simp [refSubs3]
  | succ n ih =>
    obtain ⟨i1, i2⟩ := ih
    refine ⟨i1, ?_⟩
    simp only [refSubs3, refSub3, cRef3, refForces3, refLag3, Function.update_self]
    rw [i2]
    push_cast; ring

theorem refRod3_clock {rodDt pre : ℝ} (fs : ℝ → Fin 3 → ℝ) (q : RefC3 B × σ) (hdt : 0 < rodDt3 P cfl tol pre q) (hrod : 0 < rodDt) :
    (refRod3 P K cfl tol A R b rodDt pre fs q).1.time = q.1.time + rodDt3 P cfl tol pre q ∧
      ((refRod3 P K cfl tol A R b rodDt pre fs q).1.hist b).t = (q.1.hist b).t + rodDt3 P cfl tol pre q := by
  obtain ⟨i1, i2⟩ := refSubs3_clock (P := P) (K := K) (cfl := cfl) (tol := tol) (A := A) (R := R) (b := b) (localDt (rodDt3 P cfl tol pre q) rodDt) q.1.time q
    (rodSteps (rodDt3 P cfl tol pre q) rodDt)
  rw [localDt_sum hdt hrod] at i2
  refine ⟨congrArg (· + rodDt3 P cfl tol pre q) i1, ?_⟩
  simp only [refRod3, cRef3, refFull3, refForces3, refLag3, Function.update_self]
  exact i2

end

/-! ## What a user can rely on -/

section
variable {T : Cart3} [NeZero T.gz] [NeZero T.gy] [NeZero T.gx]

/-- All that is assumed: simulator and interactors constructed (`Setup3`), automatic ghost exchange (the default), all messages delivered, constants that make sense; and until `tEnd`, in the
run on the global grid, the body stays inside and the ranks notice when its nodes change hands. -/
structure RodFit3 (a : SimArgs3) (xr nu cfl tol : ℝ) (K : Kern3) (A : B → Ib3) (X0 : B → LagField ℝ) (t0 : B → ℝ) (time : ℝ) (sc : ℝ → ℝ → ℝ → ℝ) (om u : Fin 3 → ℝ → ℝ → ℝ → ℝ) (S : CSt3 T B)
    (o : ℕ → ℕ → CScheds3) (ol : ℕ → CScheds3) (b : B) (R : Stepper σ) (rodDt pre : ℝ) (fs : ℝ → Fin 3 → ℝ) (s : σ) (tEnd : ℝ) : Prop where
  setup : Setup3 a xr A X0 t0 time sc om u S
  auto : (A b).auto = true
  sched : ∀ i n, (o i n).Done T a.g
  looks : ∀ n, (ol n).Done T a.g
  hxr : 0 < xr
  hnu : 0 ≤ nu
  hcfl : 0 < cfl
  htol : 0 < tol
  kern : K.Local
  kdiv : ∀ a, CrossLocal3 1 (K.div a)
  zero : ∀ r, K.upd r (fun _ _ => 0) = 0
  hrodDt : 0 < rodDt
  hpre : 0 < pre
  inside : let P : Params3 := (a.pars xr nu)
    ∀ n, (refRods3 P K cfl tol A R b rodDt pre fs (refStart3 (xr / a.gx) X0 t0 time sc om u, s) n).1.time < tEnd →
      RodStep3 T P K cfl tol A R b rodDt pre (refRods3 P K cfl tol A R b rodDt pre fs (refStart3 (xr / a.gx) X0 t0 time sc om u, s) n)

variable {a : SimArgs3} {xr nu cfl tol : ℝ} {K : Kern3} {A : B → Ib3} {X0 : B → LagField ℝ} {t0 : B → ℝ} {time : ℝ} {sc : ℝ → ℝ → ℝ → ℝ} {om u : Fin 3 → ℝ → ℝ → ℝ → ℝ} {S : CSt3 T B}
  {o : ℕ → ℕ → CScheds3} {ol : ℕ → CScheds3} {b : B} {R : Stepper σ} {rodDt pre : ℝ} {fs : ℝ → Fin 3 → ℝ} {s : σ} {tEnd : ℝ}

theorem RodFit3.start (h : RodFit3 a xr nu cfl tol K A X0 t0 time sc om u S o ol b R rodDt pre fs s tEnd) :
    Ready3 a.gz a.gy a.gx a.pz a.py a.px T (simCfg3 a xr nu cfl) K tol A ∧ CHolds3 a.gz a.gy a.gx (simCfg3 a xr nu cfl) A (refStart3 (xr / a.gx) X0 t0 time sc om u) S := by
  obtain ⟨hT, -⟩ := simCheck3_cart h.setup.fit.built
  obtain ⟨-, q2, q3⟩ := coupled3_holds h.hxr h.hnu h.hcfl.le h.htol h.kern h.kdiv h.zero h.setup (h.sched 0) .stop trivial trivial
  refine ⟨⟨hT, h.setup.fit.good xr nu cfl (by rw [h.setup.flowType]; rfl), h.setup.flowType, h.hxr, h.hcfl, h.hnu, h.htol, h.kern, h.kdiv, h.zero, fun b => (q3 b).1, fun b => (q3 b).2⟩, q2⟩

/-- The run, with what it records spelled out. -/
theorem rodCase3_run (h : RodFit3 a xr nu cfl tol K A X0 t0 time sc om u S o ol b R rodDt pre fs s tEnd) (foto : ℝ) (obs : σ → Ω) {V : ℝ}
    (hV : ∀ n G, (refRods3 (a.pars xr nu) K cfl tol A R b rodDt pre fs (refStart3 (xr / a.gx) X0 t0 time sc om u, s) n).1.time < tEnd → Dom3 a.gz a.gy a.gx G →
      |(refRods3 (a.pars xr nu) K cfl tol A R b rodDt pre fs (refStart3 (xr / a.gx) X0 t0 time sc om u, s) n).1.F.u 0 G| +
      |(refRods3 (a.pars xr nu) K cfl tol A R b rodDt pre fs (refStart3 (xr / a.gx) X0 t0 time sc om u, s) n).1.F.u 1 G| +
      |(refRods3 (a.pars xr nu) K cfl tol A R b rodDt pre fs (refStart3 (xr / a.gx) X0 t0 time sc om u, s) n).1.F.u 2 G| ≤ V) :
    let P : Params3 := a.pars xr nu
    let ref := refRods3 P K cfl tol A R b rodDt pre fs (refStart3 (xr / a.gx) X0 t0 time sc om u, s)
    let run := While (fun q => q.1.1.sim.time < tEnd) (rodCase3 (simCfg3 a xr nu cfl) K tol A o ol R b rodDt pre fs foto obs) 0 ((S, s), 0, [])
    let dts := fun n => rodDt3 P cfl tol pre (ref n)
    (∀ n, 0 < dts n) ∧ (∀ n, (ref (n + 1)).1.time = (ref n).1.time + dts n) ∧ ∃ N S',
      run N (((S', (ref N).2), snapSeq true foto (fun n => refLog3 P K A b obs (ref n)) dts N), none) ∧
      CHolds3 a.gz a.gy a.gx (simCfg3 a xr nu cfl) A (ref N).1 S' ∧
      N ≤ ⌈(tEnd - time) / leastDt 6 cfl tol (xr / a.gx) (nu + tol) pre V⌉₊ ∧ (∀ n < N, (ref n).1.time < tEnd) ∧ tEnd ≤ (ref N).1.time ∧
      (S'.ib b).v.time - t0 b = (ref N).1.time - time := by
  intro P ref run dts
  obtain ⟨hR, h0⟩ := h.start
  obtain ⟨e0, e1, e2, -⟩ := construct3_ok hR.cart
  have hgz0 : 0 < a.gz := by rw [← e0]; exact Nat.pos_of_ne_zero (NeZero.ne _)
  have hgy0 : 0 < a.gy := by rw [← e1]; exact Nat.pos_of_ne_zero (NeZero.ne _)
  have hgx0 : 0 < a.gx := by rw [← e2]; exact Nat.pos_of_ne_zero (NeZero.ne _)
  have hdx : 0 < xr / a.gx := div_pos h.hxr (by exact_mod_cast hgx0)
  have hnu' : 0 ≤ nu + tol := add_nonneg h.hnu h.htol.le
  have hmax : ∀ n, 0 ≤ maxVel3 a.gz a.gy a.gx (ref n).1.F.u := fun n => by
    obtain ⟨⟨G, hG, hGe⟩, -⟩ := maxVel3_greatest hgz0 hgy0 hgx0 (ref n).1.F.u
    rw [hGe]; positivity
  have hne : nu + tol ≠ 0 := by have := h.htol; have := h.hnu; positivity
  have hval : ∀ n, rodDt3 P cfl tol pre (ref n) = leastDt 6 cfl tol (xr / a.gx) (nu + tol) pre (maxVel3 a.gz a.gy a.gx (ref n).1.F.u) := fun n => by
    unfold leastDt
    rw [if_neg hne]
    rfl
  have hdt : ∀ n, 0 < rodDt3 P cfl tol pre (ref n) := fun n => by
    rw [hval]
    exact leastDt_pos (d := 6) (by norm_num) h.hcfl h.htol hdx hnu' h.hpre (hmax n)
  have hclock : ∀ n, (ref (n + 1)).1.time = (ref n).1.time + rodDt3 P cfl tol pre (ref n) ∧ ((ref (n + 1)).1.hist b).t = ((ref n).1.hist b).t + rodDt3 P cfl tol pre (ref n) :=
    fun n => refRod3_clock fs (ref n) (hdt n) h.hrodDt
  have hstep : ∀ n, (ref n).1.time < tEnd → (ref n).1.time + leastDt 6 cfl tol (xr / a.gx) (nu + tol) pre V ≤ (ref (n + 1)).1.time ∧ 0 < leastDt 6 cfl tol (xr / a.gx) (nu + tol) pre V := by
    intro n hn
    obtain ⟨⟨G, hG, hGe⟩, -⟩ := maxVel3_greatest hgz0 hgy0 hgx0 (ref n).1.F.u
    have hMV : maxVel3 a.gz a.gy a.gx (ref n).1.F.u ≤ V := by rw [hGe]; exact hV n G hn hG
    refine ⟨?_, leastDt_pos (by norm_num) h.hcfl h.htol hdx hnu' h.hpre ((hmax n).trans hMV)⟩
    rw [(hclock n).1]
    have q := leastDt_mono (d := 6) (nu := nu + tol) h.hcfl h.htol hdx h.hpre (hmax n) hMV
    have q' := hval n
    linarith
  obtain ⟨N, hN, hE, hB⟩ := clock_reaches (t := fun n => (ref n).1.time) tEnd hstep
  obtain ⟨⟨S', s'⟩, ⟨q1, q2⟩, hrun⟩ := lookLoop (Inv := fun n (q : CSt3 T B × σ) => CHolds3 a.gz a.gy a.gx (simCfg3 a xr nu cfl) A (ref n).1 q.1 ∧ q.2 = (ref n).2) (strict := true) (limit := foto)
    (look := rodLook3 (simCfg3 a xr nu cfl) K A ol b obs) (core := rodBody3 (simCfg3 a xr nu cfl) K tol A o R b rodDt pre fs) (v := fun n => refLog3 P K A b obs (ref n)) (dt := dts)
    (clock := fun q => q.1.sim.time) (t := fun n => (ref n).1.time) (tEnd := tEnd) (N := N)
    (by
      rintro n ⟨S1, s1⟩ - ⟨p1, p2⟩
      dsimp only at p1 p2
      subst p2
      obtain ⟨S2, l1, l2⟩ := rodLook3_holds (b := b) hR h.looks obs n p1
      exact ⟨_, l1, l2, rfl⟩)
    (by
      rintro n ⟨S1, s1⟩ hn ⟨p1, p2⟩
      dsimp only at p1 p2
      subst p2
      obtain ⟨S2, l1, l2⟩ := rodBody3_holds hR h.sched h.auto fs n p1 (h.inside n (hB n hn))
      exact ⟨_, l1, l2, rfl⟩)
    (by
      rintro n ⟨S1, s1⟩ ⟨p1, -⟩
      exact p1.time) hB hE (s0 := (S, s)) ⟨h0, rfl⟩
  dsimp only at q1 q2
  subst q2
  have htimes : ∀ n, ((ref n).1.hist b).t - t0 b = (ref n).1.time - time := by
    intro n
    induction n with
    | zero =>
      change t0 b - t0 b = time - time
      ring
    | succ n ih => rw [(hclock n).1, (hclock n).2]; linarith
  refine ⟨hdt, fun n => (hclock n).1, N, S', hrun, q1, hN, hB, hE, ?_⟩
  rw [← htimes, (q1.ib b).stores.time]

/-- C109 (3D): the driver for the flow past a rod, while velocities stay bounded and the body stays inside: it ends on every decomposition, under every schedule of the messages; it raises
nothing; what it logs and records of flow, forces and body, and when, is what flow and body on the global grid give; so is the body at the end, and the fields in every cell; and the clock of
the interactor is in step with that of the flow. -/
theorem rodCase3_report (h : RodFit3 a xr nu cfl tol K A X0 t0 time sc om u S o ol b R rodDt pre fs s tEnd) (foto : ℝ) (obs : σ → Ω) {V : ℝ}
    (hV : ∀ n G, (refRods3 (a.pars xr nu) K cfl tol A R b rodDt pre fs (refStart3 (xr / a.gx) X0 t0 time sc om u, s) n).1.time < tEnd → Dom3 a.gz a.gy a.gx G →
      |(refRods3 (a.pars xr nu) K cfl tol A R b rodDt pre fs (refStart3 (xr / a.gx) X0 t0 time sc om u, s) n).1.F.u 0 G| +
      |(refRods3 (a.pars xr nu) K cfl tol A R b rodDt pre fs (refStart3 (xr / a.gx) X0 t0 time sc om u, s) n).1.F.u 1 G| +
      |(refRods3 (a.pars xr nu) K cfl tol A R b rodDt pre fs (refStart3 (xr / a.gx) X0 t0 time sc om u, s) n).1.F.u 2 G| ≤ V) :
    let P : Params3 := a.pars xr nu
    let ref := refRods3 P K cfl tol A R b rodDt pre fs (refStart3 (xr / a.gx) X0 t0 time sc om u, s)
    let run := While (fun q => q.1.1.sim.time < tEnd) (rodCase3 (simCfg3 a xr nu cfl) K tol A o ol R b rodDt pre fs foto obs) 0 ((S, s), 0, [])
    ∃ N S' fotoTimer shots,
      run N (((S', (ref N).2), fotoTimer, shots.map fun n => refLog3 P K A b obs (ref n)), none) ∧
      (∀ N' r, run N' r → N' = N ∧ r = (((S', (ref N).2), fotoTimer, shots.map fun n => refLog3 P K A b obs (ref n)), none)) ∧
      Snapshots true foto (fun n => (ref n).1.time) N shots ∧
      N ≤ ⌈(tEnd - time) / leastDt 6 cfl tol (xr / a.gx) (nu + tol) pre V⌉₊ ∧ (∀ n < N, (ref n).1.time < tEnd) ∧ tEnd ≤ (ref N).1.time ∧
      S'.sim.time = (ref N).1.time ∧ (S'.ib b).v.time - t0 b = (ref N).1.time - time ∧
      ∀ c q, Valid3 T c → Inner3 T (a.g : ℤ) q → ∀ j, S'.sim.om j c q = (ref N).1.F.om j (globalIx3 T (a.g : ℤ) c q) ∧ S'.sim.vel j c q = (ref N).1.F.u j (globalIx3 T (a.g : ℤ) c q) := by
  intro P ref run
  obtain ⟨hdt, hclock, N, S', hrun, hS', hN, hB, hE, ht⟩ := rodCase3_run h foto obs hV
  obtain ⟨shots, p1, p2, -⟩ := snapSeq_spec (strict := true) (limit := foto) (t := fun n => (ref n).1.time) (v := fun n => refLog3 P K A b obs (ref n)) hdt hclock N
  have hrun' : run N (((S', (ref N).2), (snapSeq true foto (fun n => refLog3 P K A b obs (ref n)) (fun n => rodDt3 P cfl tol pre (ref n)) N).1, shots.map fun n => refLog3 P K A b obs (ref n)), none) := by
    rw [← p2]; exact hrun
  refine ⟨N, S', _, shots, hrun', fun N' r hr => ?_, p1, hN, hB, hE, hS'.time, ht, fun c q hc hq j => ⟨?_, ?_⟩⟩
  · obtain ⟨u1, u2⟩ := hrun'.unique hr
    exact ⟨u1.symm, u2.symm⟩
  · exact hS'.sim.om j c q hc (inArr_of_inner3 hq) (Or.inl hq)
  · exact hS'.sim.u j c q hc (inArr_of_inner3 hq) (Or.inl hq)

/-- the run on the global grid does not depend on the decomposition -/
theorem same_rods3 {A' : B → Ib3} (hA : ∀ b, A' b = { A b with m := (A' b).m, ord := (A' b).ord, junk := (A' b).junk }) (P : Params3) (q : RefC3 B × σ) (n : ℕ) :
    refRods3 P K cfl tol A' R b rodDt pre fs q n = refRods3 P K cfl tol A R b rodDt pre fs q n := by
  have hN : (A' b).N = (A b).N := by rw [hA b]
  have hsub : ∀ h rt q, refSub3 P K cfl tol A' R b h rt q = refSub3 P K cfl tol A R b h rt q := fun h rt q => by
    simp only [refSub3]
    rw [(same_bodies3 hA P K cfl tol ⟨1, 1, 1, 1, 1, 1, 1, 1, 1, false⟩ _ _).1, hN]
  have hsubs : ∀ h rt q m, refSubs3 P K cfl tol A' R b h rt m q = refSubs3 P K cfl tol A R b h rt m q := fun h rt q m => by
    induction m with
    | zero => rfl
    | succ m ih => simp only [refSubs3]; rw [ih, hsub]
  induction n with
  | zero => rfl
  | succ n ih =>
    simp only [refRods3]
    rw [ih]
    simp only [refRod3]
    rw [hsubs, (same_bodies3 hA P K cfl tol ⟨1, 1, 1, 1, 1, 1, 1, 1, 1, false⟩ _ _).1]

/-- C109 (3D): the driver on two decompositions of the same problem: as many iterations, the same logs and records at the same times, the same body at the end, and the same fields. -/
theorem rodCase3_same {T' : Cart3} [NeZero T'.gz] [NeZero T'.gy] [NeZero T'.gx] {a' : SimArgs3} (hsame : a' = { a with pz := a'.pz, py := a'.py, px := a'.px }) {A' : B → Ib3}
    (hA : ∀ b, A' b = { A b with m := (A' b).m, ord := (A' b).ord, junk := (A' b).junk }) {S' : CSt3 T' B} {o' : ℕ → ℕ → CScheds3} {ol' : ℕ → CScheds3}
    (h : RodFit3 a xr nu cfl tol K A X0 t0 time sc om u S o ol b R rodDt pre fs s tEnd) (h' : RodFit3 a' xr nu cfl tol K A' X0 t0 time sc om u S' o' ol' b R rodDt pre fs s tEnd)
    (foto : ℝ) (obs : σ → Ω) {V : ℝ}
    (hV : ∀ n G, (refRods3 (a.pars xr nu) K cfl tol A R b rodDt pre fs (refStart3 (xr / a.gx) X0 t0 time sc om u, s) n).1.time < tEnd → Dom3 a.gz a.gy a.gx G →
      |(refRods3 (a.pars xr nu) K cfl tol A R b rodDt pre fs (refStart3 (xr / a.gx) X0 t0 time sc om u, s) n).1.F.u 0 G| +
      |(refRods3 (a.pars xr nu) K cfl tol A R b rodDt pre fs (refStart3 (xr / a.gx) X0 t0 time sc om u, s) n).1.F.u 1 G| +
      |(refRods3 (a.pars xr nu) K cfl tol A R b rodDt pre fs (refStart3 (xr / a.gx) X0 t0 time sc om u, s) n).1.F.u 2 G| ≤ V) :
    ∃ N S1 S1' body fotoTimer shots,
      While (fun q => q.1.1.sim.time < tEnd) (rodCase3 (simCfg3 a xr nu cfl) K tol A o ol R b rodDt pre fs foto obs) 0 ((S, s), 0, []) N (((S1, body), fotoTimer, shots), none) ∧
      While (fun q => q.1.1.sim.time < tEnd) (rodCase3 (simCfg3 a' xr nu cfl) K tol A' o' ol' R b rodDt pre fs foto obs) 0 ((S', s), 0, []) N (((S1', body), fotoTimer, shots), none) ∧
      S1.sim.time = S1'.sim.time ∧ (S1.ib b).v.time = (S1'.ib b).v.time ∧
      ∀ c q c' q', Valid3 T c → Inner3 T (a.g : ℤ) q → Valid3 T' c' → Inner3 T' (a.g : ℤ) q' → globalIx3 T (a.g : ℤ) c q = globalIx3 T' (a.g : ℤ) c' q' →
        ∀ j, S1.sim.om j c q = S1'.sim.om j c' q' ∧ S1.sim.vel j c q = S1'.sim.vel j c' q' := by
  have hgz : a'.gz = a.gz := by rw [hsame]
  have hgy : a'.gy = a.gy := by rw [hsame]
  have hgx : a'.gx = a.gx := by rw [hsame]
  have hg : a'.g = a.g := by rw [hsame]
  have hpars : a'.pars xr nu = a.pars xr nu := by rw [hsame]; rfl
  have hNA : (A' b).N = (A b).N := by rw [hA b]
  have href := same_rods3 (K := K) (cfl := cfl) (tol := tol) (R := R) (b := b) (rodDt := rodDt) (pre := pre) (fs := fs) hA (a.pars xr nu)
    (refStart3 (xr / a.gx) X0 t0 time sc om u, s)
  obtain ⟨-, -, N, S1, r1, r2, -, r3, r4, r5⟩ := rodCase3_run h foto obs hV
  obtain ⟨-, -, N', S1', s1, s2, -, s3, s4, s5⟩ := rodCase3_run h' foto obs (V := V) (by rw [hgz, hgy, hgx, hpars]; simp only [href]; exact hV)
  have hshot : ∀ q : RefC3 B × σ, refLog3 (a.pars xr nu) K A' b obs q = refLog3 (a.pars xr nu) K A b obs q := fun q => by
    unfold refLog3; rw [hNA]
  rw [hgx, hpars] at s1 s3 s4 s5
  rw [hgx, hgy, hgz, hpars] at s2
  simp only [href, hshot] at s1 s2 s3 s4 s5
  have hNN : N' = N := by
    rcases lt_trichotomy N N' with q | q | q
    · exact absurd (s3 N q) (not_lt.2 r4)
    · exact q.symm
    · exact absurd (r3 N' q) (not_lt.2 s4)
  rw [hNN] at s1 s2 s3 s4 s5
  refine ⟨N, S1, S1', _, _, _, r1, s1, r2.time.trans s2.time.symm, by linarith, fun c q c' q' hc hq hc' hq' he j => ⟨?_, ?_⟩⟩
  · have q1 := r2.sim.om j c q hc (inArr_of_inner3 hq) (Or.inl hq)
    have hq2 : Inner3 T' (((simCfg3 a' xr nu cfl).g : ℕ) : ℤ) q' := by change Inner3 T' (a'.g : ℤ) q'; rw [hg]; exact hq'
    have q2 := s2.sim.om j c' q' hc' (inArr_of_inner3 hq2) (Or.inl hq2)
    have he' : globalIx3 T (a.g : ℤ) c q = globalIx3 T' (((simCfg3 a' xr nu cfl).g : ℕ) : ℤ) c' q' := by rw [he]; change _ = globalIx3 T' (a'.g : ℤ) c' q'; rw [hg]
    exact q1.trans ((congrArg _ he').trans q2.symm)
  · have q1 := r2.sim.u j c q hc (inArr_of_inner3 hq) (Or.inl hq)
    have hq2 : Inner3 T' (((simCfg3 a' xr nu cfl).g : ℕ) : ℤ) q' := by change Inner3 T' (a'.g : ℤ) q'; rw [hg]; exact hq'
    have q2 := s2.sim.u j c' q' hc' (inArr_of_inner3 hq2) (Or.inl hq2)
    have he' : globalIx3 T (a.g : ℤ) c q = globalIx3 T' (((simCfg3 a' xr nu cfl).g : ℕ) : ℤ) c' q' := by rw [he]; change _ = globalIx3 T' (a'.g : ℤ) c' q'; rw [hg]
    exact q1.trans ((congrArg _ he').trans q2.symm)

end

/-! ## Example -/

/-- a body that is held in place, on two ranks: its hypotheses hold whatever the flow does -/
example [NeZero (⟨8, 16, 8, 1, 1, 2, 8, 16, 4, false⟩ : Cart3).gz] [NeZero (⟨8, 16, 8, 1, 1, 2, 8, 16, 4, false⟩ : Cart3).gy]
    [NeZero (⟨8, 16, 8, 1, 1, 2, 8, 16, 4, false⟩ : Cart3).gx] [NeZero (⟨8, 16, 8, 1, 1, 1, 8, 16, 8, false⟩ : Cart3).gz]
    [NeZero (⟨8, 16, 8, 1, 1, 1, 8, 16, 8, false⟩ : Cart3).gy] [NeZero (⟨8, 16, 8, 1, 1, 1, 8, 16, 8, false⟩ : Cart3).gx]
    {K : Kern3} (hK : K.Local) (hKd : ∀ a, CrossLocal3 1 (K.div a)) (hK0 : ∀ r, K.upd r (fun _ _ => 0) = 0) (sc : ℝ → ℝ → ℝ → ℝ) (om u : Fin 3 → ℝ → ℝ → ℝ → ℝ)
    {o : ℕ → ℕ → CScheds3} (ho : ∀ i n, (o i n).Done ⟨8, 16, 8, 1, 1, 2, 8, 16, 4, false⟩ 2) {ol : ℕ → CScheds3} (hol : ∀ n, (ol n).Done ⟨8, 16, 8, 1, 1, 2, 8, 16, 4, false⟩ 2) :
    ∃ S : CSt3 ⟨8, 16, 8, 1, 1, 2, 8, 16, 4, false⟩ Unit,
      RodFit3 ⟨8, 16, 8, 1, 1, 2, "navier_stokes_with_forcing", true, none, false, 2, .int 2⟩ 8 0.01 0.1 1e-10 K (fun _ => exBody3) (fun _ => exPos3) (fun _ => 0) 0 sc om u S o ol ()
        (⟨fun _ _ m => m, fun _ _ _ m => m + 1, fun _ _ m => m, fun _ => exPos3, fun _ _ _ => 0⟩ : Stepper ℕ) 0.01 0.5 (fun _ _ => 1) 0 1 := by
  obtain ⟨⟨S, hS⟩, -⟩ := exSetup3 sc om u
  have e : (8 : ℝ) / ((8 : ℕ) : ℝ) = 1 := by norm_num
  have hin := exBody3_inside
  set R : Stepper ℕ := ⟨fun _ _ m => m, fun _ _ _ m => m + 1, fun _ _ m => m, fun _ => exPos3, fun _ _ _ => 0⟩ with hR
  have hsub : ∀ (P : Params3) (h rt : ℝ) (n : ℕ) (q : RefC3 Unit × ℕ), q.1.lastX () = exPos3 → (refSubs3 P K 0.1 1e-10 (fun _ => exBody3) R () h rt n q).1.lastX () = exPos3 := by
    intro P h rt n q hq
    cases n with
    | zero => exact hq
    | succ n => simp only [refSubs3, refSub3, cRef3, refForces3, Function.update_self]; rfl
  have hlast : ∀ (P : Params3) (n : ℕ), (refRods3 P K 0.1 1e-10 (fun _ => exBody3) R () 0.01 0.5 (fun _ _ => 1) (refStart3 (8 / ((8 : ℕ) : ℝ)) (fun _ => exPos3) (fun _ => 0) 0 sc om u, 0) n).1.lastX () = exPos3 := by
    intro P n
    cases n with
    | zero => rfl
    | succ n => simp only [refRods3, refRod3, cRef3, refFull3, refForces3, Function.update_self]; rfl
  have hno : ∀ dx, Noticed3 ⟨8, 16, 8, 1, 1, 2, 8, 16, 4, false⟩ dx exBody3 exPos3 exPos3 := by
    intro dx l l' h1 h2
    rw [h1] at h2
    exact Or.inl (Except.ok.inj h2).symm
  have hin0 : Inside3 8 16 8 0 1 exBody3 exPos3 := by
    intro i hI G hG
    have := hin i hI G hG
    unfold Away3 at this ⊢
    push_cast at this ⊢; omega
  refine ⟨S, hS, rfl, ho, hol, by norm_num, by norm_num, by norm_num, by norm_num, hK, hKd, hK0, by norm_num, by norm_num, fun n _ => ⟨fun j _ => ⟨?_, ?_⟩, ?_, ?_⟩⟩
  · change Inside3 8 16 8 0 (8 / ((8 : ℕ) : ℝ)) exBody3 exPos3
    rw [e]; exact hin0
  · rw [hsub _ _ _ _ _ (hlast _ _)]; exact hno _
  · change Inside3 8 16 8 1 (8 / ((8 : ℕ) : ℝ)) exBody3 exPos3
    rw [e]; exact hin
  · rw [hsub _ _ _ _ _ (hlast _ _)]; exact hno _

/-- at rest -/
def AtRest3 (b : B) (r : RefC3 B) : Prop := r.F = ⟨fun _ => 0, fun _ _ => 0, fun _ _ => 0⟩ ∧ r.Φ = (fun _ _ => 0) ∧ (r.hist b).P = (fun _ _ => 0) ∧ (r.hist b).V = fun _ _ => 0

/-- without a free stream and with a body that is at rest, everything stays at rest -/
theorem rods_rest3 {P : Params3} {K : Kern3} (hK : K.Null) {cfl tol : ℝ} {A : B → Ib3} {R : Stepper σ} (hR : ∀ s, R.vel s = fun _ _ => 0) {b : B} {rodDt pre : ℝ} {q : RefC3 B × σ}
    (hq : AtRest3 b q.1) (n : ℕ) : AtRest3 b (refRods3 P K cfl tol A R b rodDt pre (fun _ _ => 0) q n).1 := by
  have hmis : ∀ X, mismatch3 P.dx (A b) (fun _ _ => 0) X (fun _ _ => 0) = fun _ _ => 0 := by
    intro X; funext k i
    unfold mismatch3 interp3
    simp
  have hsp : ∀ X, refSpread3 P.dx (A b) X (fun _ _ => 0) (fun _ _ => 0) = fun _ _ => 0 := by
    intro X; funext j G
    unfold refSpread3 share3n
    simp
  have hfo : ∀ dt, refForcing3 P K dt (fun _ => 0) (fun _ _ => 0) ⟨fun _ => 0, fun _ _ => 0, fun _ _ => 0⟩ = ⟨fun _ => 0, fun _ _ => 0, fun _ _ => 0⟩ := by
    intro dt
    have q := refStep3_zero "navier_stokes_with_forcing" P hK dt (fun _ => 0) (fun _ _ => 0)
    simpa [refStep3, isNS] using q
  have hsub : ∀ h rt (q : RefC3 B × σ) m, AtRest3 b q.1 → AtRest3 b (refSubs3 P K cfl tol A R b h rt m q).1 := by
    intro h rt q m hq
    induction m with
    | zero => exact hq
    | succ m ih =>
      simp only [refSubs3, refSub3, hR]
      generalize refSubs3 P K cfl tol A R b h rt m q = q' at ih ⊢
      obtain ⟨h1, h2, h3, h4⟩ := ih
      unfold AtRest3
      simp only [cRef3, refForces3, refLag3, Function.update_self, h1, h2, h3, hmis, mul_zero, add_zero]
      trivial
  induction n with
  | zero => exact hq
  | succ n ih =>
    simp only [refRods3, refRod3, hR]
    generalize refRods3 P K cfl tol A R b rodDt pre (fun _ _ => 0) q n = q1 at ih ⊢
    have hq' := hsub (localDt (rodDt3 P cfl tol pre q1) rodDt) q1.1.time q1 (rodSteps (rodDt3 P cfl tol pre q1) rodDt) ih
    generalize refSubs3 P K cfl tol A R b (localDt (rodDt3 P cfl tol pre q1) rodDt) q1.1.time (rodSteps (rodDt3 P cfl tol pre q1) rodDt) q1 = q' at hq' ⊢
    obtain ⟨h1, h2, h3, h4⟩ := hq'
    unfold AtRest3
    simp only [cRef3, refFull3, refForces3, refLag3, Function.update_self, h1, h2, h3, hmis, mul_zero, add_zero, hsp, hfo]
    trivial

/-- the bound on the velocities that `rodCase3_report` asks for -/
example {P : Params3} {K : Kern3} (hK : K.Null) {cfl tol : ℝ} {A : B → Ib3} {b : B} {X0 : B → LagField ℝ} {t0 : B → ℝ} (n : ℕ) (G : C3) (s : ℕ) :
    |(refRods3 P K cfl tol A (⟨fun _ _ m => m, fun _ _ _ m => m + 1, fun _ _ m => m, fun _ => exPos3, fun _ _ _ => 0⟩ : Stepper ℕ) b 0.01 0.5 (fun _ _ => 0)
      (refStart3 P.dx X0 t0 0 (fun _ _ _ => 0) (fun _ _ _ _ => 0) (fun _ _ _ _ => 0), s) n).1.F.u 0 G| ≤ 0 := by
  rw [(rods_rest3 hK (fun _ => rfl) ⟨rfl, rfl, rfl, rfl⟩ n).1]
  simp

end Sopht
