import Verif.FixedBody
import Verif.Validate2D

/-!
# Flow past a rod, end to end (2D)

examples/2d_examples/FlowPastRodCase/flow_past_rod.py:210-300: the time loop with its two timers, what is logged and recorded in it, and a body that moves under the forces of the flow.
The body is that on the master rank: the other ranks have a copy that feels no forces and that nothing is read from (immersed_body_forcing_grid.py:75-106).
-/

namespace Sopht

variable {B : Type} [DecidableEq B] {σ Ω : Type}

section
variable {T : Cart2} [NeZero T.gy] [NeZero T.gx]

/-- Sub-step number `j` at time `rt` (flow_past_rod.py:280-284): the body moves, asks the interactor for the forces on its nodes, and goes on with them; `interactor.time_step(h)`. -/
noncomputable def rodSub2 (C : Cfg2) (K : Kern2) (tol : ℝ) (A : B → Ib2) (o : ℕ → CScheds2) (R : Stepper σ) (b : B) (h rt : ℝ) (j : ℕ) (q : CSt2 T B × σ) : (CSt2 T B × σ) × Option PyErr :=
  match cRun2 C K tol A o (.forces b (R.pos (R.move rt h q.2)) (R.vel (R.move rt h q.2)) fun _ => .advance b h .stop) (2 * j) q.1 with
  | (S, some e) => ((S, q.2), some e)
  | (S, none) => ((S, R.move' rt h (R.kick rt h (forcesOf 2 (A b).N (S.ib b).v) (R.move rt h q.2))), none)

/-- `n` sub-steps (flow_past_rod.py:278-284). -/
noncomputable def rodSubs2 (C : Cfg2) (K : Kern2) (tol : ℝ) (A : B → Ib2) (o : ℕ → CScheds2) (R : Stepper σ) (b : B) (h rt : ℝ) : ℕ → CSt2 T B × σ → (CSt2 T B × σ) × Option PyErr
  | 0, q => (q, none)
  | n + 1, q => match rodSubs2 C K tol A o R b h rt n q with
    | (q', some e) => (q', some e)
    | (q', none) => rodSub2 C K tol A o R b h (rt + n * h) n q'

/-- An iteration (flow_past_rod.py:271-296): stable time step, sub-steps of the body, interaction, flow step.  `o i` has the messages of iteration `i`. -/
noncomputable def rodBody2 (C : Cfg2) (K : Kern2) (tol : ℝ) (A : B → Ib2) (o : ℕ → ℕ → CScheds2) (R : Stepper σ) (b : B) (rodDt pre : ℝ) (fs : ℝ → Fin 2 → ℝ) (i : ℕ) (q : CSt2 T B × σ) :
    (CSt2 T B × σ) × Option PyErr :=
  match stableDt2 C tol pre q.1.sim with
  | (S, .error e) => (({ q.1 with sim := S }, q.2), some e)
  | (S, .ok dt) => match rodSubs2 C K tol A (o i) R b (localDt dt rodDt) q.1.sim.time (rodSteps dt rodDt) ({ q.1 with sim := S }, q.2) with
    | (q', some e) => (q', some e)
    | (q', none) =>
      let r := cRun2 C K tol A (o i) (.interact b (R.pos q'.2) (R.vel q'.2) (.flow dt (fs q.1.sim.time) .stop)) (2 * rodSteps dt rodDt) q'.1
      ((r.1, q'.2), r.2)

/-- What is logged and plotted at a snapshot (flow_past_rod.py:213-247): time, largest vorticity, deviation, positions of the nodes. -/
structure RodShot where
  time : ℝ
  maxVort : Except PyErr ℝ
  deviation : ℝ
  nodes : LagField ℝ

omit [NeZero T.gy] [NeZero T.gx] [DecidableEq B] in
/-- A snapshot (flow_past_rod.py:213-247). -/
noncomputable def rodShot2 (C : Cfg2) (A : B → Ib2) (R : Stepper σ) (b : B) (q : CSt2 T B × σ) : RodShot :=
  ⟨q.1.sim.time, maxVorticity2 C q.1.sim, gridDeviation 2 (ranks2 T) (A b).N (q.1.ib b).v (A b).m, R.pos q.2⟩

/-- The loop with its timers (flow_past_rod.py:210-300).  `obs`: what is recorded of the body (flow_past_rod.py:258-268: the place of its tip). -/
noncomputable def rodCase2 (C : Cfg2) (K : Kern2) (tol : ℝ) (A : B → Ib2) (o : ℕ → ℕ → CScheds2) (R : Stepper σ) (b : B) (rodDt pre : ℝ) (fs : ℝ → Fin 2 → ℝ) (foto data : ℝ) (obs : σ → Ω) :
    ℕ → ((CSt2 T B × σ) × ℝ × List RodShot) × ℝ × List (ℝ × Ω) → (((CSt2 T B × σ) × ℝ × List RodShot) × ℝ × List (ℝ × Ω)) × Option PyErr :=
  snapBody false data (fun s => (s.1.1.sim.time, obs s.1.2)) (fun _ s => (stableDt2 C tol pre s.1.1.sim).2)
    (snapBody false foto (rodShot2 C A R b) (fun _ q => (stableDt2 C tol pre q.1.sim).2) (rodBody2 C K tol A o R b rodDt pre fs))

end

/-! ## Specification: flow and body on the global grid -/

/-- A sub-step. -/
noncomputable def refSub2 (P : Params2) (K : Kern2) (cfl tol : ℝ) (A : B → Ib2) (R : Stepper σ) (b : B) (h rt : ℝ) (q : RefC2 B × σ) : RefC2 B × σ :=
  let s := R.move rt h q.2
  let r := cRef2 P K cfl tol A (.forces b (R.pos s) (R.vel s) fun _ => .advance b h .stop) q.1
  (r, R.move' rt h (R.kick rt h (refForceField (A b).N (r.hist b)) s))

/-- `n` sub-steps. -/
noncomputable def refSubs2 (P : Params2) (K : Kern2) (cfl tol : ℝ) (A : B → Ib2) (R : Stepper σ) (b : B) (h rt : ℝ) : ℕ → RefC2 B × σ → RefC2 B × σ
  | 0, q => q
  | n + 1, q => refSub2 P K cfl tol A R b h (rt + n * h) (refSubs2 P K cfl tol A R b h rt n q)

/-- The time step of an iteration. -/
noncomputable def rodDt2 (P : Params2) (cfl tol pre : ℝ) (q : RefC2 B × σ) : ℝ := refDt2 P cfl tol q.1.F (.stable pre)

/-- An iteration. -/
noncomputable def refRod2 (P : Params2) (K : Kern2) (cfl tol : ℝ) (A : B → Ib2) (R : Stepper σ) (b : B) (rodDt pre : ℝ) (fs : ℝ → Fin 2 → ℝ) (q : RefC2 B × σ) : RefC2 B × σ :=
  let dt := rodDt2 P cfl tol pre q
  let q' := refSubs2 P K cfl tol A R b (localDt dt rodDt) q.1.time (rodSteps dt rodDt) q
  (cRef2 P K cfl tol A (.interact b (R.pos q'.2) (R.vel q'.2) (.flow dt (fs q.1.time) .stop)) q'.1, q'.2)

/-- Flow and body after `n` iterations. -/
noncomputable def refRods2 (P : Params2) (K : Kern2) (cfl tol : ℝ) (A : B → Ib2) (R : Stepper σ) (b : B) (rodDt pre : ℝ) (fs : ℝ → Fin 2 → ℝ) (q : RefC2 B × σ) : ℕ → RefC2 B × σ
  | 0 => q
  | n + 1 => refRod2 P K cfl tol A R b rodDt pre fs (refRods2 P K cfl tol A R b rodDt pre fs q n)

/-- What a snapshot shows. -/
noncomputable def refShot2 (P : Params2) (A : B → Ib2) (R : Stepper σ) (b : B) (q : RefC2 B × σ) : RodShot :=
  ⟨q.1.time, .ok (maxCell2 P.gy P.gx q.1.F.om), refDeviation 2 (A b).N (q.1.hist b), R.pos q.2⟩

/-- In an iteration from `q` the body stays inside, and the ranks notice when its nodes change hands. -/
structure RodStep2 (T : Cart2) (P : Params2) (K : Kern2) (cfl tol : ℝ) (A : B → Ib2) (R : Stepper σ) (b : B) (rodDt pre : ℝ) (q : RefC2 B × σ) : Prop where
  sub : let dt := rodDt2 P cfl tol pre q
    let h := localDt dt rodDt
    ∀ j < rodSteps dt rodDt,
      let q' := refSubs2 P K cfl tol A R b h q.1.time j q
      let X := R.pos (R.move (q.1.time + j * h) h q'.2)
      Inside2 P.gy P.gx 0 P.dx (A b) X ∧ Noticed2 T P.dx (A b) (q'.1.lastX b) X
  full : let dt := rodDt2 P cfl tol pre q
    let q' := refSubs2 P K cfl tol A R b (localDt dt rodDt) q.1.time (rodSteps dt rodDt) q
    Inside2 P.gy P.gx 1 P.dx (A b) (R.pos q'.2) ∧ Noticed2 T P.dx (A b) (q'.1.lastX b) (R.pos q'.2)

/-! ## Lemmas -/

theorem snapBody_next {S E V : Type} {shot : S → V} {dtOf : ℕ → S → Except E ℝ} {core : ℕ → S → S × Option E} {it : ℕ → S} {dt : ℕ → ℝ} {i : ℕ} (hb : core i (it i) = (it (i + 1), none))
    (hdt : dtOf i (it i) = .ok (dt i)) (strict : Bool) (limit : ℝ) {v : ℕ → V} (hv : shot (it i) = v i) :
    snapBody strict limit shot dtOf core i (it i, snapSeq strict limit v dt i) = ((it (i + 1), snapSeq strict limit v dt (i + 1)), none) := by
  simp only [snapBody, hdt, hb, hv]
  rfl

section
variable {T : Cart2} [NeZero T.gy] [NeZero T.gx] {gy gx py px : ℕ} {C : Cfg2} {K : Kern2} {tol : ℝ} {A : B → Ib2} {R : Stepper σ} {b : B}

/-- The facts about the simulator used in every call. -/
structure Ready2 (gy gx py px : ℕ) (T : Cart2) (C : Cfg2) (K : Kern2) (tol : ℝ) (A : B → Ib2) : Prop where
  cart : mkCart2 gy gx py px false = .ok T
  good : Good2 gy gx T C
  dbl : ∃ gn, doublingInit2 gn T = .ok C.d
  type : C.flowType = "navier_stokes_with_forcing"
  cfl : 0 < C.cfl
  nu : 0 ≤ C.nu
  tol : 0 < tol
  kern : K.Local
  zero : ∀ a, K.upd a (fun _ _ => 0) = 0
  ok : ∀ b, (A b).Ok

theorem Ready2.run (h : Ready2 gy gx py px T C K tol A) {o : ℕ → CScheds2} (ho : ∀ n, (o n).Done T C.d) (p : Prog2 B) (n : ℕ) {r : RefC2 B} {S : CSt2 T B} (hr : CHolds2 gy gx C A r S)
    (hp : Proper2 (C.params gy gx) K C.cfl tol A p r) (ht : Tracked2 T (C.params gy gx) K C.cfl tol A p r) :
    ∃ S', cRun2 C K tol A o p n S = (S', none) ∧ CHolds2 gy gx C A (cRef2 (C.params gy gx) K C.cfl tol A p r) S' := by
  obtain ⟨gn, hd⟩ := h.dbl
  obtain ⟨q1, q2⟩ := cRun2_holds h.cart h.good hd h.type h.cfl.le h.tol h.kern h.zero h.ok ho p n hr hp ht
  exact ⟨_, Prod.ext rfl q1, q2⟩

theorem rodSub2_holds (hR : Ready2 gy gx py px T C K tol A) {o : ℕ → CScheds2} (ho : ∀ n, (o n).Done T C.d) (hauto : (A b).auto = true) (h rt : ℝ) (j : ℕ) {r : RefC2 B} {S : CSt2 T B} (s : σ)
    (hr : CHolds2 gy gx C A r S) (hin : Inside2 gy gx 0 (C.params gy gx).dx (A b) (R.pos (R.move rt h s))) (hn : Noticed2 T (C.params gy gx).dx (A b) (r.lastX b) (R.pos (R.move rt h s))) :
    ∃ S', rodSub2 C K tol A o R b h rt j (S, s) = ((S', (refSub2 (C.params gy gx) K C.cfl tol A R b h rt (r, s)).2), none) ∧
      CHolds2 gy gx C A (refSub2 (C.params gy gx) K C.cfl tol A R b h rt (r, s)).1 S' := by
  obtain ⟨S', q1, q2⟩ := hR.run ho (.forces b (R.pos (R.move rt h s)) (R.vel (R.move rt h s)) fun _ => .advance b h .stop) (2 * j) hr ⟨hin, .inl hauto, trivial⟩ ⟨hn, trivial⟩
  refine ⟨S', ?_, q2⟩
  have hforce : forcesOf 2 (A b).N (S'.ib b).v = refForceField (A b).N ((refSub2 (C.params gy gx) K C.cfl tol A R b h rt (r, s)).1.hist b) := by
    funext k i
    unfold forcesOf refForceField
    split
    · rename_i hki
      exact (q2.ib b).stores.force k hki.1 i hki.2
    · rfl
  unfold rodSub2
  dsimp only
  rw [q1]
  dsimp only
  rw [hforce]
  rfl

theorem rodSubs2_holds (hR : Ready2 gy gx py px T C K tol A) {o : ℕ → CScheds2} (ho : ∀ n, (o n).Done T C.d) (hauto : (A b).auto = true) (h rt : ℝ) {r : RefC2 B} {S : CSt2 T B} (s : σ)
    (hr : CHolds2 gy gx C A r S) (n : ℕ)
    (hsub : ∀ j < n, let q' := refSubs2 (C.params gy gx) K C.cfl tol A R b h rt j (r, s)
      let X := R.pos (R.move (rt + j * h) h q'.2)
      Inside2 gy gx 0 (C.params gy gx).dx (A b) X ∧ Noticed2 T (C.params gy gx).dx (A b) (q'.1.lastX b) X) :
    ∃ S', rodSubs2 C K tol A o R b h rt n (S, s) = ((S', (refSubs2 (C.params gy gx) K C.cfl tol A R b h rt n (r, s)).2), none) ∧
      CHolds2 gy gx C A (refSubs2 (C.params gy gx) K C.cfl tol A R b h rt n (r, s)).1 S' := by
  induction n with
  | zero => exact ⟨S, rfl, hr⟩
  | succ n ih =>
    obtain ⟨S1, q1, q2⟩ := ih fun j hj => hsub j (by omega)
    obtain ⟨p1, p2⟩ := hsub n (by omega)
    obtain ⟨S2, q3, q4⟩ := rodSub2_holds hR ho hauto h (rt + n * h) n (refSubs2 (C.params gy gx) K C.cfl tol A R b h rt n (r, s)).2 q2 p1 p2
    refine ⟨S2, ?_, q4⟩
    simp only [rodSubs2]
    rw [q1]
    exact q3

theorem rodBody2_holds (hR : Ready2 gy gx py px T C K tol A) {o : ℕ → ℕ → CScheds2} (ho : ∀ i n, (o i n).Done T C.d) (hauto : (A b).auto = true) {rodDt pre : ℝ} (fs : ℝ → Fin 2 → ℝ)
    (i : ℕ) {q : RefC2 B × σ} {S : CSt2 T B} (hr : CHolds2 gy gx C A q.1 S) (hs : RodStep2 T (C.params gy gx) K C.cfl tol A R b rodDt pre q) :
    ∃ S', rodBody2 C K tol A o R b rodDt pre fs i (S, q.2) = ((S', (refRod2 (C.params gy gx) K C.cfl tol A R b rodDt pre fs q).2), none) ∧
      CHolds2 gy gx C A (refRod2 (C.params gy gx) K C.cfl tol A R b rodDt pre fs q).1 S' ∧
      (stableDt2 C tol pre S.sim).2 = .ok (rodDt2 (C.params gy gx) C.cfl tol pre q) := by
  obtain ⟨a1, a2, a3⟩ := pickDt2_holds hR.cart hR.good hR.cfl.le hR.tol hr.sim (.stable pre)
  have hst : ∃ s1 : Sim2 T, stableDt2 C tol pre S.sim = (s1, .ok (rodDt2 (C.params gy gx) C.cfl tol pre q)) ∧ s1 = { S.sim with
      buf := (stableDt2 C tol pre S.sim).1.buf } := by
    refine ⟨_, ?_, rfl⟩
    unfold pickDt2 at a1
    simp only at a1
    unfold rodDt2
    rw [← a1]; rfl
  obtain ⟨s1, hst, hs1⟩ := hst
  have hr' : CHolds2 gy gx C A q.1 { S with
      sim := s1 } := by
    subst hs1
    exact ⟨⟨hr.sim.om, hr.sim.u, hr.sim.green⟩, hr.time, hr.force, hr.conf, hr.fresh, hr.ib, hr.log⟩
  obtain ⟨S1, b1, b2⟩ := rodSubs2_holds hR (ho i) hauto (localDt (rodDt2 (C.params gy gx) C.cfl tol pre q) rodDt) q.1.time q.2 hr' (rodSteps (rodDt2 (C.params gy gx) C.cfl tol pre q) rodDt) hs.sub
  obtain ⟨p1, p2⟩ := hs.full
  set q' := refSubs2 (C.params gy gx) K C.cfl tol A R b (localDt (rodDt2 (C.params gy gx) C.cfl tol pre q) rodDt) q.1.time (rodSteps (rodDt2 (C.params gy gx) C.cfl tol pre q) rodDt) q with hq'
  obtain ⟨S2, c1, c2⟩ := hR.run (ho i) (.interact b (R.pos q'.2) (R.vel q'.2) (.flow (rodDt2 (C.params gy gx) C.cfl tol pre q) (fs q.1.time) .stop))
    (2 * rodSteps (rodDt2 (C.params gy gx) C.cfl tol pre q) rodDt) b2 ⟨p1, .inl hauto, trivial⟩ ⟨p2, trivial⟩
  refine ⟨S2, ?_, c2, by rw [hst]⟩
  unfold rodBody2
  dsimp only
  rw [hst]
  dsimp only
  have htime : S.sim.time = q.1.time := hr.time
  rw [htime]
  have b1' : rodSubs2 C K tol A (o i) R b (localDt (rodDt2 (C.params gy gx) C.cfl tol pre q) rodDt) q.1.time (rodSteps (rodDt2 (C.params gy gx) C.cfl tol pre q) rodDt) ({ S with
      sim := s1 }, q.2) = ((S1, q'.2), none) := b1
  rw [b1']
  dsimp only
  have c1' : cRun2 C K tol A (o i) (.interact b (R.pos q'.2) (R.vel q'.2) (.flow (rodDt2 (C.params gy gx) C.cfl tol pre q) (fs q.1.time) .stop))
    (2 * rodSteps (rodDt2 (C.params gy gx) C.cfl tol pre q) rodDt) S1 = (S2, none) := c1
  exact congrArg (fun r : CSt2 T B × Option PyErr => (((r.1, q'.2), r.2) : (CSt2 T B × σ) × Option PyErr)) c1'

omit [DecidableEq B] in
theorem rodShot2_holds (hR : Ready2 gy gx py px T C K tol A) {q : RefC2 B × σ} {S : CSt2 T B} (hr : CHolds2 gy gx C A q.1 S) :
    rodShot2 C A R b (S, q.2) = refShot2 (C.params gy gx) A R b q := by
  obtain ⟨e1, e2, -⟩ := construct2_ok hR.cart
  have hgy0 : 0 < gy := by rw [← e1]; exact Nat.pos_of_ne_zero (NeZero.ne _)
  have hgx0 : 0 < gx := by rw [← e2]; exact Nat.pos_of_ne_zero (NeZero.ne _)
  have hM := maxCell2_greatest hgy0 hgx0 q.1.F.om
  have hset : {x | ∃ G, Dom2 gy gx G ∧ x = q.1.F.om G} = {x | ∃ G, InDomain2 T G ∧ x = q.1.F.om G} := by
    ext x
    exact ⟨fun ⟨G, hG, hx⟩ => ⟨G, (dom2_iff hR.cart G).1 hG, hx⟩, fun ⟨G, hG, hx⟩ => ⟨G, (dom2_iff hR.cart G).2 hG, hx⟩⟩
  rw [hset] at hM
  have h1 : maxVorticity2 C S.sim = .ok (maxCell2 gy gx q.1.F.om) :=
    maxVorticity2_global hR.cart C (by rw [hR.good.g]; omega) (by rw [hR.type]; simp) _ (by rw [hR.good.g]; exact holdsX2_blocks hr.sim.om) hM
  have h2 : gridDeviation 2 (ranks2 T) (A b).N (S.ib b).v (A b).m = refDeviation 2 (A b).N (q.1.hist b) :=
    gridDeviation_rms ((A b).vbf T (C.params gy gx).dx) (ranks2_nodup T) (hr.ib b).stores (A b).m
  unfold rodShot2 refShot2
  dsimp only
  rw [h1, h2, hr.time]
  rfl

end

/-! ## Times -/

section
variable {P : Params2} {K : Kern2} {cfl tol : ℝ} {A : B → Ib2} {R : Stepper σ} {b : B}

theorem refSubs2_clock (h rt : ℝ) (q : RefC2 B × σ) (n : ℕ) :
    (refSubs2 P K cfl tol A R b h rt n q).1.time = q.1.time ∧ ((refSubs2 P K cfl tol A R b h rt n q).1.hist b).t = (q.1.hist b).t + n * h := by
  induction n with
  | zero => simp [refSubs2]
  | succ n ih =>
    obtain ⟨i1, i2⟩ := ih
    refine ⟨i1, ?_⟩
    simp only [refSubs2, refSub2, cRef2, refForces2, refLag2, Function.update_self]
    rw [i2]
    push_cast; ring

theorem refRod2_clock {rodDt pre : ℝ} (fs : ℝ → Fin 2 → ℝ) (q : RefC2 B × σ) (hdt : 0 < rodDt2 P cfl tol pre q) (hrod : 0 < rodDt) :
    (refRod2 P K cfl tol A R b rodDt pre fs q).1.time = q.1.time + rodDt2 P cfl tol pre q ∧
      ((refRod2 P K cfl tol A R b rodDt pre fs q).1.hist b).t = (q.1.hist b).t + rodDt2 P cfl tol pre q := by
  obtain ⟨i1, i2⟩ := refSubs2_clock (P := P) (K := K) (cfl := cfl) (tol := tol) (A := A) (R := R) (b := b) (localDt (rodDt2 P cfl tol pre q) rodDt) q.1.time q
    (rodSteps (rodDt2 P cfl tol pre q) rodDt)
  rw [localDt_sum hdt hrod] at i2
  refine ⟨congrArg (· + rodDt2 P cfl tol pre q) i1, ?_⟩
  simp only [refRod2, cRef2, refFull2, refForces2, refLag2, Function.update_self]
  exact i2

end

/-! ## What a user can rely on -/

section
variable {T : Cart2} [NeZero T.gy] [NeZero T.gx]

/-- All that is assumed: simulator and interactors constructed (`Setup2`), automatic ghost exchange (the default), all messages delivered, constants that make sense; and until `tEnd`, in the
run on the global grid, the body stays inside and the ranks notice when its nodes change hands. -/
structure RodFit2 (a : SimArgs2) (xr nu cfl tol : ℝ) (K : Kern2) (A : B → Ib2) (X0 : B → LagField ℝ) (t0 : B → ℝ) (time : ℝ) (om : ℝ → ℝ → ℝ) (u : Fin 2 → ℝ → ℝ → ℝ) (S : CSt2 T B)
    (o : ℕ → ℕ → CScheds2) (b : B) (R : Stepper σ) (rodDt pre : ℝ) (fs : ℝ → Fin 2 → ℝ) (s : σ) (tEnd : ℝ) : Prop where
  setup : Setup2 a xr nu cfl A X0 t0 time om u S
  auto : (A b).auto = true
  sched : ∀ i n, (o i n).Done T (simCfg2 a T xr nu cfl).d
  hxr : 0 < xr
  hnu : 0 ≤ nu
  hcfl : 0 < cfl
  htol : 0 < tol
  kern : K.Local
  zero : ∀ r, K.upd r (fun _ _ => 0) = 0
  hrodDt : 0 < rodDt
  hpre : 0 < pre
  inside : let P : Params2 := ⟨a.gy, a.gx, xr, nu, widthOf a.width, a.freeStream⟩
    ∀ n, (refRods2 P K cfl tol A R b rodDt pre fs (refStart2 (xr / a.gx) X0 t0 time om u, s) n).1.time < tEnd →
      RodStep2 T P K cfl tol A R b rodDt pre (refRods2 P K cfl tol A R b rodDt pre fs (refStart2 (xr / a.gx) X0 t0 time om u, s) n)

variable {a : SimArgs2} {xr nu cfl tol : ℝ} {K : Kern2} {A : B → Ib2} {X0 : B → LagField ℝ} {t0 : B → ℝ} {time : ℝ} {om : ℝ → ℝ → ℝ} {u : Fin 2 → ℝ → ℝ → ℝ} {S : CSt2 T B}
  {o : ℕ → ℕ → CScheds2} {b : B} {R : Stepper σ} {rodDt pre : ℝ} {fs : ℝ → Fin 2 → ℝ} {s : σ} {tEnd : ℝ}

theorem RodFit2.start (h : RodFit2 a xr nu cfl tol K A X0 t0 time om u S o b R rodDt pre fs s tEnd) :
    Ready2 a.gy a.gx a.py a.px T (simCfg2 a T xr nu cfl) K tol A ∧ CHolds2 a.gy a.gx (simCfg2 a T xr nu cfl) A (refStart2 (xr / a.gx) X0 t0 time om u) S := by
  obtain ⟨hT, -⟩ := simCheck2_cart' h.setup.fit.built
  obtain ⟨-, q2, q3⟩ := coupled2_holds h.hxr h.hcfl.le h.htol h.kern h.zero h.setup (h.sched 0) .stop trivial trivial
  refine ⟨⟨hT, h.setup.fit.good h.hxr nu cfl, ?_, h.setup.flowType, h.hcfl, h.hnu, h.htol, h.kern, h.zero, q3⟩, q2⟩
  obtain ⟨gn, hd⟩ := h.setup.fit.dbl xr nu cfl (by change a.flowType ≠ _; rw [h.setup.flowType]; simp)
  exact ⟨gn, hd⟩

/-- The run, with what it records spelled out. -/
theorem rodCase2_run (h : RodFit2 a xr nu cfl tol K A X0 t0 time om u S o b R rodDt pre fs s tEnd) (foto data : ℝ) (obs : σ → Ω) {V : ℝ}
    (hV : ∀ n G, (refRods2 ⟨a.gy, a.gx, xr, nu, widthOf a.width, a.freeStream⟩ K cfl tol A R b rodDt pre fs (refStart2 (xr / a.gx) X0 t0 time om u, s) n).1.time < tEnd → Dom2 a.gy a.gx G →
      |(refRods2 ⟨a.gy, a.gx, xr, nu, widthOf a.width, a.freeStream⟩ K cfl tol A R b rodDt pre fs (refStart2 (xr / a.gx) X0 t0 time om u, s) n).1.F.u 0 G| +
      |(refRods2 ⟨a.gy, a.gx, xr, nu, widthOf a.width, a.freeStream⟩ K cfl tol A R b rodDt pre fs (refStart2 (xr / a.gx) X0 t0 time om u, s) n).1.F.u 1 G| ≤ V) :
    let P : Params2 := ⟨a.gy, a.gx, xr, nu, widthOf a.width, a.freeStream⟩
    let ref := refRods2 P K cfl tol A R b rodDt pre fs (refStart2 (xr / a.gx) X0 t0 time om u, s)
    let run := While (fun q => q.1.1.1.sim.time < tEnd) (rodCase2 (simCfg2 a T xr nu cfl) K tol A o R b rodDt pre fs foto data obs) 0 (((S, s), 0, []), 0, [])
    let dts := fun n => rodDt2 P cfl tol pre (ref n)
    (∀ n, 0 < dts n) ∧ (∀ n, (ref (n + 1)).1.time = (ref n).1.time + dts n) ∧ ∃ N S',
      run N ((((S', (ref N).2), snapSeq false foto (fun n => refShot2 P A R b (ref n)) dts N), snapSeq false data (fun n => ((ref n).1.time, obs (ref n).2)) dts N), none) ∧
      CHolds2 a.gy a.gx (simCfg2 a T xr nu cfl) A (ref N).1 S' ∧
      N ≤ ⌈(tEnd - time) / leastDt 4 cfl tol (xr / a.gx) nu pre V⌉₊ ∧ (∀ n < N, (ref n).1.time < tEnd) ∧ tEnd ≤ (ref N).1.time ∧
      (S'.ib b).v.time - t0 b = (ref N).1.time - time := by
  intro P ref run dts
  obtain ⟨hR, h0⟩ := h.start
  obtain ⟨e1, e2, -⟩ := construct2_ok hR.cart
  have hgy0 : 0 < a.gy := by rw [← e1]; exact Nat.pos_of_ne_zero (NeZero.ne _)
  have hgx0 : 0 < a.gx := by rw [← e2]; exact Nat.pos_of_ne_zero (NeZero.ne _)
  have hdx : 0 < xr / a.gx := div_pos h.hxr (by exact_mod_cast hgx0)
  have hmax : ∀ n, 0 ≤ maxVel2 a.gy a.gx (ref n).1.F.u := fun n => by
    obtain ⟨⟨G, hG, hGe⟩, -⟩ := maxVel2_greatest hgy0 hgx0 (ref n).1.F.u
    rw [hGe]; positivity
  have hdt : ∀ n, 0 < rodDt2 P cfl tol pre (ref n) := fun n => leastDt_pos (d := 4) (by norm_num) h.hcfl h.htol hdx h.hnu h.hpre (hmax n)
  have hclock : ∀ n, (ref (n + 1)).1.time = (ref n).1.time + rodDt2 P cfl tol pre (ref n) ∧ ((ref (n + 1)).1.hist b).t = ((ref n).1.hist b).t + rodDt2 P cfl tol pre (ref n) :=
    fun n => refRod2_clock fs (ref n) (hdt n) h.hrodDt
  have hstep : ∀ n, (ref n).1.time < tEnd → (ref n).1.time + leastDt 4 cfl tol (xr / a.gx) nu pre V ≤ (ref (n + 1)).1.time ∧ 0 < leastDt 4 cfl tol (xr / a.gx) nu pre V := by
    intro n hn
    obtain ⟨⟨G, hG, hGe⟩, -⟩ := maxVel2_greatest hgy0 hgx0 (ref n).1.F.u
    have hMV : maxVel2 a.gy a.gx (ref n).1.F.u ≤ V := by rw [hGe]; exact hV n G hn hG
    refine ⟨?_, leastDt_pos (by norm_num) h.hcfl h.htol hdx h.hnu h.hpre ((hmax n).trans hMV)⟩
    rw [(hclock n).1]
    have q := leastDt_mono (d := 4) (nu := nu) h.hcfl h.htol hdx h.hpre (hmax n) hMV
    have q' : rodDt2 P cfl tol pre (ref n) = leastDt 4 cfl tol (xr / a.gx) nu pre (maxVel2 a.gy a.gx (ref n).1.F.u) := rfl
    linarith
  obtain ⟨N, hN, hE, hB⟩ := clock_reaches (t := fun n => (ref n).1.time) tEnd hstep
  -- the states
  have hex : ∃ st : ℕ → CSt2 T B, st 0 = S ∧ (∀ n ≤ N, CHolds2 a.gy a.gx (simCfg2 a T xr nu cfl) A (ref n).1 (st n)) ∧
      ∀ n < N, rodBody2 (simCfg2 a T xr nu cfl) K tol A o R b rodDt pre fs n (st n, (ref n).2) = ((st (n + 1), (ref (n + 1)).2), none) ∧
        (stableDt2 (simCfg2 a T xr nu cfl) tol pre (st n).sim).2 = .ok (rodDt2 P cfl tol pre (ref n)) := by
    let f : ℕ → CSt2 T B := fun n => Nat.rec S (fun n x => (rodBody2 (simCfg2 a T xr nu cfl) K tol A o R b rodDt pre fs n (x, (ref n).2)).1.1) n
    have key : ∀ n, n ≤ N → CHolds2 a.gy a.gx (simCfg2 a T xr nu cfl) A (ref n).1 (f n) := by
      intro n
      induction n with
      | zero => intro _; exact h0
      | succ n ih =>
        intro hn
        obtain ⟨S', q1, q2, -⟩ := rodBody2_holds hR h.sched h.auto fs n (ih (by omega)) (h.inside n (hB n (by omega)))
        have : f (n + 1) = S' := congrArg (fun r : (CSt2 T B × σ) × Option PyErr => r.1.1) q1
        rw [this]; exact q2
    refine ⟨f, rfl, key, fun n hn => ?_⟩
    obtain ⟨S', q1, -, q3⟩ := rodBody2_holds hR h.sched h.auto fs n (key n hn.le) (h.inside n (hB n hn))
    have : f (n + 1) = S' := congrArg (fun r : (CSt2 T B × σ) × Option PyErr => r.1.1) q1
    rw [this]
    exact ⟨q1, q3⟩
  obtain ⟨st, hs0, hst, hnext⟩ := hex
  have hrun : run N ((((st N, (ref N).2), snapSeq false foto (fun n => refShot2 P A R b (ref n)) dts N), snapSeq false data (fun n => ((ref n).1.time, obs (ref n).2)) dts N), none) := by
    have w := While.of_states (cond := fun q : ((CSt2 T B × σ) × ℝ × List RodShot) × ℝ × List (ℝ × Ω) => q.1.1.1.sim.time < tEnd)
      (body := rodCase2 (simCfg2 a T xr nu cfl) K tol A o R b rodDt pre fs foto data obs)
      (it := fun n => (((st n, (ref n).2), snapSeq false foto (fun n => refShot2 P A R b (ref n)) dts n), snapSeq false data (fun n => ((ref n).1.time, obs (ref n).2)) dts n))
      (Nat.zero_le N) (fun i _ hi => by change (st i).sim.time < tEnd; rw [(hst i hi.le).time]; exact hB i hi) (fun i _ hi => ?_)
      (by change ¬(st N).sim.time < tEnd; rw [(hst N le_rfl).time]; exact not_lt.2 hE)
    · change While _ _ 0 (((S, s), 0, []), 0, []) N _
      rw [← hs0]
      exact w
    · obtain ⟨n1, n2⟩ := hnext i hi
      have k1 := snapBody_next (shot := rodShot2 (simCfg2 a T xr nu cfl) A R b) (dtOf := fun _ q => (stableDt2 (simCfg2 a T xr nu cfl) tol pre q.1.sim).2)
        (it := fun n => (st n, (ref n).2)) (dt := dts) n1 n2 false foto (v := fun n => refShot2 P A R b (ref n)) (rodShot2_holds hR (hst i hi.le))
      exact snapBody_next (shot := fun s : (CSt2 T B × σ) × ℝ × List RodShot => (s.1.1.sim.time, obs s.1.2)) (dtOf := fun _ s => (stableDt2 (simCfg2 a T xr nu cfl) tol pre s.1.1.sim).2)
        (it := fun n => ((st n, (ref n).2), snapSeq false foto (fun n => refShot2 P A R b (ref n)) dts n)) (dt := dts) k1 n2 false data
        (v := fun n => ((ref n).1.time, obs (ref n).2)) (by dsimp only; rw [(hst i hi.le).time])
  have htimes : ∀ n, ((ref n).1.hist b).t - t0 b = (ref n).1.time - time := by
    intro n
    induction n with
    | zero =>
      change t0 b - t0 b = time - time
      ring
    | succ n ih => rw [(hclock n).1, (hclock n).2]; linarith
  refine ⟨hdt, fun n => (hclock n).1, N, st N, hrun, hst N le_rfl, hN, hB, hE, ?_⟩
  rw [← htimes, ((hst N le_rfl).ib b).stores.time]

/-- C109 (2D): the driver for the flow past a rod, while velocities stay bounded and the body stays inside: it ends on every decomposition, under every schedule of the messages; it raises
nothing; what it logs and plots and what it records of the body, and when, is what flow and body on the global grid give; so is the body at the end, and the fields in every cell; and the
clock of the interactor is in step with that of the flow. -/
theorem rodCase2_report (h : RodFit2 a xr nu cfl tol K A X0 t0 time om u S o b R rodDt pre fs s tEnd) (foto data : ℝ) (obs : σ → Ω) {V : ℝ}
    (hV : ∀ n G, (refRods2 ⟨a.gy, a.gx, xr, nu, widthOf a.width, a.freeStream⟩ K cfl tol A R b rodDt pre fs (refStart2 (xr / a.gx) X0 t0 time om u, s) n).1.time < tEnd → Dom2 a.gy a.gx G →
      |(refRods2 ⟨a.gy, a.gx, xr, nu, widthOf a.width, a.freeStream⟩ K cfl tol A R b rodDt pre fs (refStart2 (xr / a.gx) X0 t0 time om u, s) n).1.F.u 0 G| +
      |(refRods2 ⟨a.gy, a.gx, xr, nu, widthOf a.width, a.freeStream⟩ K cfl tol A R b rodDt pre fs (refStart2 (xr / a.gx) X0 t0 time om u, s) n).1.F.u 1 G| ≤ V) :
    let P : Params2 := ⟨a.gy, a.gx, xr, nu, widthOf a.width, a.freeStream⟩
    let ref := refRods2 P K cfl tol A R b rodDt pre fs (refStart2 (xr / a.gx) X0 t0 time om u, s)
    let run := While (fun q => q.1.1.1.sim.time < tEnd) (rodCase2 (simCfg2 a T xr nu cfl) K tol A o R b rodDt pre fs foto data obs) 0 (((S, s), 0, []), 0, [])
    ∃ N S' fotoTimer dataTimer shots recs,
      run N ((((S', (ref N).2), fotoTimer, shots.map fun n => refShot2 P A R b (ref n)), dataTimer, recs.map fun n => ((ref n).1.time, obs (ref n).2)), none) ∧
      (∀ N' r, run N' r → N' = N ∧ r = ((((S', (ref N).2), fotoTimer, shots.map fun n => refShot2 P A R b (ref n)), dataTimer, recs.map fun n => ((ref n).1.time, obs (ref n).2)), none)) ∧
      Snapshots false foto (fun n => (ref n).1.time) N shots ∧ Snapshots false data (fun n => (ref n).1.time) N recs ∧
      N ≤ ⌈(tEnd - time) / leastDt 4 cfl tol (xr / a.gx) nu pre V⌉₊ ∧ (∀ n < N, (ref n).1.time < tEnd) ∧ tEnd ≤ (ref N).1.time ∧
      S'.sim.time = (ref N).1.time ∧ (S'.ib b).v.time - t0 b = (ref N).1.time - time ∧
      ∀ c q, Valid2 T c → Inner2 T ((2 : ℕ) : ℤ) q → S'.sim.prim c q = (ref N).1.F.om (globalIx2 T ((2 : ℕ) : ℤ) c q) ∧ ∀ j, S'.sim.vel j c q = (ref N).1.F.u j (globalIx2 T ((2 : ℕ) : ℤ) c q) := by
  intro P ref run
  obtain ⟨hdt, hclock, N, S', hrun, hS', hN, hB, hE, ht⟩ := rodCase2_run h foto data obs hV
  obtain ⟨shots, p1, p2, -⟩ := snapSeq_spec (strict := false) (limit := foto) (t := fun n => (ref n).1.time) (v := fun n => refShot2 P A R b (ref n)) hdt hclock N
  obtain ⟨recs, d1, d2, -⟩ := snapSeq_spec (strict := false) (limit := data) (t := fun n => (ref n).1.time) (v := fun n => ((ref n).1.time, obs (ref n).2)) hdt hclock N
  have hrun' : run N ((((S', (ref N).2), (snapSeq false foto (fun n => refShot2 P A R b (ref n)) (fun n => rodDt2 P cfl tol pre (ref n)) N).1, shots.map fun n => refShot2 P A R b (ref n)),
        (snapSeq false data (fun n => ((ref n).1.time, obs (ref n).2)) (fun n => rodDt2 P cfl tol pre (ref n)) N).1, recs.map fun n => ((ref n).1.time, obs (ref n).2)), none) := by
    rw [← p2, ← d2]; exact hrun
  refine ⟨N, S', _, _, shots, recs, hrun', fun N' r hr => ?_, p1, d1, hN, hB, hE, hS'.time, ht, fun c q hc hq => ⟨?_, fun j => ?_⟩⟩
  · obtain ⟨u1, u2⟩ := hrun'.unique hr
    exact ⟨u1.symm, u2.symm⟩
  · exact hS'.sim.om c q hc (inArr_of_inner2 hq) (Or.inl hq)
  · exact hS'.sim.u j c q hc (inArr_of_inner2 hq) (Or.inl hq)

/-- the run on the global grid does not depend on the decomposition -/
theorem same_rods2 {A' : B → Ib2} (hA : ∀ b, A' b = { A b with m := (A' b).m, ord := (A' b).ord, junk := (A' b).junk }) (P : Params2) (q : RefC2 B × σ) (n : ℕ) :
    refRods2 P K cfl tol A' R b rodDt pre fs q n = refRods2 P K cfl tol A R b rodDt pre fs q n := by
  have hN : (A' b).N = (A b).N := by rw [hA b]
  have hsub : ∀ h rt q, refSub2 P K cfl tol A' R b h rt q = refSub2 P K cfl tol A R b h rt q := fun h rt q => by
    simp only [refSub2]
    rw [(same_bodies2 hA P K cfl tol ⟨1, 1, 1, 1, 1, 1, false⟩ _ _).1, hN]
  have hsubs : ∀ h rt q m, refSubs2 P K cfl tol A' R b h rt m q = refSubs2 P K cfl tol A R b h rt m q := fun h rt q m => by
    induction m with
    | zero => rfl
    | succ m ih => simp only [refSubs2]; rw [ih, hsub]
  induction n with
  | zero => rfl
  | succ n ih =>
    simp only [refRods2]
    rw [ih]
    simp only [refRod2]
    rw [hsubs, (same_bodies2 hA P K cfl tol ⟨1, 1, 1, 1, 1, 1, false⟩ _ _).1]

/-- C109 (2D): the driver on two decompositions of the same problem: as many iterations, the same logs, plots and records at the same times, the same body at the end, and the same fields. -/
theorem rodCase2_same {T' : Cart2} [NeZero T'.gy] [NeZero T'.gx] {a' : SimArgs2} (hsame : a' = { a with py := a'.py, px := a'.px }) {A' : B → Ib2}
    (hA : ∀ b, A' b = { A b with m := (A' b).m, ord := (A' b).ord, junk := (A' b).junk }) {S' : CSt2 T' B} {o' : ℕ → ℕ → CScheds2}
    (h : RodFit2 a xr nu cfl tol K A X0 t0 time om u S o b R rodDt pre fs s tEnd) (h' : RodFit2 a' xr nu cfl tol K A' X0 t0 time om u S' o' b R rodDt pre fs s tEnd)
    (foto data : ℝ) (obs : σ → Ω) {V : ℝ}
    (hV : ∀ n G, (refRods2 ⟨a.gy, a.gx, xr, nu, widthOf a.width, a.freeStream⟩ K cfl tol A R b rodDt pre fs (refStart2 (xr / a.gx) X0 t0 time om u, s) n).1.time < tEnd → Dom2 a.gy a.gx G →
      |(refRods2 ⟨a.gy, a.gx, xr, nu, widthOf a.width, a.freeStream⟩ K cfl tol A R b rodDt pre fs (refStart2 (xr / a.gx) X0 t0 time om u, s) n).1.F.u 0 G| +
      |(refRods2 ⟨a.gy, a.gx, xr, nu, widthOf a.width, a.freeStream⟩ K cfl tol A R b rodDt pre fs (refStart2 (xr / a.gx) X0 t0 time om u, s) n).1.F.u 1 G| ≤ V) :
    ∃ N S1 S1' body fotoTimer shots dataTimer recs,
      While (fun q => q.1.1.1.sim.time < tEnd) (rodCase2 (simCfg2 a T xr nu cfl) K tol A o R b rodDt pre fs foto data obs) 0 (((S, s), 0, []), 0, []) N ((((S1, body), fotoTimer, shots), dataTimer, recs), none) ∧
      While (fun q => q.1.1.1.sim.time < tEnd) (rodCase2 (simCfg2 a' T' xr nu cfl) K tol A' o' R b rodDt pre fs foto data obs) 0 (((S', s), 0, []), 0, []) N ((((S1', body), fotoTimer, shots), dataTimer, recs), none) ∧
      S1.sim.time = S1'.sim.time ∧ (S1.ib b).v.time = (S1'.ib b).v.time ∧
      ∀ c q c' q', Valid2 T c → Inner2 T ((2 : ℕ) : ℤ) q → Valid2 T' c' → Inner2 T' ((2 : ℕ) : ℤ) q' → globalIx2 T ((2 : ℕ) : ℤ) c q = globalIx2 T' ((2 : ℕ) : ℤ) c' q' →
        S1.sim.prim c q = S1'.sim.prim c' q' ∧ ∀ j, S1.sim.vel j c q = S1'.sim.vel j c' q' := by
  obtain ⟨gy', gx', py', px', ft', fsb', g', w'⟩ := a'
  cases hsame
  have hNA : (A' b).N = (A b).N := by rw [hA b]
  have href := same_rods2 (K := K) (cfl := cfl) (tol := tol) (R := R) (b := b) (rodDt := rodDt) (pre := pre) (fs := fs) hA ⟨a.gy, a.gx, xr, nu, widthOf a.width, a.freeStream⟩
    (refStart2 (xr / a.gx) X0 t0 time om u, s)
  obtain ⟨-, -, N, S1, r1, r2, -, r3, r4, r5⟩ := rodCase2_run h foto data obs hV
  obtain ⟨-, -, N', S1', s1, s2, -, s3, s4, s5⟩ := rodCase2_run h' foto data obs (V := V) (by simp only [href]; exact hV)
  have hshot : ∀ q : RefC2 B × σ, refShot2 ⟨a.gy, a.gx, xr, nu, widthOf a.width, a.freeStream⟩ A' R b q = refShot2 ⟨a.gy, a.gx, xr, nu, widthOf a.width, a.freeStream⟩ A R b q := fun q => by
    unfold refShot2; rw [hNA]
  simp only [href, hshot] at s1 s2 s3 s4 s5
  have hNN : N' = N := by
    rcases lt_trichotomy N N' with q | q | q
    · exact absurd (s3 N q) (not_lt.2 r4)
    · exact q.symm
    · exact absurd (r3 N' q) (not_lt.2 s4)
  rw [hNN] at s1 s2 s3 s4 s5
  refine ⟨N, S1, S1', _, _, _, _, _, r1, s1, r2.time.trans s2.time.symm, by linarith, fun c q c' q' hc hq hc' hq' he => ⟨?_, fun j => ?_⟩⟩
  · have q1 := r2.sim.om c q hc (inArr_of_inner2 hq) (Or.inl hq)
    have q2 := s2.sim.om c' q' hc' (inArr_of_inner2 hq') (Or.inl hq')
    exact q1.trans ((congrArg _ he).trans q2.symm)
  · have q1 := r2.sim.u j c q hc (inArr_of_inner2 hq) (Or.inl hq)
    have q2 := s2.sim.u j c' q' hc' (inArr_of_inner2 hq') (Or.inl hq')
    exact q1.trans ((congrArg _ he).trans q2.symm)

end

/-! ## Example -/

/-- a body that is held in place, on two ranks: its hypotheses hold whatever the flow does -/
example [NeZero (⟨16, 8, 1, 2, 16, 4, false⟩ : Cart2).gy] [NeZero (⟨16, 8, 1, 2, 16, 4, false⟩ : Cart2).gx] [NeZero (⟨16, 8, 1, 1, 16, 8, false⟩ : Cart2).gy]
    [NeZero (⟨16, 8, 1, 1, 16, 8, false⟩ : Cart2).gx] {K : Kern2} (hK : K.Local) (hK0 : ∀ r, K.upd r (fun _ _ => 0) = 0) (om : ℝ → ℝ → ℝ)
    (u : Fin 2 → ℝ → ℝ → ℝ) {o : ℕ → ℕ → CScheds2} (ho : ∀ i n, (o i n).Done ⟨16, 8, 1, 2, 16, 4, false⟩
      (simCfg2 ⟨16, 8, 1, 2, "navier_stokes_with_forcing", true, 2, .int 2⟩ ⟨16, 8, 1, 2, 16, 4, false⟩ 8 0.01 0.1).d) :
    ∃ S : CSt2 ⟨16, 8, 1, 2, 16, 4, false⟩ Unit,
      RodFit2 ⟨16, 8, 1, 2, "navier_stokes_with_forcing", true, 2, .int 2⟩ 8 0.01 0.1 1e-10 K (fun _ => exBody2) (fun _ => exPos2) (fun _ => 0) 0 om u S o ()
        (⟨fun _ _ m => m, fun _ _ _ m => m + 1, fun _ _ m => m, fun _ => exPos2, fun _ _ _ => 0⟩ : Stepper ℕ) 0.01 0.5 (fun t _ => 1 - Real.exp (-t)) 0 1 := by
  obtain ⟨⟨S, hS⟩, -⟩ := exSetup2 0.01 0.1 om u
  have e : (8 : ℝ) / ((8 : ℕ) : ℝ) = 1 := by norm_num
  have hin := exBody2_inside
  set R : Stepper ℕ := ⟨fun _ _ m => m, fun _ _ _ m => m + 1, fun _ _ m => m, fun _ => exPos2, fun _ _ _ => 0⟩ with hR
  have hsub : ∀ (P : Params2) (h rt : ℝ) (n : ℕ) (q : RefC2 Unit × ℕ), q.1.lastX () = exPos2 → (refSubs2 P K 0.1 1e-10 (fun _ => exBody2) R () h rt n q).1.lastX () = exPos2 := by
    intro P h rt n q hq
    cases n with
    | zero => exact hq
    | succ n => simp only [refSubs2, refSub2, cRef2, refForces2, Function.update_self]; rfl
  have hlast : ∀ (P : Params2) (n : ℕ), (refRods2 P K 0.1 1e-10 (fun _ => exBody2) R () 0.01 0.5 (fun t _ => 1 - Real.exp (-t)) (refStart2 (8 / ((8 : ℕ) : ℝ)) (fun _ => exPos2) (fun _ => 0) 0 om u, 0) n).1.lastX () = exPos2 := by
    intro P n
    cases n with
    | zero => rfl
    | succ n => simp only [refRods2, refRod2, cRef2, refFull2, refForces2, Function.update_self]; rfl
  have hno : ∀ dx, Noticed2 ⟨16, 8, 1, 2, 16, 4, false⟩ dx exBody2 exPos2 exPos2 := by
    intro dx l l' h1 h2
    rw [h1] at h2
    exact Or.inl (Except.ok.inj h2).symm
  have hin0 : Inside2 16 8 0 1 exBody2 exPos2 := by
    intro i hI G hG
    have := hin i hI G hG
    unfold Away2 at this ⊢
    push_cast at this ⊢; omega
  refine ⟨S, hS, rfl, ho, by norm_num, by norm_num, by norm_num, by norm_num, hK, hK0, by norm_num, by norm_num, fun n _ => ⟨fun j _ => ⟨?_, ?_⟩, ?_, ?_⟩⟩
  · change Inside2 16 8 0 (8 / ((8 : ℕ) : ℝ)) exBody2 exPos2
    rw [e]; exact hin0
  · rw [hsub _ _ _ _ _ (hlast _ _)]; exact hno _
  · change Inside2 16 8 1 (8 / ((8 : ℕ) : ℝ)) exBody2 exPos2
    rw [e]; exact hin
  · rw [hsub _ _ _ _ _ (hlast _ _)]; exact hno _

/-- at rest -/
def AtRest2 (b : B) (r : RefC2 B) : Prop := r.F = ⟨fun _ => 0, fun _ _ => 0⟩ ∧ r.Φ = (fun _ _ => 0) ∧ (r.hist b).P = (fun _ _ => 0) ∧ (r.hist b).V = fun _ _ => 0

/-- without a free stream and with a body that is at rest, everything stays at rest -/
theorem rods_rest2 {P : Params2} {K : Kern2} (hK : K.Null) {cfl tol : ℝ} {A : B → Ib2} {R : Stepper σ} (hR : ∀ s, R.vel s = fun _ _ => 0) {b : B} {rodDt pre : ℝ} {q : RefC2 B × σ}
    (hq : AtRest2 b q.1) (n : ℕ) : AtRest2 b (refRods2 P K cfl tol A R b rodDt pre (fun _ _ => 0) q n).1 := by
  have hmis : ∀ X, mismatch2 P.dx (A b) (fun _ _ => 0) X (fun _ _ => 0) = fun _ _ => 0 := by
    intro X; funext k i
    unfold mismatch2 interp2
    simp
  have hsp : ∀ X, refSpread2 P.dx (A b) X (fun _ _ => 0) (fun _ _ => 0) = fun _ _ => 0 := by
    intro X; funext j G
    unfold refSpread2 share2n
    simp
  have hfo : ∀ dt, refForcing2 P K dt (fun _ => 0) (fun _ _ => 0) ⟨fun _ => 0, fun _ _ => 0⟩ = ⟨fun _ => 0, fun _ _ => 0⟩ := by
    intro dt
    have q := refStep2_zero "navier_stokes_with_forcing" P hK dt (fun _ => 0) (fun _ _ => 0)
    simpa [refStep2, isNS] using q
  have hsub : ∀ h rt (q : RefC2 B × σ) m, AtRest2 b q.1 → AtRest2 b (refSubs2 P K cfl tol A R b h rt m q).1 := by
    intro h rt q m hq
    induction m with
    | zero => exact hq
    | succ m ih =>
      simp only [refSubs2, refSub2, hR]
      generalize refSubs2 P K cfl tol A R b h rt m q = q' at ih ⊢
      obtain ⟨h1, h2, h3, -⟩ := ih
      unfold AtRest2
      simp only [cRef2, refForces2, refLag2, Function.update_self, h1, h2, h3, hmis, mul_zero, add_zero]
      trivial
  induction n with
  | zero => exact hq
  | succ n ih =>
    simp only [refRods2, refRod2, hR]
    generalize refRods2 P K cfl tol A R b rodDt pre (fun _ _ => 0) q n = q1 at ih ⊢
    have hq' := hsub (localDt (rodDt2 P cfl tol pre q1) rodDt) q1.1.time q1 (rodSteps (rodDt2 P cfl tol pre q1) rodDt) ih
    generalize refSubs2 P K cfl tol A R b (localDt (rodDt2 P cfl tol pre q1) rodDt) q1.1.time (rodSteps (rodDt2 P cfl tol pre q1) rodDt) q1 = q' at hq' ⊢
    obtain ⟨h1, h2, h3, -⟩ := hq'
    unfold AtRest2
    simp only [cRef2, refFull2, refForces2, refLag2, Function.update_self, h1, h2, h3, hmis, mul_zero, add_zero, hsp, hfo]
    trivial

/-- the bound on the velocities that `rodCase2_report` asks for -/
example {P : Params2} {K : Kern2} (hK : K.Null) {cfl tol : ℝ} {A : B → Ib2} {b : B} {X0 : B → LagField ℝ} {t0 : B → ℝ} (n : ℕ) (G : ℤ × ℤ) (s : ℕ) :
    |(refRods2 P K cfl tol A (⟨fun _ _ m => m, fun _ _ _ m => m + 1, fun _ _ m => m, fun _ => exPos2, fun _ _ _ => 0⟩ : Stepper ℕ) b 0.01 0.5 (fun _ _ => 0)
      (refStart2 P.dx X0 t0 0 (fun _ _ => 0) (fun _ _ _ => 0), s) n).1.F.u 0 G| ≤ 0 := by
  rw [(rods_rest2 hK (fun _ => rfl) ⟨rfl, rfl, rfl, rfl⟩ n).1]
  simp

end Sopht
