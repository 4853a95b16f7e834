import Verif.RodDriver
import Verif.AsyncIb2DProps

/-! # Every rank steps its own copy of a body, 2D (C113)

The driver programs build and step the body on every rank (`examples/2d_examples/FlowPastRodCase/flow_past_rod.py`, below "FPR.py", 60-97, 279-284), but only the
master's interactor has a forcing grid (`cosserat_rod_flow_interaction_mpi.py:36-53`, `rigid_body_flow_interaction_mpi.py:36-49`); the transfer of forces to the
body does nothing on the other ranks (`immersed_body_forcing_grid.py:4-28`).  What follows from that is proved here for ranks which run the driver independently, each
with its own copy. -/

namespace Sopht

set_option linter.unusedSimpArgs false

/-! ## The driver, as one rank runs it -/

/-- A body and its time stepper (PyElastica; not part of the code) with its forcing grid.  `do_step(time, dt)` moves the body (`move`), updates its velocities with the
loads in `body_flow_forces`, `body_flow_torques` (`kick`) and moves on (`move'`); `load` is `transfer_forcing_from_grid_to_body` of the forcing grid, which overwrites
these arrays; `zero` is their content after `np.zeros`. -/
structure Body (σ β : Type) where
  move : ℝ → ℝ → σ → σ
  kick : ℝ → ℝ → β → σ → σ
  move' : ℝ → ℝ → σ → σ
  pos : σ → LagField ℝ
  vel : σ → LagField ℝ
  load : σ → LagField ℝ → β
  zero : β

variable {σ β : Type}

/-- The copy of the body on one rank (first component) with the interactor's `body_flow_forces`, `body_flow_torques` on that rank (second component); `me`: is the rank
the master.  On the other ranks the forcing grid is an `EmptyForcingGrid`: no nodes, and the transfer does nothing (immersed_body_forcing_grid.py:14-28). -/
noncomputable def Body.onRank (Q : Body σ β) (me : Bool) : Stepper (σ × β) where
  move t h s := (Q.move t h s.1, s.2)
  kick t h F s := let w := if me then Q.load s.1 F else s.2; (Q.kick t h w s.1, w)
  move' t h s := (Q.move' t h s.1, s.2)
  pos s := if me then Q.pos s.1 else fun _ _ => 0
  vel s := if me then Q.vel s.1 else fun _ _ => 0

/-- A timer of the driver has run out: `timer >= limit or timer == 0` (FPR.py:216, 258). -/
def due (timer limit : ℝ) : Prop := limit ≤ timer ∨ timer = 0

variable {B : Type}

open Classical in
/-- The log line (FPR.py:239-247): time, greatest vorticity, deviation error. -/
noncomputable def infoPart2 (b : B) (d : Prop) (t : ℝ) (k : Prog2 B) : Prog2 B :=
  if d then .deviation b fun e => .maxVort fun v => .out t (.out v (.out e k)) else k

open Classical in
/-- The diagnostic data (FPR.py:258-268): time and the place of the tip, or whatever of the body is looked at. The code does this on one rank only; which one is the
`pr` of the theorems, what the other ranks write is ignored there. -/
noncomputable def dataPart2 (d : Prop) (t x : ℝ) (k : Prog2 B) : Prog2 B := if d then .out t (.out x k) else k

open Classical in
/-- A timer, reset if it has run out (FPR.py:217, 259). -/
noncomputable def resetTimer (timer limit : ℝ) : ℝ := if due timer limit then 0 else timer

/-- The loop (FPR.py:213-300), at most `n` iterations; `t` is `flow_sim.time`, `ft` and `dm` are `foto_timer` and `data_timer`.  Figures and files are left out. -/
noncomputable def tipLoop2 (R : Stepper σ) (obs : σ → ℝ) (b : B) (rodDt pre final foto data : ℝ) (fs : ℝ → Fin 2 → ℝ) : ℕ → ℝ → ℝ → ℝ → σ → Prog2 B
  | 0, _, _, _, _ => .stop
  | n + 1, t, ft, dm, s =>
    if t < final then
      infoPart2 b (due ft foto) t <| dataPart2 (due dm data) t (obs s) <|
      .stableDt pre fun dt =>
        subSteps2 R b (localDt dt rodDt) (rodSteps dt rodDt) t s fun _ s' =>
          .interact b (R.pos s') (R.vel s') (.flow dt (fs t)
            (tipLoop2 R obs b rodDt pre final foto data fs n (t + dt) (resetTimer ft foto + dt) (resetTimer dm data + dt) s'))
    else .stop

/-- What the ranks run: rank `c` the loop with its own copy `s0 c` of the body; the arrays for the loads are zero (rigid_body_flow_interaction_mpi.py:35-36,
cosserat_rod_flow_interaction_mpi.py:36-41). -/
noncomputable def copyProgs2 (A : B → Ib2) (Q : Body σ β) (obs : σ → ℝ) (b : B) (rodDt pre final foto data : ℝ) (fs : ℝ → Fin 2 → ℝ) (n : ℕ) (t : ℝ) (s0 : C2 → σ)
    (c : C2) : Prog2 B :=
  tipLoop2 (Q.onRank (decide (c = (A b).m))) (fun s => obs s.1) b rodDt pre final foto data fs n t 0 0 (s0 c, Q.zero)

/-! ## Specification -/

/-- The copy of the body on the master, as it should be: the fluid acts on it. -/
noncomputable def Body.coupled (Q : Body σ β) : Stepper σ where
  move := Q.move
  kick t h F s := Q.kick t h (Q.load s F) s
  move' := Q.move'
  pos := Q.pos
  vel := Q.vel

/-- `n` steps of size `h` of a body on which no fluid acts. -/
noncomputable def Body.alone (Q : Body σ β) (h : ℝ) : ℕ → ℝ → σ → σ
  | 0, _, s => s
  | n + 1, t, s => Q.alone h n (t + h) (Q.move' t h (Q.kick t h Q.zero (Q.move t h s)))

/-- A body on which no fluid acts, at the start of iteration `i`, if iteration `i` begins at `t i` and takes `dt i`. -/
noncomputable def Body.adrift (Q : Body σ β) (rodDt : ℝ) (t dt : ℕ → ℝ) (s : σ) : ℕ → σ
  | 0 => s
  | i + 1 => Q.alone (localDt (dt i) rodDt) (rodSteps (dt i) rodDt) (t i) (Q.adrift rodDt t dt s i)

open Classical in
/-- A timer of the driver at the start of iteration `i`, from `x` at the start: when it has reached its limit, or is zero, it is set to zero; then the iteration adds its step. -/
noncomputable def timerAt (limit : ℝ) (dt : ℕ → ℝ) (x : ℝ) : ℕ → ℝ
  | 0 => x
  | i + 1 => (if limit ≤ timerAt limit dt x i ∨ timerAt limit dt x i = 0 then 0 else timerAt limit dt x i) + dt i

open Classical in
/-- What is written in `N` iterations, with timers starting at `ft`, `dm`: in an iteration in which the first timer has run out a line, if the second has run out time and place. -/
noncomputable def diary (foto data ft dm : ℝ) (t dt : ℕ → ℝ) (line : ℕ → List ℝ) (place : ℕ → ℝ) (N : ℕ) : List ℝ :=
  (List.range N).flatMap fun i => (if foto ≤ timerAt foto dt ft i ∨ timerAt foto dt ft i = 0 then line i else []) ++
    if data ≤ timerAt data dt dm i ∨ timerAt data dt dm i = 0 then [t i, place i] else []

/-! ## All copies together -/

/-- All copies of the body, stepped together. -/
noncomputable def Body.joint {ρ : Type} [DecidableEq ρ] (Q : Body σ β) (m : ρ) : Stepper (ρ → σ × β) where
  move t h s := fun c => (Q.onRank (decide (c = m))).move t h (s c)
  kick t h F s := fun c => (Q.onRank (decide (c = m))).kick t h F (s c)
  move' t h s := fun c => (Q.onRank (decide (c = m))).move' t h (s c)
  pos s := (Q.onRank true).pos (s m)
  vel s := (Q.onRank true).vel (s m)

/-- the loop with all copies together; the place of copy `pr` is written -/
noncomputable def jointProg2 (A : B → Ib2) (Q : Body σ β) (obs : σ → ℝ) (b : B) (rodDt pre final foto data : ℝ) (fs : ℝ → Fin 2 → ℝ) (pr : C2) (n : ℕ) (t ft dm : ℝ)
    (s : C2 → σ × β) : Prog2 B :=
  tipLoop2 (Q.joint (A b).m) (fun s => obs (s pr).1) b rodDt pre final foto data fs n t ft dm s

section follows

variable {A : B → Ib2} {Q : Body σ β} {obs : σ → ℝ} {b : B} {rodDt pre final foto data : ℝ} {fs : ℝ → Fin 2 → ℝ} {pr c : C2}

theorem infoPart2_follows {d : Prop} {t : ℝ} {k k' : Prog2 B} (h : Follows2 A pr c k k') : Follows2 A pr c (infoPart2 b d t k) (infoPart2 b d t k') := by
  unfold infoPart2
  split
  · exact ⟨_, rfl, fun e => ⟨_, rfl, fun v => ⟨_, _, rfl, fun _ => rfl, _, _, rfl, fun _ => rfl, _, _, rfl, fun _ => rfl, h⟩⟩⟩
  · exact h

theorem dataPart2_follows {d : Prop} {t x x' : ℝ} {k k' : Prog2 B} (hx : c = pr → x' = x) (h : Follows2 A pr c k k') :
    Follows2 A pr c (dataPart2 d t x k) (dataPart2 d t x' k') := by
  unfold dataPart2
  split
  · exact ⟨_, _, rfl, fun _ => rfl, _, _, rfl, hx, h⟩
  · exact h

theorem subSteps2_follows (h : ℝ) {k : ℝ → (C2 → σ × β) → Prog2 B} {k' : ℝ → σ × β → Prog2 B} (hk : ∀ rt s, Follows2 A pr c (k rt s) (k' rt (s c))) (n : ℕ) (rt : ℝ)
    (s : C2 → σ × β) : Follows2 A pr c (subSteps2 (Q.joint (A b).m) b h n rt s k) (subSteps2 (Q.onRank (decide (c = (A b).m))) b h n rt (s c) k') := by
  induction n generalizing rt s with
  | zero => exact hk _ _
  | succ n ih =>
    refine ⟨_, _, _, rfl, fun hc => ?_, fun F F' hF => ⟨_, rfl, ?_⟩⟩
    · subst hc
      simp only [Body.joint, decide_true]
      exact ⟨trivial, trivial⟩
    · have e := ih (rt + h) ((Q.joint (A b).m).move' rt h ((Q.joint (A b).m).kick rt h F ((Q.joint (A b).m).move rt h s)))
      by_cases hc : c = (A b).m
      · rw [hF hc]; exact e
      · have e' : ∀ (G : LagField ℝ) (x : σ × β), (Q.onRank (decide (c = (A b).m))).kick rt h G x = (Q.onRank (decide (c = (A b).m))).kick rt h F x := by
          intro G x
          simp only [Body.onRank, hc, decide_false]
          rfl
        rw [e']
        exact e

theorem copies_follow2 (n : ℕ) (t ft dm : ℝ) (s : C2 → σ × β) : Follows2 A pr c (jointProg2 A Q obs b rodDt pre final foto data fs pr n t ft dm s)
    (tipLoop2 (Q.onRank (decide (c = (A b).m))) (fun s => obs s.1) b rodDt pre final foto data fs n t ft dm (s c)) := by
  unfold jointProg2
  induction n generalizing t ft dm s with
  | zero => rfl
  | succ n ih =>
    simp only [tipLoop2]
    split
    · refine infoPart2_follows (dataPart2_follows (fun hc => by rw [hc]) ⟨_, rfl, fun dt => subSteps2_follows _ (fun rt s' => ?_) _ _ _⟩)
      refine ⟨_, _, _, rfl, fun hc => ?_, _, rfl, ih _ _ _ _⟩
      subst hc
      simp only [Body.joint, decide_true]
      exact ⟨trivial, trivial⟩
    · rfl

/-- seen from the master, the loop with all copies is the loop with one copy -/
theorem joint_master2 (n : ℕ) (t ft dm : ℝ) (s : C2 → σ × β) : jointProg2 A Q obs b rodDt pre final foto data fs (A b).m n t ft dm s =
    tipLoop2 Q.coupled obs b rodDt pre final foto data fs n t ft dm (s (A b).m).1 := by
  have key : ∀ (h : ℝ) (k : ℝ → (C2 → σ × β) → Prog2 B) (k' : ℝ → σ → Prog2 B), (∀ rt s, k rt s = k' rt (s (A b).m).1) → ∀ (n : ℕ) (rt : ℝ) (s : C2 → σ × β),
      subSteps2 (Q.joint (A b).m) b h n rt s k = subSteps2 Q.coupled b h n rt (s (A b).m).1 k' := by
    intro h k k' hk n
    induction n with
    | zero => intro rt s; exact hk rt s
    | succ n ih =>
      intro rt s
      simp only [subSteps2, ih]
      simp only [Body.joint, Body.onRank, Body.coupled, decide_true, if_true]
  unfold jointProg2
  induction n generalizing t ft dm s with
  | zero => rfl
  | succ n ih =>
    simp only [tipLoop2]
    congr 1
    congr 1
    congr 1
    congr 1
    funext dt
    refine key _ _ _ (fun rt s' => ?_) _ _ _
    rw [ih]
    simp only [Body.joint, Body.onRank, Body.coupled, if_true]

end follows

/-! ## What is written does not matter for the run -/

/-- The programs differ in what they write only. -/
def Alike2 : Prog2 B → Prog2 B → Prop
  | .stop, q => q = .stop
  | .interact b X U k, q => ∃ k', q = .interact b X U k' ∧ Alike2 k k'
  | .forces b X U k, q => ∃ k', q = .forces b X U k' ∧ ∀ f, Alike2 (k f) (k' f)
  | .advance b dt k, q => ∃ k', q = .advance b dt k' ∧ Alike2 k k'
  | .flow dt fs k, q => ∃ k', q = .flow dt fs k' ∧ Alike2 k k'
  | .stableDt pre k, q => ∃ k', q = .stableDt pre k' ∧ ∀ x, Alike2 (k x) (k' x)
  | .deviation b k, q => ∃ k', q = .deviation b k' ∧ ∀ x, Alike2 (k x) (k' x)
  | .maxVort k, q => ∃ k', q = .maxVort k' ∧ ∀ x, Alike2 (k x) (k' x)
  | .ghost k, q => ∃ k', q = .ghost k' ∧ Alike2 k k'
  | .out _ k, q => ∃ x' k', q = .out x' k' ∧ Alike2 k k'

variable [DecidableEq B]

theorem alike2_proper {P : Params2} {K : Kern2} {cfl tol : ℝ} {A : B → Ib2} (p : Prog2 B) : ∀ (q : Prog2 B) (r : RefC2 B) (l : List ℝ), Alike2 p q →
    Proper2 P K cfl tol A p r → Proper2 P K cfl tol A q { r with log := l } := by
  induction p with
  | stop => rintro q r l rfl -; trivial
  | interact b X U k ih => rintro q r l ⟨k', rfl, h⟩ ⟨h1, h2, h3⟩; exact ⟨h1, h2, ih _ _ l h h3⟩
  | forces b X U k ih => rintro q r l ⟨k', rfl, h⟩ ⟨h1, h2, h3⟩; exact ⟨h1, h2, ih _ _ _ l (h _) h3⟩
  | advance b dt k ih => rintro q r l ⟨k', rfl, h⟩ h3; have q := ih _ _ l h h3; exact q
  | flow dt fs k ih => rintro q r l ⟨k', rfl, h⟩ h3; have q := ih _ _ l h h3; exact q
  | stableDt pre k ih => rintro q r l ⟨k', rfl, h⟩ h3; have q := ih _ _ _ l (h _) h3; exact q
  | deviation b k ih => rintro q r l ⟨k', rfl, h⟩ h3; have q := ih _ _ _ l (h _) h3; exact q
  | maxVort k ih => rintro q r l ⟨k', rfl, h⟩ h3; have q := ih _ _ _ l (h _) h3; exact q
  | ghost k ih => rintro q r l ⟨k', rfl, h⟩ h3; have q := ih _ _ l h h3; exact q
  | out x k ih => rintro q r l ⟨x', k', rfl, h⟩ h3; have q := ih k' _ (l ++ [x']) h h3; exact q

theorem alike2_tracked {T : Cart2} {P : Params2} {K : Kern2} {cfl tol : ℝ} {A : B → Ib2} (p : Prog2 B) : ∀ (q : Prog2 B) (r : RefC2 B) (l : List ℝ), Alike2 p q →
    Tracked2 T P K cfl tol A p r → Tracked2 T P K cfl tol A q { r with log := l } := by
  induction p with
  | stop => rintro q r l rfl -; trivial
  | interact b X U k ih => rintro q r l ⟨k', rfl, h⟩ ⟨h1, h3⟩; exact ⟨h1, ih _ _ l h h3⟩
  | forces b X U k ih => rintro q r l ⟨k', rfl, h⟩ ⟨h1, h3⟩; exact ⟨h1, ih _ _ _ l (h _) h3⟩
  | advance b dt k ih => rintro q r l ⟨k', rfl, h⟩ h3; have q := ih _ _ l h h3; exact q
  | flow dt fs k ih => rintro q r l ⟨k', rfl, h⟩ h3; have q := ih _ _ l h h3; exact q
  | stableDt pre k ih => rintro q r l ⟨k', rfl, h⟩ h3; have q := ih _ _ _ l (h _) h3; exact q
  | deviation b k ih => rintro q r l ⟨k', rfl, h⟩ h3; have q := ih _ _ _ l (h _) h3; exact q
  | maxVort k ih => rintro q r l ⟨k', rfl, h⟩ h3; have q := ih _ _ _ l (h _) h3; exact q
  | ghost k ih => rintro q r l ⟨k', rfl, h⟩ h3; have q := ih _ _ l h h3; exact q
  | out x k ih => rintro q r l ⟨x', k', rfl, h⟩ h3; have q := ih k' _ (l ++ [x']) h h3; exact q

section alike

variable {A : B → Ib2} {Q : Body σ β} {obs : σ → ℝ} {b : B} {rodDt pre final foto data : ℝ} {fs : ℝ → Fin 2 → ℝ}

omit [DecidableEq B] in
theorem infoPart2_alike {d : Prop} {t : ℝ} {k k' : Prog2 B} (h : Alike2 k k') : Alike2 (infoPart2 b d t k) (infoPart2 b d t k') := by
  unfold infoPart2
  split
  · exact ⟨_, rfl, fun e => ⟨_, rfl, fun v => ⟨_, _, rfl, _, _, rfl, _, _, rfl, h⟩⟩⟩
  · exact h

omit [DecidableEq B] in
theorem dataPart2_alike {d : Prop} {t x x' : ℝ} {k k' : Prog2 B} (h : Alike2 k k') : Alike2 (dataPart2 d t x k) (dataPart2 d t x' k') := by
  unfold dataPart2
  split
  · exact ⟨_, _, rfl, _, _, rfl, h⟩
  · exact h

omit [DecidableEq B] in
theorem subSteps2_alike {R : Stepper σ} (h : ℝ) {k k' : ℝ → σ → Prog2 B} (hk : ∀ rt s, Alike2 (k rt s) (k' rt s)) (n : ℕ) (rt : ℝ) (s : σ) :
    Alike2 (subSteps2 R b h n rt s k) (subSteps2 R b h n rt s k') := by
  induction n generalizing rt s with
  | zero => exact hk _ _
  | succ n ih => exact ⟨_, rfl, fun F => ⟨_, rfl, ih _ _⟩⟩

omit [DecidableEq B] in
theorem tipLoop2_alike {R : Stepper σ} {obs obs' : σ → ℝ} (n : ℕ) (t ft dm : ℝ) (s : σ) : Alike2 (tipLoop2 R obs b rodDt pre final foto data fs n t ft dm s)
    (tipLoop2 R obs' b rodDt pre final foto data fs n t ft dm s) := by
  induction n generalizing t ft dm s with
  | zero => rfl
  | succ n ih =>
    simp only [tipLoop2]
    split
    · exact infoPart2_alike (dataPart2_alike ⟨_, rfl, fun dt => subSteps2_alike _ (fun rt s' => by exact ⟨_, rfl, _, rfl, ih _ _ _ _⟩) _ _ _⟩)
    · rfl

end alike

/-! ## The loop on the global grid -/

section loop

variable {P : Params2} {K : Kern2} {cfl tol : ℝ} {A : B → Ib2} {R : Stepper σ} {b : B} {rodDt pre final foto data : ℝ} {fs : ℝ → Fin 2 → ℝ}

theorem refSubs2_shift (h rt : ℝ) (q : RefC2 B × σ) (n : ℕ) :
    refSubs2 P K cfl tol A R b h rt (n + 1) q = refSubs2 P K cfl tol A R b h (rt + h) n (refSub2 P K cfl tol A R b h rt q) := by
  induction n with
  | zero => simp [refSubs2]
  | succ n ih =>
    have e : rt + ((n + 1 : ℕ) : ℝ) * h = rt + h + n * h := by push_cast; ring
    rw [refSubs2, ih, e]
    rfl

theorem refRods2_shift (q : RefC2 B × σ) (n : ℕ) :
    refRods2 P K cfl tol A R b rodDt pre fs q (n + 1) = refRods2 P K cfl tol A R b rodDt pre fs (refRod2 P K cfl tol A R b rodDt pre fs q) n := by
  induction n with
  | zero => rfl
  | succ n ih => rw [refRods2, ih]; rfl

/-- the sub-steps, whatever comes afterwards and whatever was written before -/
theorem subSteps2_run (h : ℝ) (k : ℝ → σ → Prog2 B) (l : List ℝ) (n : ℕ) (rt : ℝ) (q : RefC2 B × σ) :
    cRef2 P K cfl tol A (subSteps2 R b h n rt q.2 k) { q.1 with log := l } =
      cRef2 P K cfl tol A (k (rt + n * h) (refSubs2 P K cfl tol A R b h rt n q).2) { (refSubs2 P K cfl tol A R b h rt n q).1 with log := l } := by
  induction n generalizing rt q with
  | zero => simp [subSteps2, refSubs2]
  | succ n ih =>
    have e : rt + ((n + 1 : ℕ) : ℝ) * h = rt + h + n * h := by push_cast; ring
    rw [refSubs2_shift, e, ← ih]
    simp only [subSteps2, cRef2, refSub2, refForces2, Function.update_self]
    rfl

theorem info2_ref (d : Prop) [Decidable d] (t : ℝ) (r : RefC2 B) (l : List ℝ) (k : Prog2 B) : cRef2 P K cfl tol A (infoPart2 b d t k) { r with log := l } =
    cRef2 P K cfl tol A k { r with log := l ++ if d then [t, sSup {x | ∃ G, Dom2 P.gy P.gx G ∧ x = r.F.om G}, refDeviation 2 (A b).N (r.hist b)] else [] } := by
  unfold infoPart2
  by_cases h : d
  · rw [if_pos h, if_pos h]
    simp only [cRef2, List.append_assoc, List.cons_append, List.nil_append]
  · rw [if_neg h, if_neg h, List.append_nil]

theorem data2_ref (d : Prop) [Decidable d] (t x : ℝ) (r : RefC2 B) (l : List ℝ) (k : Prog2 B) : cRef2 P K cfl tol A (dataPart2 d t x k) { r with log := l } =
    cRef2 P K cfl tol A k { r with log := l ++ if d then [t, x] else [] } := by
  unfold dataPart2
  by_cases h : d
  · rw [if_pos h, if_pos h]
    simp only [cRef2, List.append_assoc, List.cons_append, List.nil_append]
  · rw [if_neg h, if_neg h, List.append_nil]

theorem ite_any {α : Type} (p : Prop) (i j : Decidable p) (x y : α) : @ite α p i x y = @ite α p j x y := by
  cases Subsingleton.elim i j; rfl

theorem timerAt_shift (limit : ℝ) (dt : ℕ → ℝ) (x : ℝ) (i : ℕ) : timerAt limit dt x (i + 1) = timerAt limit (fun i => dt (i + 1)) (resetTimer x limit + dt 0) i := by
  induction i with
  | zero =>
    simp only [timerAt, resetTimer, due]
    exact congrArg (· + dt 0) (ite_any _ _ _ _ _)
  | succ i ih => rw [timerAt, ih]; rfl

open Classical in
theorem diary_succ (ft dm : ℝ) (t dt : ℕ → ℝ) (line : ℕ → List ℝ) (place : ℕ → ℝ) (N : ℕ) : diary foto data ft dm t dt line place (N + 1) =
    ((if due ft foto then line 0 else []) ++ if due dm data then [t 0, place 0] else []) ++
      diary foto data (resetTimer ft foto + dt 0) (resetTimer dm data + dt 0) (fun i => t (i + 1)) (fun i => dt (i + 1)) (fun i => line (i + 1)) (fun i => place (i + 1)) N := by
  unfold diary
  rw [List.range_succ_eq_map, List.flatMap_cons, List.flatMap_map]
  refine congrArg₂ (· ++ ·) (by simp only [timerAt, due]; exact congrArg₂ _ (ite_any _ _ _ _ _) (ite_any _ _ _ _ _)) (congrArg (fun f => List.flatMap f (List.range N)) (funext fun i => ?_))
  simp only [Nat.succ_eq_add_one, timerAt_shift]

open Classical in
/-- The loop: how many iterations there are, the state afterwards, and what was written. -/
theorem tip2_run (n : ℕ) (t ft dm : ℝ) (q0 : RefC2 B × σ) (ht : q0.1.time = t) {q : ℕ → RefC2 B × σ} (hq : q = refRods2 P K cfl tol A R b rodDt pre fs q0) :
    ∃ N ≤ n, (∀ i < N, (q i).1.time < final) ∧ (N < n → final ≤ (q N).1.time) ∧ ∀ (obs : σ → ℝ) (l : List ℝ),
      cRef2 P K cfl tol A (tipLoop2 R obs b rodDt pre final foto data fs n t ft dm q0.2) { q0.1 with log := l } =
        { (q N).1 with
          log := l ++ diary foto data ft dm (fun i => (q i).1.time) (fun i => rodDt2 P cfl tol pre (q i))
            (fun i => [(q i).1.time, sSup {x | ∃ G, Dom2 P.gy P.gx G ∧ x = (q i).1.F.om G}, refDeviation 2 (A b).N ((q i).1.hist b)]) (fun i => obs (q i).2) N } := by
  subst hq
  induction n generalizing t ft dm q0 with
  | zero =>
    refine ⟨0, le_refl _, by simp, by simp, fun obs l => ?_⟩
    simp only [tipLoop2, cRef2, diary, List.range_zero, List.flatMap_nil, List.append_nil, refRods2]
  | succ n ih =>
    subst ht
    by_cases hlt : q0.1.time < final
    · have htime : (refRod2 P K cfl tol A R b rodDt pre fs q0).1.time = q0.1.time + rodDt2 P cfl tol pre q0 := by
        have e := (refSubs2_clock (P := P) (K := K) (cfl := cfl) (tol := tol) (A := A) (R := R) (b := b) (localDt (rodDt2 P cfl tol pre q0) rodDt) q0.1.time q0
          (rodSteps (rodDt2 P cfl tol pre q0) rodDt)).1
        rw [← e]
        rfl
      obtain ⟨N, g1, g2, g3, g4⟩ := ih (q0.1.time + rodDt2 P cfl tol pre q0) (resetTimer ft foto + rodDt2 P cfl tol pre q0) (resetTimer dm data + rodDt2 P cfl tol pre q0) _ htime
      refine ⟨N + 1, by omega, fun i hi => ?_, fun hN => ?_, fun obs l => ?_⟩
      · cases i with
        | zero => exact hlt
        | succ i => rw [refRods2_shift]; exact g2 i (by omega)
      · rw [refRods2_shift]; exact g3 (by omega)
      · simp only [tipLoop2]
        rw [if_pos hlt, info2_ref, data2_ref, diary_succ]
        simp only [cRef2, refRods2_shift]
        rw [show refRods2 P K cfl tol A R b rodDt pre fs q0 0 = q0 from rfl]
        have e := subSteps2_run (P := P) (K := K) (cfl := cfl) (tol := tol) (A := A) (R := R) (b := b) (localDt (rodDt2 P cfl tol pre q0) rodDt) (fun _ s' =>
          .interact b (R.pos s') (R.vel s') (.flow (rodDt2 P cfl tol pre q0) (fs q0.1.time) (tipLoop2 R obs b rodDt pre final foto data fs n (q0.1.time + rodDt2 P cfl tol pre q0)
            (resetTimer ft foto + rodDt2 P cfl tol pre q0) (resetTimer dm data + rodDt2 P cfl tol pre q0) s')))
          ((l ++ if due ft foto then [q0.1.time, sSup {x | ∃ G, Dom2 P.gy P.gx G ∧ x = q0.1.F.om G}, refDeviation 2 (A b).N (q0.1.hist b)] else []) ++
            if due dm data then [q0.1.time, obs q0.2] else []) (rodSteps (rodDt2 P cfl tol pre q0) rodDt) q0.1.time q0
        refine Eq.trans e ?_
        have e' := g4 obs ((l ++ if due ft foto then [q0.1.time, sSup {x | ∃ G, Dom2 P.gy P.gx G ∧ x = q0.1.F.om G}, refDeviation 2 (A b).N (q0.1.hist b)] else []) ++
            if due dm data then [q0.1.time, obs q0.2] else [])
        refine Eq.trans e' ?_
        simp only [List.append_assoc]
    · refine ⟨0, by omega, by simp, fun _ => ?_, fun obs l => ?_⟩
      · exact not_lt.1 hlt
      · simp only [tipLoop2]
        rw [if_neg hlt]
        simp only [cRef2, diary, List.range_zero, List.flatMap_nil, List.append_nil, refRods2]

omit [DecidableEq B] in
theorem alike2_refl (p : Prog2 B) : Alike2 p p := by
  induction p with
  | stop => rfl
  | interact b X U k ih => exact ⟨_, rfl, ih⟩
  | forces b X U k ih => exact ⟨_, rfl, ih⟩
  | advance b dt k ih => exact ⟨_, rfl, ih⟩
  | flow dt fs k ih => exact ⟨_, rfl, ih⟩
  | stableDt pre k ih => exact ⟨_, rfl, ih⟩
  | deviation b k ih => exact ⟨_, rfl, ih⟩
  | maxVort k ih => exact ⟨_, rfl, ih⟩
  | ghost k ih => exact ⟨_, rfl, ih⟩
  | out x k ih => exact ⟨_, _, rfl, ih⟩

variable {T : Cart2}

theorem subSteps2_fit (hauto : (A b).auto = true) (h : ℝ) {k : ℝ → σ → Prog2 B} (n : ℕ) (rt : ℝ) (q : RefC2 B × σ)
    (hs : ∀ j < n, let q' := refSubs2 P K cfl tol A R b h rt j q
      let X := R.pos (R.move (rt + j * h) h q'.2)
      Inside2 P.gy P.gx 0 P.dx (A b) X ∧ Noticed2 T P.dx (A b) (q'.1.lastX b) X)
    (hk : Proper2 P K cfl tol A (k (rt + n * h) (refSubs2 P K cfl tol A R b h rt n q).2) (refSubs2 P K cfl tol A R b h rt n q).1 ∧
      Tracked2 T P K cfl tol A (k (rt + n * h) (refSubs2 P K cfl tol A R b h rt n q).2) (refSubs2 P K cfl tol A R b h rt n q).1) :
    Proper2 P K cfl tol A (subSteps2 R b h n rt q.2 k) q.1 ∧ Tracked2 T P K cfl tol A (subSteps2 R b h n rt q.2 k) q.1 := by
  induction n generalizing rt q with
  | zero => simpa [subSteps2, refSubs2] using hk
  | succ n ih =>
    have e : rt + ((n + 1 : ℕ) : ℝ) * h = rt + h + n * h := by push_cast; ring
    rw [refSubs2_shift, e] at hk
    obtain ⟨i1, i2⟩ := ih (rt + h) (refSub2 P K cfl tol A R b h rt q) (fun j hj => by
      have w := hs (j + 1) (by omega)
      have e : rt + ((j + 1 : ℕ) : ℝ) * h = rt + h + j * h := by push_cast; ring
      dsimp only at w ⊢
      rw [refSubs2_shift, e] at w
      exact w) hk
    obtain ⟨w1, w2⟩ := hs 0 (by omega)
    simp only [Nat.cast_zero, zero_mul, add_zero, refSubs2] at w1 w2
    have e' : refForceField (A b).N ((refSub2 P K cfl tol A R b h rt q).1.hist b) =
        refForceField (A b).N (refLag2 P.dx (A b) q.1.F.u (R.pos (R.move rt h q.2)) (R.vel (R.move rt h q.2)) (q.1.hist b)) := by
      simp only [refSub2, cRef2, refForces2, Function.update_self]
      rfl
    have e2 : (refSub2 P K cfl tol A R b h rt q).2 = R.move' rt h (R.kick rt h (refForceField (A b).N (refLag2 P.dx (A b) q.1.F.u (R.pos (R.move rt h q.2))
        (R.vel (R.move rt h q.2)) (q.1.hist b))) (R.move rt h q.2)) := by
      rw [← e']; rfl
    rw [e2] at i1 i2
    exact ⟨⟨w1, .inl hauto, i1⟩, w2, i2⟩

/-- If the body stays inside and remappings are noticed in every iteration, then in the loop. -/
theorem tip2_fit (hauto : (A b).auto = true) (obs : σ → ℝ) (n : ℕ) (t ft dm : ℝ) (q0 : RefC2 B × σ) (ht : q0.1.time = t)
    (hfit : ∀ i < n, (refRods2 P K cfl tol A R b rodDt pre fs q0 i).1.time < final → RodStep2 T P K cfl tol A R b rodDt pre (refRods2 P K cfl tol A R b rodDt pre fs q0 i)) :
    Proper2 P K cfl tol A (tipLoop2 R obs b rodDt pre final foto data fs n t ft dm q0.2) q0.1 ∧
      Tracked2 T P K cfl tol A (tipLoop2 R obs b rodDt pre final foto data fs n t ft dm q0.2) q0.1 := by
  induction n generalizing t ft dm q0 with
  | zero => exact ⟨trivial, trivial⟩
  | succ n ih =>
    simp only [tipLoop2]
    split
    · rename_i hlt
      have hlog : ∀ (k : Prog2 B) (r : RefC2 B) (l : List ℝ), Proper2 P K cfl tol A k r ∧ Tracked2 T P K cfl tol A k r →
          Proper2 P K cfl tol A k { r with log := l } ∧ Tracked2 T P K cfl tol A k { r with log := l } := fun k r l w =>
        ⟨alike2_proper k k r l (alike2_refl k) w.1, alike2_tracked k k r l (alike2_refl k) w.2⟩
      have h2 : ∀ d t x (k : Prog2 B) (r : RefC2 B), Proper2 P K cfl tol A k r ∧ Tracked2 T P K cfl tol A k r →
          Proper2 P K cfl tol A (dataPart2 d t x k) r ∧ Tracked2 T P K cfl tol A (dataPart2 d t x k) r := by
        intro d t x k r w
        unfold dataPart2
        split
        · exact hlog k r _ w
        · exact w
      have h3 : ∀ d t (k : Prog2 B) (r : RefC2 B), Proper2 P K cfl tol A k r ∧ Tracked2 T P K cfl tol A k r →
          Proper2 P K cfl tol A (infoPart2 b d t k) r ∧ Tracked2 T P K cfl tol A (infoPart2 b d t k) r := by
        intro d t k r w
        unfold infoPart2
        split
        · exact hlog k r _ w
        · exact w
      refine h3 _ _ _ _ (h2 _ _ _ _ _ ?_)
      subst ht
      obtain ⟨w1, w2⟩ := hfit 0 (by omega) hlt
      simp only [Proper2, Tracked2]
      refine subSteps2_fit hauto _ _ _ q0 w1 ?_
      have htime : (refRod2 P K cfl tol A R b rodDt pre fs q0).1.time = q0.1.time + rodDt2 P cfl tol pre q0 := by
        have e := (refSubs2_clock (P := P) (K := K) (cfl := cfl) (tol := tol) (A := A) (R := R) (b := b) (localDt (rodDt2 P cfl tol pre q0) rodDt) q0.1.time q0
          (rodSteps (rodDt2 P cfl tol pre q0) rodDt)).1
        rw [← e]
        rfl
      obtain ⟨i1, i2⟩ := ih (q0.1.time + rodDt2 P cfl tol pre q0) (resetTimer ft foto + rodDt2 P cfl tol pre q0) (resetTimer dm data + rodDt2 P cfl tol pre q0) _ htime (fun i hi => by
        have w := hfit (i + 1) (by omega)
        rw [refRods2_shift] at w
        exact w)
      exact ⟨⟨w2.1, .inl hauto, i1⟩, w2.2, i2⟩
    · exact ⟨trivial, trivial⟩

end loop

/-! ## All copies, on the global grid -/

section joint

variable {P : Params2} {K : Kern2} {cfl tol : ℝ} {A : B → Ib2} {Q : Body σ β} {b : B} {rodDt pre : ℝ} {fs : ℝ → Fin 2 → ℝ}

theorem alone_snoc (Q : Body σ β) (h : ℝ) (n : ℕ) (t : ℝ) (s : σ) :
    Q.alone h (n + 1) t s = Q.move' (t + n * h) h (Q.kick (t + n * h) h Q.zero (Q.move (t + n * h) h (Q.alone h n t s))) := by
  induction n generalizing t s with
  | zero => simp [Body.alone]
  | succ n ih =>
    have e : t + h + n * h = t + ((n + 1 : ℕ) : ℝ) * h := by push_cast; ring
    rw [Body.alone, ih, e]
    rfl

/-- The states belong together: all copies, and the master's copy with the flow; `al c` is the copy of rank `c ≠ m`. -/
structure Joint2 (Q : Body σ β) (m : C2) (al : C2 → σ) (q : RefC2 B × (C2 → σ × β)) (q' : RefC2 B × σ) : Prop where
  ref : q.1 = q'.1
  master : (q.2 m).1 = q'.2
  other : ∀ c ≠ m, q.2 c = (al c, Q.zero)

theorem refSub2_joint (h rt : ℝ) {al : C2 → σ} {q : RefC2 B × (C2 → σ × β)} {q' : RefC2 B × σ} (hq : Joint2 Q (A b).m al q q') :
    Joint2 Q (A b).m (fun c => Q.move' rt h (Q.kick rt h Q.zero (Q.move rt h (al c)))) (refSub2 P K cfl tol A (Q.joint (A b).m) b h rt q)
      (refSub2 P K cfl tol A Q.coupled b h rt q') := by
  obtain ⟨h1, h2, h3⟩ := hq
  refine ⟨?_, ?_, fun c hc => ?_⟩
  · simp only [refSub2, Body.joint, Body.onRank, Body.coupled, decide_true, if_true, h1, h2]
  · simp only [refSub2, Body.joint, Body.onRank, Body.coupled, decide_true, if_true, h1, h2]
  · simp only [refSub2, Body.joint, Body.onRank, hc, decide_false, Bool.false_eq_true, if_false, h3 c hc]

theorem refSubs2_joint (h rt : ℝ) {al : C2 → σ} {q : RefC2 B × (C2 → σ × β)} {q' : RefC2 B × σ} (hq : Joint2 Q (A b).m al q q') (n : ℕ) :
    Joint2 Q (A b).m (fun c => Q.alone h n rt (al c)) (refSubs2 P K cfl tol A (Q.joint (A b).m) b h rt n q) (refSubs2 P K cfl tol A Q.coupled b h rt n q') := by
  induction n with
  | zero => exact hq
  | succ n ih =>
    simp only [alone_snoc]
    exact refSub2_joint h (rt + n * h) ih

theorem refRods2_joint {s0 : C2 → σ} {r : RefC2 B} (n : ℕ) {q : ℕ → RefC2 B × σ} (hq : q = refRods2 P K cfl tol A Q.coupled b rodDt pre fs (r, s0 (A b).m)) :
    Joint2 Q (A b).m (fun c => Q.adrift rodDt (fun i => (q i).1.time) (fun i => rodDt2 P cfl tol pre (q i)) (s0 c) n)
      (refRods2 P K cfl tol A (Q.joint (A b).m) b rodDt pre fs (r, fun c => (s0 c, Q.zero)) n) (q n) := by
  subst hq
  induction n with
  | zero => exact ⟨rfl, rfl, fun c _ => rfl⟩
  | succ n ih =>
    have e : rodDt2 P cfl tol pre (refRods2 P K cfl tol A (Q.joint (A b).m) b rodDt pre fs (r, fun c => (s0 c, Q.zero)) n) =
        rodDt2 P cfl tol pre (refRods2 P K cfl tol A Q.coupled b rodDt pre fs (r, s0 (A b).m) n) := by
      unfold rodDt2
      rw [ih.ref]
    have w := refSubs2_joint (P := P) (K := K) (cfl := cfl) (tol := tol) (b := b) (localDt (rodDt2 P cfl tol pre (refRods2 P K cfl tol A Q.coupled b rodDt pre fs (r, s0 (A b).m) n)) rodDt)
      (refRods2 P K cfl tol A Q.coupled b rodDt pre fs (r, s0 (A b).m) n).1.time ih (rodSteps (rodDt2 P cfl tol pre
        (refRods2 P K cfl tol A Q.coupled b rodDt pre fs (r, s0 (A b).m) n)) rodDt)
    obtain ⟨w1, w2, w3⟩ := w
    refine ⟨?_, ?_, fun c hc => ?_⟩
    · simp only [refRods2, refRod2]
      rw [e, ih.ref, w1]
      simp only [Body.joint, Body.onRank, Body.coupled, if_true] at w2 ⊢
      rw [w2]
    · simp only [refRods2, refRod2]
      rw [e, ih.ref]
      exact w2
    · simp only [refRods2, refRod2, Body.adrift]
      rw [e, ih.ref]
      exact w3 c hc

end joint

/-! ## The run -/

variable {T : Cart2} [NeZero T.gy] [NeZero T.gx] {C : Cfg2} {K : Kern2} {A : B → Ib2} {S : CSt2 T B} {w : C2 → RkC2 T B}

open Classical in
/-- **C113** (2D) Every rank builds, steps and looks at its own copy of the body, from any state of its own, in the loop of the driver, and the ranks are synchronised by nothing
but their messages.  They cannot get stuck and all return.  Flow, forcing, the forces on the body and the interactor's clock are those of the run of the master's copy on
one global grid (`q i`: flow and body at the start of iteration `i`): the other copies do not matter.  The loop ends in the first iteration that begins at the final time or
later.  The diary of the master shows that body; the diary of any other rank shows a body on which the fluid does not act, stepped with the same steps; time, greatest
vorticity and deviation are the same in all diaries. -/
theorem copies2_run {a : SimArgs2} {xr : ℝ} (hxr : 0 < xr) {nu cfl : ℝ} (hcfl : 0 ≤ cfl) {tol : ℝ} (htol : 0 < tol) (hK : K.Local)
    (hK0 : ∀ r, K.upd r (fun _ _ => 0) = 0) {X0 : B → LagField ℝ} {t0 : B → ℝ} {time : ℝ} {om : ℝ → ℝ → ℝ} {u : Fin 2 → ℝ → ℝ → ℝ}
    (h : Setup2 a xr nu cfl A X0 t0 time om u S) (hm : ∀ b, Valid2 T (A b).m) (Q : Body σ β) (obs : σ → ℝ) (b : B) (hauto : (A b).auto = true)
    (rodDt pre final foto data : ℝ) (fs : ℝ → Fin 2 → ℝ) (n : ℕ) (s0 : C2 → σ)
    {P : Params2} (hP : P = ⟨a.gy, a.gx, xr, nu, widthOf a.width, a.freeStream⟩)
    {q : ℕ → RefC2 B × σ} (hq : q = refRods2 P K cfl tol A Q.coupled b rodDt pre fs (refStart2 (xr / a.gx) X0 t0 time om u, s0 (A b).m))
    (hfit : ∀ i < n, (q i).1.time < final → RodStep2 T P K cfl tol A Q.coupled b rodDt pre (q i))
    {t dt : ℕ → ℝ} (ht : t = fun i => (q i).1.time) (hdt : dt = fun i => rodDt2 P cfl tol pre (q i))
    (buffered : Bool) (hw : ∀ c, Valid2 T c → StartsC2 (simCfg2 a T xr nu cfl) A c S w)
    {X : _} (hX : X = DConf.start (cCodes2 (simCfg2 a T xr nu cfl) K tol A (copyProgs2 A Q obs b rodDt pre final foto data fs n time s0)) w) :
    (∀ Y, DStar buffered X Y → ¬ Y.Done → ∃ Z, DStep buffered Y Z) ∧ (∀ f : ℕ → _, f 0 = X → ¬ ∀ n, DStep buffered (f n) (f (n + 1))) ∧
    (∃ Y, DStar buffered X Y ∧ Y.Done) ∧
    ∃ N ≤ n, (∀ i < N, t i < final) ∧ (N < n → final ≤ t N) ∧
    ∀ Y, DStar buffered X Y → Y.Done →
      (∀ c, Valid2 T c → (Y.cf.st c).log = diary foto data 0 0 t dt
          (fun i => [t i, sSup {x | ∃ G, Dom2 a.gy a.gx G ∧ x = (q i).1.F.om G}, refDeviation 2 (A b).N ((q i).1.hist b)])
          (fun i => obs (if c = (A b).m then (q i).2 else Q.adrift rodDt t dt (s0 c) i)) N ∧
        (Y.cf.st c).sim.time = t N ∧ ∀ x, Inner2 T ((2 : ℕ) : ℤ) x →
        (Y.cf.st c).sim.prim x = (q N).1.F.om (globalIx2 T ((2 : ℕ) : ℤ) c x) ∧
        ∀ j, (Y.cf.st c).sim.vel j x = (q N).1.F.u j (globalIx2 T ((2 : ℕ) : ℤ) c x) ∧ (Y.cf.st c).sim.forcing j x = (q N).1.Φ j (globalIx2 T ((2 : ℕ) : ℤ) c x)) ∧
      ∀ b', (∀ k < 2, ∀ i < (A b').N, ((Y.cf.st (A b').m).ib b').rk.v.gforce k i = ((q N).1.hist b').F k i) ∧
        ∀ c, Valid2 T c → ((Y.cf.st c).ib b').time = ((q N).1.hist b').t := by
  subst hX hP ht hdt
  let J : C2 → Prog2 B := fun pr => jointProg2 A Q obs b rodDt pre final foto data fs pr n time 0 0 fun c => (s0 c, Q.zero)
  have hJm : J (A b).m = tipLoop2 Q.coupled obs b rodDt pre final foto data fs n time 0 0 (s0 (A b).m) := joint_master2 n time 0 0 _
  obtain ⟨hp, htr⟩ := tip2_fit (T := T) (P := ⟨a.gy, a.gx, xr, nu, widthOf a.width, a.freeStream⟩) (K := K) (cfl := cfl) (tol := tol) (R := Q.coupled) (rodDt := rodDt) (pre := pre)
    (final := final) (foto := foto) (data := data) (fs := fs) hauto obs n time 0 0 (refStart2 (xr / a.gx) X0 t0 time om u, s0 (A b).m) rfl (by rw [← hq]; exact hfit)
  dsimp only at hp htr
  rw [← hJm] at hp htr
  have hal : ∀ c, Alike2 (J (A b).m) (J c) := fun c => tipLoop2_alike n time 0 0 _
  have hfol : ∀ pr c, Valid2 T c → Follows2 A pr c (J pr) (copyProgs2 A Q obs b rodDt pre final foto data fs n time s0 c) := fun pr c _ =>
    copies_follow2 n time 0 0 fun c => (s0 c, Q.zero)
  have run := fun (c : C2) (hc : Valid2 T c) => coupled2_async hxr hcfl htol hK hK0 h hm hc (J c)
    (alike2_proper _ (J c) _ [] (hal c) hp) (alike2_tracked _ (J c) _ [] (hal c) htr) (copyProgs2 A Q obs b rodDt pre final foto data fs n time s0) (hfol c) buffered (hw c hc)
  obtain ⟨m1, m2, m3, m4⟩ := run (A b).m (hm b)
  obtain ⟨N, n1, n2, n3, n4⟩ := tip2_run (P := ⟨a.gy, a.gx, xr, nu, widthOf a.width, a.freeStream⟩) (K := K) (cfl := cfl) (tol := tol) (A := A) (R := Q.joint (A b).m) (b := b)
    (rodDt := rodDt) (pre := pre) (final := final) (foto := foto) (data := data) (fs := fs) n time 0 0 (refStart2 (xr / a.gx) X0 t0 time om u, fun c => (s0 c, Q.zero)) rfl rfl
  have hj := fun i => refRods2_joint (P := ⟨a.gy, a.gx, xr, nu, widthOf a.width, a.freeStream⟩) (K := K) (cfl := cfl) (tol := tol) (A := A) (Q := Q) (b := b) (rodDt := rodDt) (pre := pre)
    (fs := fs) i hq
  have hdt' : ∀ i, rodDt2 ⟨a.gy, a.gx, xr, nu, widthOf a.width, a.freeStream⟩ cfl tol pre (refRods2 ⟨a.gy, a.gx, xr, nu, widthOf a.width, a.freeStream⟩ K cfl tol A (Q.joint (A b).m) b
      rodDt pre fs (refStart2 (xr / a.gx) X0 t0 time om u, fun c => (s0 c, Q.zero)) i) = rodDt2 ⟨a.gy, a.gx, xr, nu, widthOf a.width, a.freeStream⟩ cfl tol pre (q i) := by
    intro i
    unfold rodDt2
    rw [(hj i).ref]
  have href : ∀ c, cRef2 ⟨a.gy, a.gx, xr, nu, widthOf a.width, a.freeStream⟩ K cfl tol A (J c) (refStart2 (xr / a.gx) X0 t0 time om u) =
      { (q N).1 with
        log := diary foto data 0 0 (fun i => (q i).1.time) (fun i => rodDt2 ⟨a.gy, a.gx, xr, nu, widthOf a.width, a.freeStream⟩ cfl tol pre (q i))
          (fun i => [(q i).1.time, sSup {x | ∃ G, Dom2 a.gy a.gx G ∧ x = (q i).1.F.om G}, refDeviation 2 (A b).N ((q i).1.hist b)])
          (fun i => obs (if c = (A b).m then (q i).2 else Q.adrift rodDt (fun i => (q i).1.time)
            (fun i => rodDt2 ⟨a.gy, a.gx, xr, nu, widthOf a.width, a.freeStream⟩ cfl tol pre (q i)) (s0 c) i)) N } := by
    intro c
    refine Eq.trans (n4 (fun s => obs (s c).1) []) ?_
    simp only [hdt', (hj _).ref, List.nil_append]
    congr 2
    funext i
    split
    · rename_i hc
      subst hc
      exact congrArg obs (hj i).master
    · rename_i hc
      rw [(hj i).other c hc]
  refine ⟨m1, m2, m3, N, n1, fun i hi => ?_, fun hN => ?_, fun Y hY hYd => ⟨fun c hc => ⟨?_, ?_⟩, ?_⟩⟩
  · have e := n2 i hi
    rw [(hj i).ref] at e
    exact e
  · have e := n3 hN
    rw [(hj N).ref] at e
    exact e
  · obtain ⟨-, -, -, c4⟩ := run c hc
    have e := (c4 Y hY hYd).1
    rw [href c] at e
    exact e
  · have e := (m4 Y hY hYd).2.1 c hc
    rw [href] at e
    exact e
  · have e := (m4 Y hY hYd).2.2
    rw [href] at e
    exact e

/-! ## The hypotheses can be met -/

omit [DecidableEq B] [NeZero T.gy] [NeZero T.gx] in
/-- Every state can be dealt out to the ranks, all of which have written what was written. -/
theorem startsC2_all (C : Cfg2) (A : B → Ib2) (S : CSt2 T B) : ∃ w : C2 → RkC2 T B, ∀ c, StartsC2 C A c S w := by
  obtain ⟨w, dt, hw⟩ := startsC2_exists C A (0, 0) S
  refine ⟨fun c => { w c with log := S.log }, fun c => ⟨dt, ?_⟩⟩
  exact ⟨hw.sim, hw.ib, hw.row, hw.col, hw.time, rfl⟩

/-- A body which is held in place; its state is the momentum it has received: its weight 1 and the first component of the force on its first node. -/
noncomputable def exHeld2 (X : LagField ℝ) : Body ℝ ℝ where
  move _ _ s := s
  kick _ h w s := s + h * (1 + w)
  move' _ _ s := s
  pos _ := X
  vel _ := fun _ _ => 0
  load _ F := F 0 0
  zero := 0

theorem exHeld2_alone (X : LagField ℝ) (h : ℝ) (n : ℕ) (t s : ℝ) : (exHeld2 X).alone h n t s = s + n * h := by
  induction n generalizing t s with
  | zero => simp [Body.alone]
  | succ n ih =>
    rw [Body.alone, ih]
    simp only [exHeld2]
    push_cast; ring

/-- The body which is held in place is inside, and its nodes never change hands. -/
theorem exHeld2_fit {A : B → Ib2} {b : B} {X : LagField ℝ} (hX0 : X0 b = X) {P : Params2} {cfl tol rodDt pre : ℝ} {fs : ℝ → Fin 2 → ℝ} {t0 : B → ℝ} {time : ℝ}
    {om : ℝ → ℝ → ℝ} {u : Fin 2 → ℝ → ℝ → ℝ} {dx : ℝ} (hin : Inside2 P.gy P.gx 1 P.dx (A b) X) (T : Cart2) (s : ℝ) (i : ℕ) :
    RodStep2 T P K cfl tol A (exHeld2 X).coupled b rodDt pre (refRods2 P K cfl tol A (exHeld2 X).coupled b rodDt pre fs (refStart2 dx X0 t0 time om u, s) i) := by
  have hsub : ∀ (h rt : ℝ) (n : ℕ) (q : RefC2 B × ℝ), q.1.lastX b = X → (refSubs2 P K cfl tol A (exHeld2 X).coupled b h rt n q).1.lastX b = X := by
    intro h rt n q hq
    cases n with
    | zero => exact hq
    | succ n => simp only [refSubs2, refSub2, cRef2, refForces2, Function.update_self]; rfl
  have hlast : (refRods2 P K cfl tol A (exHeld2 X).coupled b rodDt pre fs (refStart2 dx X0 t0 time om u, s) i).1.lastX b = X := by
    cases i with
    | zero => exact hX0
    | succ n => simp only [refRods2, refRod2, cRef2, refFull2, refForces2, Function.update_self]; rfl
  have hno : Noticed2 T P.dx (A b) X X := by
    intro l l' h1 h2
    rw [h1] at h2
    exact Or.inl (Except.ok.inj h2).symm
  have hin0 : Inside2 P.gy P.gx 0 P.dx (A b) X := by
    intro i hI G hG
    have := hin i hI G hG
    unfold Away2 at this ⊢
    push_cast at this ⊢; omega
  refine ⟨fun j _ => ⟨hin0, ?_⟩, hin, ?_⟩
  · rw [hsub _ _ _ _ hlast]; exact hno
  · rw [hsub _ _ _ _ hlast]; exact hno

theorem exHeld2_adrift (X : LagField ℝ) (rodDt : ℝ) (t dt : ℕ → ℝ) (s : ℝ) (i : ℕ) :
    (exHeld2 X).adrift rodDt t dt s (i + 1) = (exHeld2 X).adrift rodDt t dt s i + rodSteps (dt i) rodDt * localDt (dt i) rodDt := by
  rw [Body.adrift, exHeld2_alone]

/-- Two ranks, the master is rank (0, 1); the copies start with any momenta.  All hypotheses are met, the run ends after at least one iteration, and the copy of rank
(0, 0) has felt nothing but its weight, although the fluid acts on the body. -/
example [NeZero (⟨16, 8, 1, 2, 16, 4, false⟩ : Cart2).gy] [NeZero (⟨16, 8, 1, 2, 16, 4, false⟩ : Cart2).gx] [NeZero (⟨16, 8, 1, 1, 16, 8, false⟩ : Cart2).gy]
    [NeZero (⟨16, 8, 1, 1, 16, 8, false⟩ : Cart2).gx] {nu cfl : ℝ} (hcfl : 0 ≤ cfl) {K : Kern2} (hK : K.Local) (hK0 : ∀ r, K.upd r (fun _ _ => 0) = 0) (om : ℝ → ℝ → ℝ)
    (u : Fin 2 → ℝ → ℝ → ℝ) (buffered : Bool) (n : ℕ) (s0 : C2 → ℝ) (fs : ℝ → Fin 2 → ℝ) :
    ∃ w : C2 → RkC2 ⟨16, 8, 1, 2, 16, 4, false⟩ Unit, ∃ Y, ∃ N, ∃ (t dt : ℕ → ℝ) (line : ℕ → List ℝ) (place : ℕ → ℝ),
      DStar buffered (DConf.start (cCodes2 (simCfg2 ⟨16, 8, 1, 2, "navier_stokes_with_forcing", true, 2, .int 2⟩ ⟨16, 8, 1, 2, 16, 4, false⟩ 8 nu cfl) K 1e-10
        (fun _ => exBody2) (copyProgs2 (fun _ => exBody2) (exHeld2 exPos2) id () 0.01 0.5 1 0.2 0.1 fs (n + 1) 0 s0)) w) Y ∧ Y.Done ∧ 0 < N ∧ place 0 = s0 (0, 0) ∧
      (Y.cf.st (0, 0)).log = diary 0.2 0.1 0 0 t dt line place N ∧ ∀ i, place (i + 1) = place i + rodSteps (dt i) 0.01 * localDt (dt i) 0.01 := by
  obtain ⟨⟨S, hS⟩, -⟩ := exSetup2 nu cfl om u
  obtain ⟨w, hw⟩ := startsC2_all (simCfg2 ⟨16, 8, 1, 2, "navier_stokes_with_forcing", true, 2, .int 2⟩ ⟨16, 8, 1, 2, 16, 4, false⟩ 8 nu cfl) (fun _ => exBody2) S
  have e : (8 : ℝ) / ((8 : ℕ) : ℝ) = 1 := by norm_num
  have hv : Valid2 (⟨16, 8, 1, 2, 16, 4, false⟩ : Cart2) (0, 1) := by unfold Valid2; norm_num
  have hv0 : Valid2 (⟨16, 8, 1, 2, 16, 4, false⟩ : Cart2) (0, 0) := by unfold Valid2; norm_num
  have hne : (0, 0) ≠ exBody2.m := by decide
  obtain ⟨P, hP⟩ : ∃ P : Params2, P = ⟨16, 8, 8, nu, widthOf (.int 2), true⟩ := ⟨_, rfl⟩
  obtain ⟨q, hq⟩ : ∃ q : ℕ → RefC2 Unit × ℝ, q = refRods2 P K cfl 1e-10 (fun _ : Unit => exBody2) (exHeld2 exPos2).coupled () 0.01 0.5 fs
    (refStart2 (8 / ((8 : ℕ) : ℝ)) (fun _ => exPos2) (fun _ => 0) 0 om u, s0 exBody2.m) := ⟨_, rfl⟩
  have hfit : ∀ i, RodStep2 (⟨16, 8, 1, 2, 16, 4, false⟩ : Cart2) P K cfl 1e-10 (fun _ : Unit => exBody2) (exHeld2 exPos2).coupled () 0.01 0.5 (q i) := by
    intro i
    rw [hq]
    refine exHeld2_fit (X0 := fun _ : Unit => exPos2) rfl ?_ _ _ _
    subst hP
    change Inside2 16 8 1 (8 / ((8 : ℕ) : ℝ)) exBody2 exPos2
    rw [e]; exact exBody2_inside
  obtain ⟨-, -, ⟨Y, hY, hd⟩, N, h1, h2, h3, h4⟩ := copies2_run (by norm_num : (0 : ℝ) < 8) hcfl (by norm_num : (0 : ℝ) < 1e-10) hK hK0 hS (fun _ => hv) (exHeld2 exPos2) id ()
    rfl 0.01 0.5 1 0.2 0.1 fs (n + 1) s0 hP hq (fun i _ _ => hfit i) rfl rfl buffered (fun c _ => hw c) rfl
  have w1 := ((h4 Y hY hd).1 _ hv0).1
  simp only [if_neg hne] at w1
  refine ⟨w, Y, N, _, _, _, _, hY, hd, ?_, rfl, w1, fun i => exHeld2_adrift _ _ _ _ _ _⟩
  by_contra hN
  have hN : N = 0 := by omega
  have w2 := h3 (by omega)
  rw [hN, hq] at w2
  simp only [refRods2, refStart2] at w2
  norm_num at w2

end Sopht
