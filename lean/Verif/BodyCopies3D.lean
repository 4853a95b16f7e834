import Verif.RodDriver3
import Verif.SubSteps3
import Verif.AsyncIb3DProps
import Verif.BodyCopies2D

/-! # Every rank steps its own copy of a body, 3D (C113)

`examples/3d_examples/FlowPastRodCase/flow_past_rod_case.py` (below "FPR3.py"); see `BodyCopies2D`. -/

namespace Sopht

set_option linter.unusedSimpArgs false

/-! ## The driver, as one rank runs it -/

variable {σ β : Type}

/-- The timer of the driver has run out: `foto_timer > foto_timer_limit or foto_timer == 0` (FPR3.py:221). -/
def due3 (timer limit : ℝ) : Prop := limit < timer ∨ timer = 0

open Classical in
/-- The timer, reset if it has run out (FPR3.py:222). -/
noncomputable def resetTimer3 (timer limit : ℝ) : ℝ := if due3 timer limit then 0 else timer

variable {B : Type}

open Classical in
/-- The log line (FPR3.py:245-256): time, greatest vorticity, divergence norm, deviation error. The total force is left out, the angle of the rod is in `dataPart3`. -/
noncomputable def infoPart3 (b : B) (d : Prop) (t : ℝ) (k : Prog3 B) : Prog3 B :=
  if d then .maxVort fun v => .divNorm fun d => .deviation b fun e => .out t (.out v (.out d (.out e k))) else k

open Classical in
/-- The diagnostic data (FPR3.py:236-239, 248): time and the angle of the rod, or whatever of the body is looked at. The code does this on one rank only; which one is the
`pr` of the theorems, what the other ranks write is ignored there. -/
noncomputable def dataPart3 (d : Prop) (t x : ℝ) (k : Prog3 B) : Prog3 B := if d then .out t (.out x k) else k

/-- The loop (FPR3.py:219-281), at most `n` iterations; `t` is `flow_sim.time`, `ft` is `foto_timer`.  Files are left out. -/
noncomputable def tipLoop3 (R : Stepper σ) (obs : σ → ℝ) (b : B) (rodDt pre final foto : ℝ) (fs : ℝ → Fin 3 → ℝ) : ℕ → ℝ → ℝ → σ → Prog3 B
  | 0, _, _, _ => .stop
  | n + 1, t, ft, s =>
    if t < final then
      infoPart3 b (due3 ft foto) t <| dataPart3 (due3 ft foto) t (obs s) <|
      .stableDt pre fun dt =>
        subSteps3 R b (localDt dt rodDt) (rodSteps dt rodDt) t s fun _ s' =>
          .interact b (R.pos s') (R.vel s') (.flow dt (fs t)
            (tipLoop3 R obs b rodDt pre final foto fs n (t + dt) (resetTimer3 ft foto + dt) s'))
    else .stop

/-- What the ranks run: rank `c` the loop with its own copy `s0 c` of the body; the arrays for the loads are zero (rigid_body_flow_interaction_mpi.py:35-36,
cosserat_rod_flow_interaction_mpi.py:36-41). -/
noncomputable def copyProgs3 (A : B → Ib3) (Q : Body σ β) (obs : σ → ℝ) (b : B) (rodDt pre final foto : ℝ) (fs : ℝ → Fin 3 → ℝ) (n : ℕ) (t : ℝ) (s0 : C3 → σ)
    (c : C3) : Prog3 B :=
  tipLoop3 (Q.onRank (decide (c = (A b).m))) (fun s => obs s.1) b rodDt pre final foto fs n t 0 (s0 c, Q.zero)

open Classical in
/-- A timer of the driver at the start of iteration `i`, from `x` at the start: when it has reached its limit, or is zero, it is set to zero; then the iteration adds its step. -/
noncomputable def timerAt3 (limit : ℝ) (dt : ℕ → ℝ) (x : ℝ) : ℕ → ℝ
  | 0 => x
  | i + 1 => (if limit < timerAt3 limit dt x i ∨ timerAt3 limit dt x i = 0 then 0 else timerAt3 limit dt x i) + dt i

open Classical in
/-- What is written in `N` iterations, with the timer starting at `ft`: in an iteration in which it has run out a line, and time and place. -/
noncomputable def diary3 (foto ft : ℝ) (t dt : ℕ → ℝ) (line : ℕ → List ℝ) (place : ℕ → ℝ) (N : ℕ) : List ℝ :=
  (List.range N).flatMap fun i => (if foto < timerAt3 foto dt ft i ∨ timerAt3 foto dt ft i = 0 then line i else []) ++
    if foto < timerAt3 foto dt ft i ∨ timerAt3 foto dt ft i = 0 then [t i, place i] else []

/-- the loop with all copies together; the place of copy `pr` is written -/
noncomputable def jointProg3 (A : B → Ib3) (Q : Body σ β) (obs : σ → ℝ) (b : B) (rodDt pre final foto : ℝ) (fs : ℝ → Fin 3 → ℝ) (pr : C3) (n : ℕ) (t ft : ℝ)
    (s : C3 → σ × β) : Prog3 B :=
  tipLoop3 (Q.joint (A b).m) (fun s => obs (s pr).1) b rodDt pre final foto fs n t ft s

section follows

variable {A : B → Ib3} {Q : Body σ β} {obs : σ → ℝ} {b : B} {rodDt pre final foto : ℝ} {fs : ℝ → Fin 3 → ℝ} {pr c : C3}

theorem infoPart3_follows {d : Prop} {t : ℝ} {k k' : Prog3 B} (h : Follows3 A pr c k k') : Follows3 A pr c (infoPart3 b d t k) (infoPart3 b d t k') := by
  unfold infoPart3
  split
  · exact ⟨_, rfl, fun v => ⟨_, rfl, fun d => ⟨_, rfl, fun e => ⟨_, _, rfl, fun _ => rfl, _, _, rfl, fun _ => rfl, _, _, rfl, fun _ => rfl, _, _, rfl, fun _ => rfl, h⟩⟩⟩⟩
  · exact h

theorem dataPart3_follows {d : Prop} {t x x' : ℝ} {k k' : Prog3 B} (hx : c = pr → x' = x) (h : Follows3 A pr c k k') :
    Follows3 A pr c (dataPart3 d t x k) (dataPart3 d t x' k') := by
  unfold dataPart3
  split
  · exact ⟨_, _, rfl, fun _ => rfl, _, _, rfl, hx, h⟩
  · exact h

theorem subSteps3_follows (h : ℝ) {k : ℝ → (C3 → σ × β) → Prog3 B} {k' : ℝ → σ × β → Prog3 B} (hk : ∀ rt s, Follows3 A pr c (k rt s) (k' rt (s c))) (n : ℕ) (rt : ℝ)
    (s : C3 → σ × β) : Follows3 A pr c (subSteps3 (Q.joint (A b).m) b h n rt s k) (subSteps3 (Q.onRank (decide (c = (A b).m))) b h n rt (s c) k') := by
  induction n generalizing rt s with
  | zero => exact hk _ _
  | succ n ih =>
    refine ⟨_, _, _, rfl, fun hc => ?_, fun F F' hF => ⟨_, rfl, ?_⟩⟩
    · subst hc
      simp only [Body.joint, decide_true]
      exact ⟨trivial, trivial⟩
    · have e := ih (rt + h) ((Q.joint (A b).m).move' rt h ((Q.joint (A b).m).kick rt h F ((Q.joint (A b).m).move rt h s)))
      by_cases hc : c = (A b).m
      · rw [hF hc]; exact e
      · have e' : ∀ (G : LagField ℝ) (x : σ × β), (Q.onRank (decide (c = (A b).m))).kick rt h G x = (Q.onRank (decide (c = (A b).m))).kick rt h F x := by
          intro G x
          simp only [Body.onRank, hc, decide_false]
          rfl
        rw [e']
        exact e

theorem copies_follow3 (n : ℕ) (t ft : ℝ) (s : C3 → σ × β) : Follows3 A pr c (jointProg3 A Q obs b rodDt pre final foto fs pr n t ft s)
    (tipLoop3 (Q.onRank (decide (c = (A b).m))) (fun s => obs s.1) b rodDt pre final foto fs n t ft (s c)) := by
  unfold jointProg3
  induction n generalizing t ft s with
  | zero => rfl
  | succ n ih =>
    simp only [tipLoop3]
    split
    · refine infoPart3_follows (dataPart3_follows (fun hc => by rw [hc]) ⟨_, rfl, fun dt => subSteps3_follows _ (fun rt s' => ?_) _ _ _⟩)
      refine ⟨_, _, _, rfl, fun hc => ?_, _, rfl, ih _ _ _⟩
      subst hc
      simp only [Body.joint, decide_true]
      exact ⟨trivial, trivial⟩
    · rfl

/-- seen from the master, the loop with all copies is the loop with one copy -/
theorem joint_master3 (n : ℕ) (t ft : ℝ) (s : C3 → σ × β) : jointProg3 A Q obs b rodDt pre final foto fs (A b).m n t ft s =
    tipLoop3 Q.coupled obs b rodDt pre final foto fs n t ft (s (A b).m).1 := by
  have key : ∀ (h : ℝ) (k : ℝ → (C3 → σ × β) → Prog3 B) (k' : ℝ → σ → Prog3 B), (∀ rt s, k rt s = k' rt (s (A b).m).1) → ∀ (n : ℕ) (rt : ℝ) (s : C3 → σ × β),
      subSteps3 (Q.joint (A b).m) b h n rt s k = subSteps3 Q.coupled b h n rt (s (A b).m).1 k' := by
    intro h k k' hk n
    induction n with
    | zero => intro rt s; exact hk rt s
    | succ n ih =>
      intro rt s
      simp only [subSteps3, ih]
      simp only [Body.joint, Body.onRank, Body.coupled, decide_true, if_true]
  unfold jointProg3
  induction n generalizing t ft s with
  | zero => rfl
  | succ n ih =>
    simp only [tipLoop3]
    congr 1
    congr 1
    congr 1
    congr 1
    funext dt
    refine key _ _ _ (fun rt s' => ?_) _ _ _
    rw [ih]
    simp only [Body.joint, Body.onRank, Body.coupled, if_true]

end follows

/-! ## What is written does not matter for the run -/

/-- The programs differ in what they write only. -/
def Alike3 : Prog3 B → Prog3 B → Prop
  | .stop, q => q = .stop
  | .interact b X U k, q => ∃ k', q = .interact b X U k' ∧ Alike3 k k'
  | .forces b X U k, q => ∃ k', q = .forces b X U k' ∧ ∀ f, Alike3 (k f) (k' f)
  | .advance b dt k, q => ∃ k', q = .advance b dt k' ∧ Alike3 k k'
  | .flow dt fs k, q => ∃ k', q = .flow dt fs k' ∧ Alike3 k k'
  | .stableDt pre k, q => ∃ k', q = .stableDt pre k' ∧ ∀ x, Alike3 (k x) (k' x)
  | .deviation b k, q => ∃ k', q = .deviation b k' ∧ ∀ x, Alike3 (k x) (k' x)
  | .maxVort k, q => ∃ k', q = .maxVort k' ∧ ∀ x, Alike3 (k x) (k' x)
  | .divNorm k, q => ∃ k', q = .divNorm k' ∧ ∀ x, Alike3 (k x) (k' x)
  | .ghost k, q => ∃ k', q = .ghost k' ∧ Alike3 k k'
  | .out _ k, q => ∃ x' k', q = .out x' k' ∧ Alike3 k k'

variable [DecidableEq B]

theorem alike3_proper {P : Params3} {K : Kern3} {cfl tol : ℝ} {A : B → Ib3} (p : Prog3 B) : ∀ (q : Prog3 B) (r : RefC3 B) (l : List ℝ), Alike3 p q →
    Proper3 P K cfl tol A p r → Proper3 P K cfl tol A q { r with log := l } := by
  induction p with
  | stop => rintro q r l rfl -; trivial
  | interact b X U k ih => rintro q r l ⟨k', rfl, h⟩ ⟨h1, h2, h3⟩; exact ⟨h1, h2, ih _ _ l h h3⟩
  | forces b X U k ih => rintro q r l ⟨k', rfl, h⟩ ⟨h1, h2, h3⟩; exact ⟨h1, h2, ih _ _ _ l (h _) h3⟩
  | advance b dt k ih => rintro q r l ⟨k', rfl, h⟩ h3; have q := ih _ _ l h h3; exact q
  | flow dt fs k ih => rintro q r l ⟨k', rfl, h⟩ h3; have q := ih _ _ l h h3; exact q
  | stableDt pre k ih => rintro q r l ⟨k', rfl, h⟩ h3; have q := ih _ _ _ l (h _) h3; exact q
  | deviation b k ih => rintro q r l ⟨k', rfl, h⟩ h3; have q := ih _ _ _ l (h _) h3; exact q
  | maxVort k ih => rintro q r l ⟨k', rfl, h⟩ h3; have q := ih _ _ _ l (h _) h3; exact q
  | divNorm k ih => rintro q r l ⟨k', rfl, h⟩ h3; have q := ih _ _ _ l (h _) h3; exact q
  | ghost k ih => rintro q r l ⟨k', rfl, h⟩ h3; have q := ih _ _ l h h3; exact q
  | out x k ih => rintro q r l ⟨x', k', rfl, h⟩ h3; have q := ih k' _ (l ++ [x']) h h3; exact q

theorem alike3_tracked {T : Cart3} {P : Params3} {K : Kern3} {cfl tol : ℝ} {A : B → Ib3} (p : Prog3 B) : ∀ (q : Prog3 B) (r : RefC3 B) (l : List ℝ), Alike3 p q →
    Tracked3 T P K cfl tol A p r → Tracked3 T P K cfl tol A q { r with log := l } := by
  induction p with
  | stop => rintro q r l rfl -; trivial
  | interact b X U k ih => rintro q r l ⟨k', rfl, h⟩ ⟨h1, h3⟩; exact ⟨h1, ih _ _ l h h3⟩
  | forces b X U k ih => rintro q r l ⟨k', rfl, h⟩ ⟨h1, h3⟩; exact ⟨h1, ih _ _ _ l (h _) h3⟩
  | advance b dt k ih => rintro q r l ⟨k', rfl, h⟩ h3; have q := ih _ _ l h h3; exact q
  | flow dt fs k ih => rintro q r l ⟨k', rfl, h⟩ h3; have q := ih _ _ l h h3; exact q
  | stableDt pre k ih => rintro q r l ⟨k', rfl, h⟩ h3; have q := ih _ _ _ l (h _) h3; exact q
  | deviation b k ih => rintro q r l ⟨k', rfl, h⟩ h3; have q := ih _ _ _ l (h _) h3; exact q
  | maxVort k ih => rintro q r l ⟨k', rfl, h⟩ h3; have q := ih _ _ _ l (h _) h3; exact q
  | divNorm k ih => rintro q r l ⟨k', rfl, h⟩ h3; have q := ih _ _ _ l (h _) h3; exact q
  | ghost k ih => rintro q r l ⟨k', rfl, h⟩ h3; have q := ih _ _ l h h3; exact q
  | out x k ih => rintro q r l ⟨x', k', rfl, h⟩ h3; have q := ih k' _ (l ++ [x']) h h3; exact q

section alike

variable {A : B → Ib3} {Q : Body σ β} {obs : σ → ℝ} {b : B} {rodDt pre final foto : ℝ} {fs : ℝ → Fin 3 → ℝ}

omit [DecidableEq B] in
theorem infoPart3_alike {d : Prop} {t : ℝ} {k k' : Prog3 B} (h : Alike3 k k') : Alike3 (infoPart3 b d t k) (infoPart3 b d t k') := by
  unfold infoPart3
  split
  · exact ⟨_, rfl, fun v => ⟨_, rfl, fun d => ⟨_, rfl, fun e => ⟨_, _, rfl, _, _, rfl, _, _, rfl, _, _, rfl, h⟩⟩⟩⟩
  · exact h

omit [DecidableEq B] in
theorem dataPart3_alike {d : Prop} {t x x' : ℝ} {k k' : Prog3 B} (h : Alike3 k k') : Alike3 (dataPart3 d t x k) (dataPart3 d t x' k') := by
  unfold dataPart3
  split
  · exact ⟨_, _, rfl, _, _, rfl, h⟩
  · exact h

omit [DecidableEq B] in
theorem subSteps3_alike {R : Stepper σ} (h : ℝ) {k k' : ℝ → σ → Prog3 B} (hk : ∀ rt s, Alike3 (k rt s) (k' rt s)) (n : ℕ) (rt : ℝ) (s : σ) :
    Alike3 (subSteps3 R b h n rt s k) (subSteps3 R b h n rt s k') := by
  induction n generalizing rt s with
  | zero => exact hk _ _
  | succ n ih => exact ⟨_, rfl, fun F => ⟨_, rfl, ih _ _⟩⟩

omit [DecidableEq B] in
theorem tipLoop3_alike {R : Stepper σ} {obs obs' : σ → ℝ} (n : ℕ) (t ft : ℝ) (s : σ) : Alike3 (tipLoop3 R obs b rodDt pre final foto fs n t ft s)
    (tipLoop3 R obs' b rodDt pre final foto fs n t ft s) := by
  induction n generalizing t ft s with
  | zero => rfl
  | succ n ih =>
    simp only [tipLoop3]
    split
    · exact infoPart3_alike (dataPart3_alike ⟨_, rfl, fun dt => subSteps3_alike _ (fun rt s' => by exact ⟨_, rfl, _, rfl, ih _ _ _⟩) _ _ _⟩)
    · rfl

end alike

/-! ## The loop on the global grid -/

section loop

variable {P : Params3} {K : Kern3} {cfl tol : ℝ} {A : B → Ib3} {R : Stepper σ} {b : B} {rodDt pre final foto : ℝ} {fs : ℝ → Fin 3 → ℝ}

theorem refSubs3_shift (h rt : ℝ) (q : RefC3 B × σ) (n : ℕ) :
    refSubs3 P K cfl tol A R b h rt (n + 1) q = refSubs3 P K cfl tol A R b h (rt + h) n (refSub3 P K cfl tol A R b h rt q) := by
  induction n with
  | zero => simp [refSubs3]
  | succ n ih =>
    have e : rt + ((n + 1 : ℕ) : ℝ) * h = rt + h + n * h := by push_cast; ring
    rw [refSubs3, ih, e]
    rfl

theorem refRods3_shift (q : RefC3 B × σ) (n : ℕ) :
    refRods3 P K cfl tol A R b rodDt pre fs q (n + 1) = refRods3 P K cfl tol A R b rodDt pre fs (refRod3 P K cfl tol A R b rodDt pre fs q) n := by
  induction n with
  | zero => rfl
  | succ n ih => rw [refRods3, ih]; rfl

/-- the sub-steps, whatever comes afterwards and whatever was written before -/
theorem subSteps3_run (h : ℝ) (k : ℝ → σ → Prog3 B) (l : List ℝ) (n : ℕ) (rt : ℝ) (q : RefC3 B × σ) :
    cRef3 P K cfl tol A (subSteps3 R b h n rt q.2 k) { q.1 with log := l } =
      cRef3 P K cfl tol A (k (rt + n * h) (refSubs3 P K cfl tol A R b h rt n q).2) { (refSubs3 P K cfl tol A R b h rt n q).1 with log := l } := by
  induction n generalizing rt q with
  | zero => simp [subSteps3, refSubs3]
  | succ n ih =>
    have e : rt + ((n + 1 : ℕ) : ℝ) * h = rt + h + n * h := by push_cast; ring
    rw [refSubs3_shift, e, ← ih]
    simp only [subSteps3, cRef3, refSub3, refForces3, Function.update_self]
    rfl

theorem info3_ref (d : Prop) [Decidable d] (t : ℝ) (r : RefC3 B) (l : List ℝ) (k : Prog3 B) : cRef3 P K cfl tol A (infoPart3 b d t k) { r with log := l } =
    cRef3 P K cfl tol A k { r with log := l ++ if d then [t, sSup {x | ∃ j G, Dom3 P.gz P.gy P.gx G ∧ x = r.F.om j G}, refDiv3 P K r.F.om, refDeviation 3 (A b).N (r.hist b)] else [] } := by
  unfold infoPart3
  by_cases h : d
  · rw [if_pos h, if_pos h]
    simp only [cRef3, List.append_assoc, List.cons_append, List.nil_append]
  · rw [if_neg h, if_neg h, List.append_nil]

theorem data3_ref (d : Prop) [Decidable d] (t x : ℝ) (r : RefC3 B) (l : List ℝ) (k : Prog3 B) : cRef3 P K cfl tol A (dataPart3 d t x k) { r with log := l } =
    cRef3 P K cfl tol A k { r with log := l ++ if d then [t, x] else [] } := by
  unfold dataPart3
  by_cases h : d
  · rw [if_pos h, if_pos h]
    simp only [cRef3, List.append_assoc, List.cons_append, List.nil_append]
  · rw [if_neg h, if_neg h, List.append_nil]

theorem timerAt3_shift (limit : ℝ) (dt : ℕ → ℝ) (x : ℝ) (i : ℕ) : timerAt3 limit dt x (i + 1) = timerAt3 limit (fun i => dt (i + 1)) (resetTimer3 x limit + dt 0) i := by
  induction i with
  | zero =>
    simp only [timerAt3, resetTimer3, due3]
    exact congrArg (· + dt 0) (ite_any _ _ _ _ _)
  | succ i ih => rw [timerAt3, ih]; rfl

open Classical in
theorem diary3_succ (ft : ℝ) (t dt : ℕ → ℝ) (line : ℕ → List ℝ) (place : ℕ → ℝ) (N : ℕ) : diary3 foto ft t dt line place (N + 1) =
    ((if due3 ft foto then line 0 else []) ++ if due3 ft foto then [t 0, place 0] else []) ++
      diary3 foto (resetTimer3 ft foto + dt 0) (fun i => t (i + 1)) (fun i => dt (i + 1)) (fun i => line (i + 1)) (fun i => place (i + 1)) N := by
  unfold diary3
  rw [List.range_succ_eq_map, List.flatMap_cons, List.flatMap_map]
  refine congrArg₂ (· ++ ·) (by simp only [timerAt3, due3]; exact congrArg₂ _ (ite_any _ _ _ _ _) (ite_any _ _ _ _ _)) (congrArg (fun f => List.flatMap f (List.range N)) (funext fun i => ?_))
  simp only [Nat.succ_eq_add_one, timerAt3_shift]

open Classical in
/-- The loop: how many iterations there are, the state afterwards, and what was written. -/
theorem tip3_run (n : ℕ) (t ft : ℝ) (q0 : RefC3 B × σ) (ht : q0.1.time = t) {q : ℕ → RefC3 B × σ} (hq : q = refRods3 P K cfl tol A R b rodDt pre fs q0) :
    ∃ N ≤ n, (∀ i < N, (q i).1.time < final) ∧ (N < n → final ≤ (q N).1.time) ∧ ∀ (obs : σ → ℝ) (l : List ℝ),
      cRef3 P K cfl tol A (tipLoop3 R obs b rodDt pre final foto fs n t ft q0.2) { q0.1 with log := l } =
        { (q N).1 with
          log := l ++ diary3 foto ft (fun i => (q i).1.time) (fun i => rodDt3 P cfl tol pre (q i))
            (fun i => [(q i).1.time, sSup {x | ∃ j G, Dom3 P.gz P.gy P.gx G ∧ x = (q i).1.F.om j G}, refDiv3 P K (q i).1.F.om, refDeviation 3 (A b).N ((q i).1.hist b)]) (fun i => obs (q i).2) N } := by
  subst hq
  induction n generalizing t ft q0 with
  | zero =>
    refine ⟨0, le_refl _, by simp, by simp, fun obs l => ?_⟩
    simp only [tipLoop3, cRef3, diary3, List.range_zero, List.flatMap_nil, List.append_nil, refRods3]
  | succ n ih =>
    subst ht
    by_cases hlt : q0.1.time < final
    · have htime : (refRod3 P K cfl tol A R b rodDt pre fs q0).1.time = q0.1.time + rodDt3 P cfl tol pre q0 := by
        have e := (refSubs3_clock (P := P) (K := K) (cfl := cfl) (tol := tol) (A := A) (R := R) (b := b) (localDt (rodDt3 P cfl tol pre q0) rodDt) q0.1.time q0
          (rodSteps (rodDt3 P cfl tol pre q0) rodDt)).1
        rw [← e]
        rfl
      obtain ⟨N, g1, g2, g3, g4⟩ := ih (q0.1.time + rodDt3 P cfl tol pre q0) (resetTimer3 ft foto + rodDt3 P cfl tol pre q0) _ htime
      refine ⟨N + 1, by omega, fun i hi => ?_, fun hN => ?_, fun obs l => ?_⟩
      · cases i with
        | zero => exact hlt
        | succ i => rw [refRods3_shift]; exact g2 i (by omega)
      · rw [refRods3_shift]; exact g3 (by omega)
      · simp only [tipLoop3]
        rw [if_pos hlt, info3_ref, data3_ref, diary3_succ]
        simp only [cRef3, refRods3_shift]
        rw [show refRods3 P K cfl tol A R b rodDt pre fs q0 0 = q0 from rfl]
        have e := subSteps3_run (P := P) (K := K) (cfl := cfl) (tol := tol) (A := A) (R := R) (b := b) (localDt (rodDt3 P cfl tol pre q0) rodDt) (fun _ s' =>
          .interact b (R.pos s') (R.vel s') (.flow (rodDt3 P cfl tol pre q0) (fs q0.1.time) (tipLoop3 R obs b rodDt pre final foto fs n (q0.1.time + rodDt3 P cfl tol pre q0)
            (resetTimer3 ft foto + rodDt3 P cfl tol pre q0) s')))
          ((l ++ if due3 ft foto then [q0.1.time, sSup {x | ∃ j G, Dom3 P.gz P.gy P.gx G ∧ x = q0.1.F.om j G}, refDiv3 P K q0.1.F.om, refDeviation 3 (A b).N (q0.1.hist b)] else []) ++
            if due3 ft foto then [q0.1.time, obs q0.2] else []) (rodSteps (rodDt3 P cfl tol pre q0) rodDt) q0.1.time q0
        refine Eq.trans e ?_
        have e' := g4 obs ((l ++ if due3 ft foto then [q0.1.time, sSup {x | ∃ j G, Dom3 P.gz P.gy P.gx G ∧ x = q0.1.F.om j G}, refDiv3 P K q0.1.F.om, refDeviation 3 (A b).N (q0.1.hist b)] else []) ++
            if due3 ft foto then [q0.1.time, obs q0.2] else [])
        refine Eq.trans e' ?_
        simp only [List.append_assoc]
    · refine ⟨0, by omega, by simp, fun _ => ?_, fun obs l => ?_⟩
      · exact not_lt.1 hlt
      · simp only [tipLoop3]
        rw [if_neg hlt]
        simp only [cRef3, diary3, List.range_zero, List.flatMap_nil, List.append_nil, refRods3]

omit [DecidableEq B] in
theorem alike3_refl (p : Prog3 B) : Alike3 p p := by
  induction p with
  | stop => rfl
  | interact b X U k ih => exact ⟨_, rfl, ih⟩
  | forces b X U k ih => exact ⟨_, rfl, ih⟩
  | advance b dt k ih => exact ⟨_, rfl, ih⟩
  | flow dt fs k ih => exact ⟨_, rfl, ih⟩
  | stableDt pre k ih => exact ⟨_, rfl, ih⟩
  | deviation b k ih => exact ⟨_, rfl, ih⟩
  | maxVort k ih => exact ⟨_, rfl, ih⟩
  | divNorm k ih => exact ⟨_, rfl, ih⟩
  | ghost k ih => exact ⟨_, rfl, ih⟩
  | out x k ih => exact ⟨_, _, rfl, ih⟩

variable {T : Cart3}

theorem subSteps3_fit (hauto : (A b).auto = true) (h : ℝ) {k : ℝ → σ → Prog3 B} (n : ℕ) (rt : ℝ) (q : RefC3 B × σ)
    (hs : ∀ j < n, let q' := refSubs3 P K cfl tol A R b h rt j q
      let X := R.pos (R.move (rt + j * h) h q'.2)
      Inside3 P.gz P.gy P.gx 0 P.dx (A b) X ∧ Noticed3 T P.dx (A b) (q'.1.lastX b) X)
    (hk : Proper3 P K cfl tol A (k (rt + n * h) (refSubs3 P K cfl tol A R b h rt n q).2) (refSubs3 P K cfl tol A R b h rt n q).1 ∧
      Tracked3 T P K cfl tol A (k (rt + n * h) (refSubs3 P K cfl tol A R b h rt n q).2) (refSubs3 P K cfl tol A R b h rt n q).1) :
    Proper3 P K cfl tol A (subSteps3 R b h n rt q.2 k) q.1 ∧ Tracked3 T P K cfl tol A (subSteps3 R b h n rt q.2 k) q.1 := by
  induction n generalizing rt q with
  | zero => simpa [subSteps3, refSubs3] using hk
  | succ n ih =>
    have e : rt + ((n + 1 : ℕ) : ℝ) * h = rt + h + n * h := by push_cast; ring
    rw [refSubs3_shift, e] at hk
    obtain ⟨i1, i2⟩ := ih (rt + h) (refSub3 P K cfl tol A R b h rt q) (fun j hj => by
      have w := hs (j + 1) (by omega)
      have e : rt + ((j + 1 : ℕ) : ℝ) * h = rt + h + j * h := by push_cast; ring
      dsimp only at w ⊢
      rw [refSubs3_shift, e] at w
      exact w) hk
    obtain ⟨w1, w2⟩ := hs 0 (by omega)
    simp only [Nat.cast_zero, zero_mul, add_zero, refSubs3] at w1 w2
    have e' : refForceField3 (A b).N ((refSub3 P K cfl tol A R b h rt q).1.hist b) =
        refForceField3 (A b).N (refLag3 P.dx (A b) q.1.F.u (R.pos (R.move rt h q.2)) (R.vel (R.move rt h q.2)) (q.1.hist b)) := by
      simp only [refSub3, cRef3, refForces3, Function.update_self]
      rfl
    have e2 : (refSub3 P K cfl tol A R b h rt q).2 = R.move' rt h (R.kick rt h (refForceField3 (A b).N (refLag3 P.dx (A b) q.1.F.u (R.pos (R.move rt h q.2))
        (R.vel (R.move rt h q.2)) (q.1.hist b))) (R.move rt h q.2)) := by
      rw [← e']; rfl
    rw [e2] at i1 i2
    exact ⟨⟨w1, .inl hauto, i1⟩, w2, i2⟩

/-- If the body stays inside and remappings are noticed in every iteration, then in the loop. -/
theorem tip3_fit (hauto : (A b).auto = true) (obs : σ → ℝ) (n : ℕ) (t ft : ℝ) (q0 : RefC3 B × σ) (ht : q0.1.time = t)
    (hfit : ∀ i < n, (refRods3 P K cfl tol A R b rodDt pre fs q0 i).1.time < final → RodStep3 T P K cfl tol A R b rodDt pre (refRods3 P K cfl tol A R b rodDt pre fs q0 i)) :
    Proper3 P K cfl tol A (tipLoop3 R obs b rodDt pre final foto fs n t ft q0.2) q0.1 ∧
      Tracked3 T P K cfl tol A (tipLoop3 R obs b rodDt pre final foto fs n t ft q0.2) q0.1 := by
  induction n generalizing t ft q0 with
  | zero => exact ⟨trivial, trivial⟩
  | succ n ih =>
    simp only [tipLoop3]
    split
    · rename_i hlt
      have hlog : ∀ (k : Prog3 B) (r : RefC3 B) (l : List ℝ), Proper3 P K cfl tol A k r ∧ Tracked3 T P K cfl tol A k r →
          Proper3 P K cfl tol A k { r with log := l } ∧ Tracked3 T P K cfl tol A k { r with log := l } := fun k r l w =>
        ⟨alike3_proper k k r l (alike3_refl k) w.1, alike3_tracked k k r l (alike3_refl k) w.2⟩
      have h2 : ∀ d t x (k : Prog3 B) (r : RefC3 B), Proper3 P K cfl tol A k r ∧ Tracked3 T P K cfl tol A k r →
          Proper3 P K cfl tol A (dataPart3 d t x k) r ∧ Tracked3 T P K cfl tol A (dataPart3 d t x k) r := by
        intro d t x k r w
        unfold dataPart3
        split
        · exact hlog k r _ w
        · exact w
      have h3 : ∀ d t (k : Prog3 B) (r : RefC3 B), Proper3 P K cfl tol A k r ∧ Tracked3 T P K cfl tol A k r →
          Proper3 P K cfl tol A (infoPart3 b d t k) r ∧ Tracked3 T P K cfl tol A (infoPart3 b d t k) r := by
        intro d t k r w
        unfold infoPart3
        split
        · exact hlog k r _ w
        · exact w
      refine h3 _ _ _ _ (h2 _ _ _ _ _ ?_)
      subst ht
      obtain ⟨w1, w2⟩ := hfit 0 (by omega) hlt
      simp only [Proper3, Tracked3]
      refine subSteps3_fit hauto _ _ _ q0 w1 ?_
      have htime : (refRod3 P K cfl tol A R b rodDt pre fs q0).1.time = q0.1.time + rodDt3 P cfl tol pre q0 := by
        have e := (refSubs3_clock (P := P) (K := K) (cfl := cfl) (tol := tol) (A := A) (R := R) (b := b) (localDt (rodDt3 P cfl tol pre q0) rodDt) q0.1.time q0
          (rodSteps (rodDt3 P cfl tol pre q0) rodDt)).1
        rw [← e]
        rfl
      obtain ⟨i1, i2⟩ := ih (q0.1.time + rodDt3 P cfl tol pre q0) (resetTimer3 ft foto + rodDt3 P cfl tol pre q0) _ htime (fun i hi => by
        have w := hfit (i + 1) (by omega)
        rw [refRods3_shift] at w
        exact w)
      exact ⟨⟨w2.1, .inl hauto, i1⟩, w2.2, i2⟩
    · exact ⟨trivial, trivial⟩

end loop

/-! ## All copies, on the global grid -/

section joint

variable {P : Params3} {K : Kern3} {cfl tol : ℝ} {A : B → Ib3} {Q : Body σ β} {b : B} {rodDt pre : ℝ} {fs : ℝ → Fin 3 → ℝ}

/-- The states belong together: all copies, and the master's copy with the flow; `al c` is the copy of rank `c ≠ m`. -/
structure Joint3 (Q : Body σ β) (m : C3) (al : C3 → σ) (q : RefC3 B × (C3 → σ × β)) (q' : RefC3 B × σ) : Prop where
  ref : q.1 = q'.1
  master : (q.2 m).1 = q'.2
  other : ∀ c ≠ m, q.2 c = (al c, Q.zero)

theorem refSub3_joint (h rt : ℝ) {al : C3 → σ} {q : RefC3 B × (C3 → σ × β)} {q' : RefC3 B × σ} (hq : Joint3 Q (A b).m al q q') :
    Joint3 Q (A b).m (fun c => Q.move' rt h (Q.kick rt h Q.zero (Q.move rt h (al c)))) (refSub3 P K cfl tol A (Q.joint (A b).m) b h rt q)
      (refSub3 P K cfl tol A Q.coupled b h rt q') := by
  obtain ⟨h1, h2, h3⟩ := hq
  refine ⟨?_, ?_, fun c hc => ?_⟩
  · simp only [refSub3, Body.joint, Body.onRank, Body.coupled, decide_true, if_true, h1, h2]
  · simp only [refSub3, Body.joint, Body.onRank, Body.coupled, decide_true, if_true, h1, h2]
  · simp only [refSub3, Body.joint, Body.onRank, hc, decide_false, Bool.false_eq_true, if_false, h3 c hc]

theorem refSubs3_joint (h rt : ℝ) {al : C3 → σ} {q : RefC3 B × (C3 → σ × β)} {q' : RefC3 B × σ} (hq : Joint3 Q (A b).m al q q') (n : ℕ) :
    Joint3 Q (A b).m (fun c => Q.alone h n rt (al c)) (refSubs3 P K cfl tol A (Q.joint (A b).m) b h rt n q) (refSubs3 P K cfl tol A Q.coupled b h rt n q') := by
  induction n with
  | zero => exact hq
  | succ n ih =>
    simp only [alone_snoc]
    exact refSub3_joint h (rt + n * h) ih

theorem refRods3_joint {s0 : C3 → σ} {r : RefC3 B} (n : ℕ) {q : ℕ → RefC3 B × σ} (hq : q = refRods3 P K cfl tol A Q.coupled b rodDt pre fs (r, s0 (A b).m)) :
    Joint3 Q (A b).m (fun c => Q.adrift rodDt (fun i => (q i).1.time) (fun i => rodDt3 P cfl tol pre (q i)) (s0 c) n)
      (refRods3 P K cfl tol A (Q.joint (A b).m) b rodDt pre fs (r, fun c => (s0 c, Q.zero)) n) (q n) := by
  subst hq
  induction n with
  | zero => exact ⟨rfl, rfl, fun c _ => rfl⟩
  | succ n ih =>
    have e : rodDt3 P cfl tol pre (refRods3 P K cfl tol A (Q.joint (A b).m) b rodDt pre fs (r, fun c => (s0 c, Q.zero)) n) =
        rodDt3 P cfl tol pre (refRods3 P K cfl tol A Q.coupled b rodDt pre fs (r, s0 (A b).m) n) := by
      unfold rodDt3
      rw [ih.ref]
    have w := refSubs3_joint (P := P) (K := K) (cfl := cfl) (tol := tol) (b := b) (localDt (rodDt3 P cfl tol pre (refRods3 P K cfl tol A Q.coupled b rodDt pre fs (r, s0 (A b).m) n)) rodDt)
      (refRods3 P K cfl tol A Q.coupled b rodDt pre fs (r, s0 (A b).m) n).1.time ih (rodSteps (rodDt3 P cfl tol pre
        (refRods3 P K cfl tol A Q.coupled b rodDt pre fs (r, s0 (A b).m) n)) rodDt)
    obtain ⟨w1, w2, w3⟩ := w
    refine ⟨?_, ?_, fun c hc => ?_⟩
    · simp only [refRods3, refRod3]
      rw [e, ih.ref, w1]
      simp only [Body.joint, Body.onRank, Body.coupled, if_true] at w2 ⊢
      rw [w2]
    · simp only [refRods3, refRod3]
      rw [e, ih.ref]
      exact w2
    · simp only [refRods3, refRod3, Body.adrift]
      rw [e, ih.ref]
      exact w3 c hc

end joint

/-! ## The run -/

variable {T : Cart3} [NeZero T.gz] [NeZero T.gy] [NeZero T.gx] {C : Cfg3} {K : Kern3} {A : B → Ib3} {S : CSt3 T B} {w : C3 → RkC3 T B}

open Classical in
/-- **C113** (3D) Every rank builds, steps and looks at its own copy of the body, from any state of its own, in the loop of the driver, and the ranks are synchronised by nothing
but their messages.  They cannot get stuck and all return.  Flow, forcing, the forces on the body and the interactor's clock are those of the run of the master's copy on
one global grid (`q i`: flow and body at the start of iteration `i`): the other copies do not matter.  The loop ends in the first iteration that begins at the final time or
later.  The diary of the master shows that body; the diary of any other rank shows a body on which the fluid does not act, stepped with the same steps; time, greatest
vorticity and deviation are the same in all diaries. -/
theorem copies3_run {a : SimArgs3} {xr : ℝ} (hxr : 0 < xr) {nu cfl : ℝ} (hnu : 0 ≤ nu) (hcfl : 0 ≤ cfl) {tol : ℝ} (htol : 0 < tol) (hK : K.Local)
    (hKd : ∀ a, CrossLocal3 1 (K.div a)) (hK0 : ∀ r, K.upd r (fun _ _ => 0) = 0) {X0 : B → LagField ℝ} {t0 : B → ℝ} {time : ℝ} {sc : ℝ → ℝ → ℝ → ℝ} {om u : Fin 3 → ℝ → ℝ → ℝ → ℝ}
    (h : Setup3 a xr A X0 t0 time sc om u S) (hm : ∀ b, Valid3 T (A b).m) (Q : Body σ β) (obs : σ → ℝ) (b : B) (hauto : (A b).auto = true)
    (rodDt pre final foto : ℝ) (fs : ℝ → Fin 3 → ℝ) (n : ℕ) (s0 : C3 → σ)
    {P : Params3} (hP : P = a.pars xr nu)
    {q : ℕ → RefC3 B × σ} (hq : q = refRods3 P K cfl tol A Q.coupled b rodDt pre fs (refStart3 (xr / a.gx) X0 t0 time sc om u, s0 (A b).m))
    (hfit : ∀ i < n, (q i).1.time < final → RodStep3 T P K cfl tol A Q.coupled b rodDt pre (q i))
    {t dt : ℕ → ℝ} (ht : t = fun i => (q i).1.time) (hdt : dt = fun i => rodDt3 P cfl tol pre (q i))
    (buffered : Bool) (hw : ∀ c, Valid3 T c → StartsC3 (simCfg3 a xr nu cfl) A c S w)
    {X : _} (hX : X = DConf.start (cCodes3 (simCfg3 a xr nu cfl) K tol A (copyProgs3 A Q obs b rodDt pre final foto fs n time s0)) w) :
    (∀ Y, DStar buffered X Y → ¬ Y.Done → ∃ Z, DStep buffered Y Z) ∧ (∀ f : ℕ → _, f 0 = X → ¬ ∀ n, DStep buffered (f n) (f (n + 1))) ∧
    (∃ Y, DStar buffered X Y ∧ Y.Done) ∧
    ∃ N ≤ n, (∀ i < N, t i < final) ∧ (N < n → final ≤ t N) ∧
    ∀ Y, DStar buffered X Y → Y.Done →
      (∀ c, Valid3 T c → (Y.cf.st c).log = diary3 foto 0 t dt
          (fun i => [t i, sSup {x | ∃ j G, Dom3 a.gz a.gy a.gx G ∧ x = (q i).1.F.om j G}, refDiv3 (a.pars xr nu) K (q i).1.F.om, refDeviation 3 (A b).N ((q i).1.hist b)])
          (fun i => obs (if c = (A b).m then (q i).2 else Q.adrift rodDt t dt (s0 c) i)) N ∧
        (Y.cf.st c).sim.time = t N ∧ ∀ x, Inner3 T a.g x →
        ∀ j, (Y.cf.st c).sim.om j x = (q N).1.F.om j (globalIx3 T a.g c x) ∧ (Y.cf.st c).sim.vel j x = (q N).1.F.u j (globalIx3 T a.g c x) ∧ (Y.cf.st c).sim.forcing j x = (q N).1.Φ j (globalIx3 T a.g c x)) ∧
      ∀ b', (∀ k < 3, ∀ i < (A b').N, ((Y.cf.st (A b').m).ib b').rk.v.gforce k i = ((q N).1.hist b').F k i) ∧
        ∀ c, Valid3 T c → ((Y.cf.st c).ib b').time = ((q N).1.hist b').t := by
  subst hX hP ht hdt
  let J : C3 → Prog3 B := fun pr => jointProg3 A Q obs b rodDt pre final foto fs pr n time 0 fun c => (s0 c, Q.zero)
  have hJm : J (A b).m = tipLoop3 Q.coupled obs b rodDt pre final foto fs n time 0 (s0 (A b).m) := joint_master3 n time 0 _
  obtain ⟨hp, htr⟩ := tip3_fit (T := T) (P := a.pars xr nu) (K := K) (cfl := cfl) (tol := tol) (R := Q.coupled) (rodDt := rodDt) (pre := pre)
    (final := final) (foto := foto) (fs := fs) hauto obs n time 0 (refStart3 (xr / a.gx) X0 t0 time sc om u, s0 (A b).m) rfl (by rw [← hq]; exact hfit)
  dsimp only at hp htr
  rw [← hJm] at hp htr
  have hal : ∀ c, Alike3 (J (A b).m) (J c) := fun c => tipLoop3_alike n time 0 _
  have hfol : ∀ pr c, Valid3 T c → Follows3 A pr c (J pr) (copyProgs3 A Q obs b rodDt pre final foto fs n time s0 c) := fun pr c _ =>
    copies_follow3 n time 0 fun c => (s0 c, Q.zero)
  have run := fun (c : C3) (hc : Valid3 T c) => coupled3_async hxr hnu hcfl htol hK hKd hK0 h hm hc (J c)
    (alike3_proper _ (J c) _ [] (hal c) hp) (alike3_tracked _ (J c) _ [] (hal c) htr) (copyProgs3 A Q obs b rodDt pre final foto fs n time s0) (hfol c) buffered (hw c hc)
  obtain ⟨m1, m2, m3, m4⟩ := run (A b).m (hm b)
  obtain ⟨N, n1, n2, n3, n4⟩ := tip3_run (P := a.pars xr nu) (K := K) (cfl := cfl) (tol := tol) (A := A) (R := Q.joint (A b).m) (b := b)
    (rodDt := rodDt) (pre := pre) (final := final) (foto := foto) (fs := fs) n time 0 (refStart3 (xr / a.gx) X0 t0 time sc om u, fun c => (s0 c, Q.zero)) rfl rfl
  have hj := fun i => refRods3_joint (P := a.pars xr nu) (K := K) (cfl := cfl) (tol := tol) (A := A) (Q := Q) (b := b) (rodDt := rodDt) (pre := pre)
    (fs := fs) i hq
  have hdt' : ∀ i, rodDt3 (a.pars xr nu) cfl tol pre (refRods3 (a.pars xr nu) K cfl tol A (Q.joint (A b).m) b
      rodDt pre fs (refStart3 (xr / a.gx) X0 t0 time sc om u, fun c => (s0 c, Q.zero)) i) = rodDt3 (a.pars xr nu) cfl tol pre (q i) := by
    intro i
    unfold rodDt3
    rw [(hj i).ref]
  have href : ∀ c, cRef3 (a.pars xr nu) K cfl tol A (J c) (refStart3 (xr / a.gx) X0 t0 time sc om u) =
      { (q N).1 with
        log := diary3 foto 0 (fun i => (q i).1.time) (fun i => rodDt3 (a.pars xr nu) cfl tol pre (q i))
          (fun i => [(q i).1.time, sSup {x | ∃ j G, Dom3 a.gz a.gy a.gx G ∧ x = (q i).1.F.om j G}, refDiv3 (a.pars xr nu) K (q i).1.F.om, refDeviation 3 (A b).N ((q i).1.hist b)])
          (fun i => obs (if c = (A b).m then (q i).2 else Q.adrift rodDt (fun i => (q i).1.time)
            (fun i => rodDt3 (a.pars xr nu) cfl tol pre (q i)) (s0 c) i)) N } := by
    intro c
    refine Eq.trans (n4 (fun s => obs (s c).1) []) ?_
    simp only [hdt', (hj _).ref, List.nil_append]
    congr 2
    funext i
    split
    · rename_i hc
      subst hc
      exact congrArg obs (hj i).master
    · rename_i hc
      rw [(hj i).other c hc]
  refine ⟨m1, m2, m3, N, n1, fun i hi => ?_, fun hN => ?_, fun Y hY hYd => ⟨fun c hc => ⟨?_, ?_⟩, ?_⟩⟩
  · have e := n2 i hi
    rw [(hj i).ref] at e
    exact e
  · have e := n3 hN
    rw [(hj N).ref] at e
    exact e
  · obtain ⟨-, -, -, c4⟩ := run c hc
    have e := (c4 Y hY hYd).1
    rw [href c] at e
    exact e
  · have e := (m4 Y hY hYd).2.1 c hc
    rw [href] at e
    exact e
  · have e := (m4 Y hY hYd).2.2
    rw [href] at e
    exact e

/-! ## The hypotheses can be met -/

omit [DecidableEq B] [NeZero T.gz] [NeZero T.gy] [NeZero T.gx] in
/-- Every state can be dealt out to the ranks, all of which have written what was written. -/
theorem startsC3_all (C : Cfg3) (A : B → Ib3) (S : CSt3 T B) : ∃ w : C3 → RkC3 T B, ∀ c, StartsC3 C A c S w := by
  obtain ⟨w, dt, hw⟩ := startsC3_exists C A (0, 0, 0) S
  refine ⟨fun c => { w c with log := S.log }, fun c => ⟨dt, ?_⟩⟩
  exact ⟨hw.sim, hw.ib, hw.bz, hw.by', hw.bx, hw.time, rfl⟩

/-- The body which is held in place is inside, and its nodes never change hands. -/
theorem exHeld3_fit {A : B → Ib3} {b : B} {X : LagField ℝ} (hX0 : X0 b = X) {P : Params3} {cfl tol rodDt pre : ℝ} {fs : ℝ → Fin 3 → ℝ} {t0 : B → ℝ} {time : ℝ}
    {sc : ℝ → ℝ → ℝ → ℝ} {om u : Fin 3 → ℝ → ℝ → ℝ → ℝ} {dx : ℝ} (hin : Inside3 P.gz P.gy P.gx 1 P.dx (A b) X) (T : Cart3) (s : ℝ) (i : ℕ) :
    RodStep3 T P K cfl tol A (exHeld2 X).coupled b rodDt pre (refRods3 P K cfl tol A (exHeld2 X).coupled b rodDt pre fs (refStart3 dx X0 t0 time sc om u, s) i) := by
  have hsub : ∀ (h rt : ℝ) (n : ℕ) (q : RefC3 B × ℝ), q.1.lastX b = X → (refSubs3 P K cfl tol A (exHeld2 X).coupled b h rt n q).1.lastX b = X := by
    intro h rt n q hq
    cases n with
    | zero => exact hq
    | succ n => simp only [refSubs3, refSub3, cRef3, refForces3, Function.update_self]; rfl
  have hlast : (refRods3 P K cfl tol A (exHeld2 X).coupled b rodDt pre fs (refStart3 dx X0 t0 time sc om u, s) i).1.lastX b = X := by
    cases i with
    | zero => exact hX0
    | succ n => simp only [refRods3, refRod3, cRef3, refFull3, refForces3, Function.update_self]; rfl
  have hno : Noticed3 T P.dx (A b) X X := by
    intro l l' h1 h2
    rw [h1] at h2
    exact Or.inl (Except.ok.inj h2).symm
  have hin0 : Inside3 P.gz P.gy P.gx 0 P.dx (A b) X := by
    intro i hI G hG
    have := hin i hI G hG
    unfold Away3 at this ⊢
    push_cast at this ⊢; omega
  refine ⟨fun j _ => ⟨hin0, ?_⟩, hin, ?_⟩
  · rw [hsub _ _ _ _ hlast]; exact hno
  · rw [hsub _ _ _ _ hlast]; exact hno

/-- Two ranks, the master is rank (0, 0, 1); the copies start with any momenta.  All hypotheses are met, the run ends after at least one iteration, and the copy of rank
(0, 0, 0) has felt nothing but its weight, although the fluid acts on the body. -/
example [NeZero (⟨8, 16, 8, 1, 1, 2, 8, 16, 4, false⟩ : Cart3).gz] [NeZero (⟨8, 16, 8, 1, 1, 2, 8, 16, 4, false⟩ : Cart3).gy] [NeZero (⟨8, 16, 8, 1, 1, 2, 8, 16, 4, false⟩ : Cart3).gx] [NeZero (⟨8, 16, 8, 1, 1, 1, 8, 16, 8, false⟩ : Cart3).gz] [NeZero (⟨8, 16, 8, 1, 1, 1, 8, 16, 8, false⟩ : Cart3).gy]
    [NeZero (⟨8, 16, 8, 1, 1, 1, 8, 16, 8, false⟩ : Cart3).gx] {nu cfl : ℝ} (hnu : 0 ≤ nu) (hcfl : 0 ≤ cfl) {K : Kern3} (hK : K.Local) (hKd : ∀ a, CrossLocal3 1 (K.div a)) (hK0 : ∀ r, K.upd r (fun _ _ => 0) = 0) (sc : ℝ → ℝ → ℝ → ℝ)
    (om u : Fin 3 → ℝ → ℝ → ℝ → ℝ) (buffered : Bool) (n : ℕ) (s0 : C3 → ℝ) (fs : ℝ → Fin 3 → ℝ) :
    ∃ w : C3 → RkC3 ⟨8, 16, 8, 1, 1, 2, 8, 16, 4, false⟩ Unit, ∃ Y, ∃ N, ∃ (t dt : ℕ → ℝ) (line : ℕ → List ℝ) (place : ℕ → ℝ),
      DStar buffered (DConf.start (cCodes3 (simCfg3 ⟨8, 16, 8, 1, 1, 2, "navier_stokes_with_forcing", true, none, false, 2, .int 2⟩ 8 nu cfl) K 1e-10
        (fun _ => exBody3) (copyProgs3 (fun _ => exBody3) (exHeld2 exPos3) id () 0.01 0.5 1 0.2 fs (n + 1) 0 s0)) w) Y ∧ Y.Done ∧ 0 < N ∧ place 0 = s0 (0, 0, 0) ∧
      (Y.cf.st (0, 0, 0)).log = diary3 0.2 0 t dt line place N ∧ ∀ i, place (i + 1) = place i + rodSteps (dt i) 0.01 * localDt (dt i) 0.01 := by
  obtain ⟨⟨S, hS⟩, -⟩ := exSetup3 sc om u
  obtain ⟨w, hw⟩ := startsC3_all (simCfg3 ⟨8, 16, 8, 1, 1, 2, "navier_stokes_with_forcing", true, none, false, 2, .int 2⟩ 8 nu cfl) (fun _ => exBody3) S
  have e : (8 : ℝ) / ((8 : ℕ) : ℝ) = 1 := by norm_num
  have hv : Valid3 (⟨8, 16, 8, 1, 1, 2, 8, 16, 4, false⟩ : Cart3) (0, 0, 1) := by unfold Valid3; norm_num
  have hv0 : Valid3 (⟨8, 16, 8, 1, 1, 2, 8, 16, 4, false⟩ : Cart3) (0, 0, 0) := by unfold Valid3; norm_num
  have hne : (0, 0, 0) ≠ exBody3.m := by decide
  obtain ⟨P, hP⟩ : ∃ P : Params3, P = (⟨8, 16, 8, 1, 1, 2, "navier_stokes_with_forcing", true, none, false, 2, .int 2⟩ : SimArgs3).pars 8 nu := ⟨_, rfl⟩
  obtain ⟨q, hq⟩ : ∃ q : ℕ → RefC3 Unit × ℝ, q = refRods3 P K cfl 1e-10 (fun _ : Unit => exBody3) (exHeld2 exPos3).coupled () 0.01 0.5 fs
    (refStart3 (8 / ((8 : ℕ) : ℝ)) (fun _ => exPos3) (fun _ => 0) 0 sc om u, s0 exBody3.m) := ⟨_, rfl⟩
  have hfit : ∀ i, RodStep3 (⟨8, 16, 8, 1, 1, 2, 8, 16, 4, false⟩ : Cart3) P K cfl 1e-10 (fun _ : Unit => exBody3) (exHeld2 exPos3).coupled () 0.01 0.5 (q i) := by
    intro i
    rw [hq]
    refine exHeld3_fit (X0 := fun _ : Unit => exPos3) rfl ?_ _ _ _
    subst hP
    change Inside3 8 16 8 1 (8 / ((8 : ℕ) : ℝ)) exBody3 exPos3
    rw [e]; exact exBody3_inside
  obtain ⟨-, -, ⟨Y, hY, hd⟩, N, h1, h2, h3, h4⟩ := copies3_run (by norm_num : (0 : ℝ) < 8) hnu hcfl (by norm_num : (0 : ℝ) < 1e-10) hK hKd hK0 hS (fun _ => hv) (exHeld2 exPos3) id ()
    rfl 0.01 0.5 1 0.2 fs (n + 1) s0 hP hq (fun i _ _ => hfit i) rfl rfl buffered (fun c _ => hw c) rfl
  have w1 := ((h4 Y hY hd).1 _ hv0).1
  simp only [if_neg hne] at w1
  refine ⟨w, Y, N, _, _, _, _, hY, hd, ?_, rfl, w1, fun i => exHeld2_adrift _ _ _ _ _ _⟩
  by_contra hN
  have hN : N = 0 := by omega
  have w2 := h3 (by omega)
  rw [hN, hq] at w2
  simp only [refRods3, refStart3] at w2
  norm_num at w2

end Sopht
