import Verif.Sim2DRun

/-!
# The time loop of a driver, 2D

`while flow_sim.time < t_end: dt = flow_sim.compute_stable_timestep(...); flow_sim.time_step(dt=dt, ...)`
(examples/2d_examples/LambOseenVortexCase/lamb_oseen_vortex.py:80-109, and the same loop in all the other examples).  Plotting, logging and saving inside the loop do not
change the simulator and are left out here (`Snapshots` has their timers).
-/

namespace Sopht

/-! ## Python's `while` -/

/-- `while cond: body`: started in `s` before iteration `k`, the loop ends before iteration `n` with result `r` – a state, and the exception if one was raised.  A loop that
does not end has no result. -/
inductive While {S E : Type} (cond : S → Prop) (body : ℕ → S → S × Option E) : ℕ → S → ℕ → S × Option E → Prop
  | done {k s} : ¬cond s → While cond body k s k (s, none)
  | fail {k s s' e} : cond s → body k s = (s', some e) → While cond body k s (k + 1) (s', some e)
  | step {k s s' n r} : cond s → body k s = (s', none) → While cond body (k + 1) s' n r → While cond body k s n r

section
variable {S E : Type} {cond : S → Prop} {body : ℕ → S → S × Option E}

/-- a loop has at most one result -/
theorem While.unique {k : ℕ} {s : S} {n n' : ℕ} {r r' : S × Option E} (h : While cond body k s n r) (h' : While cond body k s n' r') : n = n' ∧ r = r' := by
  induction h generalizing n' r' with
  | done hc =>
    cases h' with
    | done _ => exact ⟨rfl, rfl⟩
    | fail hc' _ => exact absurd hc' hc
    | step hc' _ _ => exact absurd hc' hc
  | fail hc hb =>
    cases h' with
    | done hc' => exact absurd hc hc'
    | fail _ hb' => rw [hb] at hb'; simp_all
    | step _ hb' _ => rw [hb] at hb'; simp at hb'
  | step hc hb _ ih =>
    cases h' with
    | done hc' => exact absurd hc hc'
    | fail _ hb' => rw [hb] at hb'; simp at hb'
    | step _ hb' h' =>
      rw [hb] at hb'
      have e : _ = _ := (Prod.mk.inj hb').1
      subst e
      exact ih h'

/-- the states of a loop that ends without exception -/
theorem While.of_states {it : ℕ → S} {k n : ℕ} (hkn : k ≤ n) (h : ∀ i, k ≤ i → i < n → cond (it i)) (hb : ∀ i, k ≤ i → i < n → body i (it i) = (it (i + 1), none))
    (hn : ¬cond (it n)) : While cond body k (it k) n (it n, none) := by
  obtain ⟨d, rfl⟩ := Nat.exists_eq_add_of_le hkn
  induction d generalizing k with
  | zero => exact While.done hn
  | succ d ih =>
    refine While.step (h k le_rfl (by omega)) (hb k le_rfl (by omega)) ?_
    have e : k + (d + 1) = k + 1 + d := by omega
    rw [e] at h hb hn ⊢
    exact ih (by omega) (fun i h1 h2 => h i (by omega) h2) (fun i h1 h2 => hb i (by omega) h2) hn

/-- … and conversely -/
theorem While.states {it : ℕ → S} {k n : ℕ} {s : S} {r : S × Option E} (h : While cond body k s n r) (hs : s = it k) (hb : ∀ i, body i (it i) = (it (i + 1), none)) :
    k ≤ n ∧ (∀ i, k ≤ i → i < n → cond (it i)) ∧ ¬cond (it n) ∧ r = (it n, none) := by
  induction h with
  | done hc => subst hs; exact ⟨le_rfl, fun i h1 h2 => by omega, hc, rfl⟩
  | fail hc hb' => subst hs; rw [hb] at hb'; simp at hb'
  | @step k s s' n r hc hb' _ ih =>
    subst hs
    rw [hb] at hb'
    obtain ⟨h1, h2, h3, h4⟩ := ih (Prod.mk.inj hb').1.symm
    refine ⟨by omega, fun i hi hn => ?_, h3, h4⟩
    by_cases e : i = k
    · rw [e]; exact hc
    · exact h2 i (by omega) hn

end

/-- a clock that takes steps of at least `d` while it is before `tEnd` reaches it -/
theorem clock_reaches {t : ℕ → ℝ} {d : ℝ} (tEnd : ℝ) (h : ∀ n, t n < tEnd → t n + d ≤ t (n + 1) ∧ 0 < d) :
    ∃ N, N ≤ ⌈(tEnd - t 0) / d⌉₊ ∧ tEnd ≤ t N ∧ ∀ i < N, t i < tEnd := by
  have hlow : ∀ n : ℕ, (∀ i < n, t i < tEnd) → t 0 + n * d ≤ t n := by
    intro n
    induction n with
    | zero => intro _; simp
    | succ n ih =>
      intro hi
      have q1 := ih fun i hin => hi i (by omega)
      have q2 := (h n (hi n (by omega))).1
      push_cast; linarith
  by_cases h0 : tEnd ≤ t 0
  · exact ⟨0, Nat.zero_le _, h0, by simp⟩
  have hd := (h 0 (not_le.1 h0)).2
  have hm : tEnd ≤ t 0 + ⌈(tEnd - t 0) / d⌉₊ * d := by
    have h1 := Nat.le_ceil ((tEnd - t 0) / d)
    rw [div_le_iff₀ hd] at h1
    linarith
  have hex : ∃ n, tEnd ≤ t n := by
    by_contra hno
    push Not at hno
    linarith [hlow ⌈(tEnd - t 0) / d⌉₊ (fun i _ => hno i), hno ⌈(tEnd - t 0) / d⌉₊]
  classical
  refine ⟨Nat.find hex, ?_, Nat.find_spec hex, fun i hi => not_le.1 (Nat.find_min hex hi)⟩
  by_contra hlt
  have q := hlow ⌈(tEnd - t 0) / d⌉₊ fun i hi => not_le.1 (Nat.find_min hex (by omega))
  have := not_le.1 (Nat.find_min hex (not_le.1 hlt))
  linarith

/-- The smallest time step at velocities up to `V`: `d` is twice the number of dimensions. -/
noncomputable def leastDt (d cfl tol dx nu pre V : ℝ) : ℝ := (if nu = 0 then cfl * dx / (V + tol) else min (cfl * dx / (V + tol)) (0.9 * dx ^ 2 / d / nu)) * pre

theorem leastDt_pos {d cfl tol dx nu pre V : ℝ} (hd : 0 < d) (hcfl : 0 < cfl) (htol : 0 < tol) (hdx : 0 < dx) (hnu : 0 ≤ nu) (hpre : 0 < pre) (hV : 0 ≤ V) :
    0 < leastDt d cfl tol dx nu pre V := by
  unfold leastDt
  refine mul_pos ?_ hpre
  have h1 : 0 < cfl * dx / (V + tol) := by positivity
  split
  · exact h1
  · rename_i hn
    have : 0 < nu := lt_of_le_of_ne hnu (Ne.symm hn)
    refine lt_min h1 ?_
    positivity

theorem leastDt_mono {d cfl tol dx nu pre V V' : ℝ} (hcfl : 0 < cfl) (htol : 0 < tol) (hdx : 0 < dx) (hpre : 0 < pre) (hV : 0 ≤ V) (hVV : V ≤ V') :
    leastDt d cfl tol dx nu pre V' ≤ leastDt d cfl tol dx nu pre V := by
  unfold leastDt
  refine mul_le_mul_of_nonneg_right ?_ hpre.le
  have h1 : cfl * dx / (V' + tol) ≤ cfl * dx / (V + tol) := div_le_div_of_nonneg_left (by positivity) (by positivity) (by linarith)
  split
  · exact h1
  · exact min_le_min h1 le_rfl

theorem leastDt_le {d cfl tol dx nu pre V : ℝ} (hcfl : 0 < cfl) (htol : 0 < tol) (hdx : 0 < dx) (hpre : 0 < pre) (hV : 0 ≤ V) :
    leastDt d cfl tol dx nu pre V ≤ cfl * dx / tol * pre := by
  unfold leastDt
  refine mul_le_mul_of_nonneg_right ?_ hpre.le
  have h1 : cfl * dx / (V + tol) ≤ cfl * dx / tol := div_le_div_of_nonneg_left (by positivity) htol (by linarith)
  split
  · exact h1
  · exact (min_le_left _ _).trans h1

/-! ## The loop of the simulator -/

variable {T T' : Cart2} [NeZero T.gy] [NeZero T.gx] [NeZero T'.gy] [NeZero T'.gx]

/-- An iteration of the loop on all ranks: `x i` says what iteration `i` does. -/
noncomputable def loopBody2 (C : Cfg2) (K : Kern2) (tol : ℝ) (x : ℕ → StepIn2) (i : ℕ) (S : Sim2 T) : Sim2 T × Option PyErr := iterate2 C K (x i) (pickDt2 C tol S (x i).rule)

/-- The state after `n` iterations. -/
noncomputable def loopState2 (C : Cfg2) (K : Kern2) (tol : ℝ) (x : ℕ → StepIn2) (S : Sim2 T) (n : ℕ) : Sim2 T := (simLoop2 C K tol ((List.range n).map x) S).1

theorem simLoop2_snoc (C : Cfg2) (K : Kern2) (tol : ℝ) (xs : List StepIn2) (x : StepIn2) (S : Sim2 T) (h : (simLoop2 C K tol xs S).2 = none) :
    simLoop2 C K tol (xs ++ [x]) S = iterate2 C K x (pickDt2 C tol (simLoop2 C K tol xs S).1 x.rule) := by
  induction xs generalizing S with
  | nil =>
    simp only [List.nil_append, simLoop2, Out2.andThen]
    split
    · rename_i e he
      exact Prod.ext rfl he.symm
    · rename_i he
      exact Prod.ext rfl he.symm
  | cons y ys ih =>
    simp only [List.cons_append, simLoop2] at h ⊢
    cases he : (iterate2 C K y (pickDt2 C tol S y.rule)).2 with
    | some e =>
      unfold Out2.andThen at h
      rw [he] at h
      cases h
    | none =>
      unfold Out2.andThen at h ⊢
      rw [he] at h ⊢
      exact ih _ h

theorem refRun2_snoc (ft : String) (P : Params2) (K : Kern2) (cfl tol : ℝ) (ys : List StepSpec2) (y : StepSpec2) (s : Fields2 × ℝ) :
    refRun2 ft P K cfl tol (ys ++ [y]) s = (refStep2 ft P K (refDt2 P cfl tol (refRun2 ft P K cfl tol ys s).1 y.rule) y.fs y.Φ (refRun2 ft P K cfl tol ys s).1,
      (refRun2 ft P K cfl tol ys s).2 + refDt2 P cfl tol (refRun2 ft P K cfl tol ys s).1 y.rule) := by
  induction ys generalizing s with
  | nil => rfl
  | cons z zs ih => exact ih _

theorem prefix_means2 {gy gx : ℕ} {C : Cfg2} {x : ℕ → StepIn2} {y : ℕ → StepSpec2} (h : ∀ i, Means2 gy gx T C (x i) (y i)) (n : ℕ) :
    List.Forall₂ (Means2 gy gx T C) ((List.range n).map x) ((List.range n).map y) := by
  rw [List.forall₂_map_left_iff, List.forall₂_map_right_iff]
  exact List.forall₂_same.2 fun i _ => h i

/-- every iteration of the loop returns, and its time step is the one of the global grid -/
theorem loop2_states {a : SimArgs2} (h : Fit2 a T) {xr : ℝ} (hxr : 0 < xr) (nu : ℝ) {cfl : ℝ} (hcfl : 0 ≤ cfl) {tol : ℝ} (htol : 0 < tol)
    {K : Kern2} (hK : K.Local) (hK0 : ∀ r, K.upd r (fun _ _ => 0) = 0) (time : ℝ) (dbl0 : World C2 C2 ℝ) (conv0 : Dbl2 T → ℂ)
    (om : ℝ → ℝ → ℝ) (u : Fin 2 → ℝ → ℝ → ℝ) {x : ℕ → StepIn2} {y : ℕ → StepSpec2} (hxy : ∀ i, Means2 a.gy a.gx T (simCfg2 a T xr nu cfl) (x i) (y i)) (n : ℕ) :
    let C := simCfg2 a T xr nu cfl
    let st := loopState2 C K tol x (initFrom2 T a.g xr time dbl0 conv0 om u)
    let F := (refRun2 a.flowType ⟨a.gy, a.gx, xr, nu, widthOf a.width, a.freeStream⟩ K cfl tol ((List.range n).map y) (fieldsFrom2 (xr / a.gx) om u, time)).1
    loopBody2 C K tol x n (st n) = (st (n + 1), none) ∧ (st (n + 1)).time = (st n).time + refDt2 ⟨a.gy, a.gx, xr, nu, widthOf a.width, a.freeStream⟩ cfl tol F (y n).rule := by
  obtain ⟨r1, r2, -⟩ := sim2_run h hxr nu hcfl htol hK hK0 time dbl0 conv0 om u (prefix_means2 hxy n)
  obtain ⟨s1, s2, -⟩ := sim2_run h hxr nu hcfl htol hK hK0 time dbl0 conv0 om u (prefix_means2 hxy (n + 1))
  have e := simLoop2_snoc (simCfg2 a T xr nu cfl) K tol ((List.range n).map x) (x n) (initFrom2 T a.g xr time dbl0 conv0 om u) r1
  have hr : (List.range (n + 1)).map x = (List.range n).map x ++ [x n] := by rw [List.range_succ, List.map_append]; rfl
  have hr' : (List.range (n + 1)).map y = (List.range n).map y ++ [y n] := by rw [List.range_succ, List.map_append]; rfl
  rw [← hr] at e
  intro C st F
  refine ⟨?_, ?_⟩
  · exact (show loopBody2 C K tol x n (st n) = _ from e.symm).trans (Prod.ext rfl s1)
  · rw [hr', refRun2_snoc] at s2
    exact s2.trans (congrArg (· + _) r2.symm)

/-- C96: the loop `while flow_sim.time < t_end` with stable time steps ends, without exception, if the velocities stay bounded (by `V`, however large) until `t_end`: after at most
`⌈(t_end - time) / dt⌉` iterations, `dt` the time step at velocity `V`; then `t_end ≤ time < t_end + ` the largest possible time step. -/
theorem timeLoop2_ends {a : SimArgs2} (h : Fit2 a T) {xr : ℝ} (hxr : 0 < xr) {nu : ℝ} (hnu : 0 ≤ nu) {cfl : ℝ} (hcfl : 0 < cfl) {tol : ℝ} (htol : 0 < tol)
    {K : Kern2} (hK : K.Local) (hK0 : ∀ r, K.upd r (fun _ _ => 0) = 0) (time : ℝ) (dbl0 : World C2 C2 ℝ) (conv0 : Dbl2 T → ℂ)
    (om : ℝ → ℝ → ℝ) (u : Fin 2 → ℝ → ℝ → ℝ) {x : ℕ → StepIn2} {y : ℕ → StepSpec2} (hxy : ∀ i, Means2 a.gy a.gx T (simCfg2 a T xr nu cfl) (x i) (y i))
    {pre : ℝ} (hpre : 0 < pre) (hrule : ∀ i, (x i).rule = .stable pre) (tEnd : ℝ) {V : ℝ}
    (hV : ∀ n c p, (loopState2 (simCfg2 a T xr nu cfl) K tol x (initFrom2 T a.g xr time dbl0 conv0 om u) n).time < tEnd → Valid2 T c → Inner2 T ((2 : ℕ) : ℤ) p →
      |(loopState2 (simCfg2 a T xr nu cfl) K tol x (initFrom2 T a.g xr time dbl0 conv0 om u) n).vel 0 c p| +
      |(loopState2 (simCfg2 a T xr nu cfl) K tol x (initFrom2 T a.g xr time dbl0 conv0 om u) n).vel 1 c p| ≤ V) :
    let C := simCfg2 a T xr nu cfl
    let S0 := initFrom2 T a.g xr time dbl0 conv0 om u
    ∃ N S, While (fun S : Sim2 T => S.time < tEnd) (loopBody2 C K tol x) 0 S0 N (S, none) ∧
      N ≤ ⌈(tEnd - time) / leastDt 4 cfl tol (xr / a.gx) nu pre V⌉₊ ∧ tEnd ≤ S.time ∧ (time < tEnd → S.time < tEnd + cfl * (xr / a.gx) / tol * pre) := by
  intro C S0
  obtain ⟨hT, -⟩ := simCheck2_cart' h.built
  obtain ⟨e1, e2, -⟩ := construct2_ok hT
  have hgy0 : 0 < a.gy := by rw [← e1]; exact Nat.pos_of_ne_zero (NeZero.ne _)
  have hgx0 : 0 < a.gx := by rw [← e2]; exact Nat.pos_of_ne_zero (NeZero.ne _)
  have hdx : 0 < xr / a.gx := div_pos hxr (by exact_mod_cast hgx0)
  set st := loopState2 C K tol x S0 with hst
  have key := fun n => loop2_states h hxr nu hcfl.le htol hK hK0 time dbl0 conv0 om u hxy n
  -- the time step of iteration `n`
  have hdt : ∀ n, (st n).time < tEnd → leastDt 4 cfl tol (xr / a.gx) nu pre V ≤ (st (n + 1)).time - (st n).time ∧ (st (n + 1)).time - (st n).time ≤ cfl * (xr / a.gx) / tol * pre ∧
      0 < leastDt 4 cfl tol (xr / a.gx) nu pre V := by
    intro n hlt
    obtain ⟨-, k2⟩ := key n
    obtain ⟨-, -, r3⟩ := sim2_run h hxr nu hcfl.le htol hK hK0 time dbl0 conv0 om u (prefix_means2 hxy n)
    have k3 : (st (n + 1)).time - (st n).time = _ := sub_eq_of_eq_add' k2
    rw [k3, ← (hxy n).rule, hrule n]
    set F := (refRun2 a.flowType ⟨a.gy, a.gx, xr, nu, widthOf a.width, a.freeStream⟩ K cfl tol ((List.range n).map y) (fieldsFrom2 (xr / a.gx) om u, time)).1
    have hM := maxVel2_greatest hgy0 hgx0 F.u
    obtain ⟨⟨G, hG, hGe⟩, -⟩ := hM
    have h0 : 0 ≤ maxVel2 a.gy a.gx F.u := by rw [hGe]; positivity
    have hMV : maxVel2 a.gy a.gx F.u ≤ V := by
      rw [hGe]
      obtain ⟨c, p, hc, hp, hcp⟩ := domain_owned2 hT 2 ((dom2_iff hT G).1 hG)
      have := hV n c p hlt hc hp
      rw [← hcp, ← (r3 c p hc hp).2 0, ← (r3 c p hc hp).2 1]
      exact this
    have ed : refDt2 ⟨a.gy, a.gx, xr, nu, widthOf a.width, a.freeStream⟩ cfl tol F (.stable pre) = leastDt 4 cfl tol (xr / a.gx) nu pre (maxVel2 a.gy a.gx F.u) := rfl
    rw [ed]
    exact ⟨leastDt_mono hcfl htol hdx hpre h0 hMV, leastDt_le hcfl htol hdx hpre h0, leastDt_pos (by norm_num) hcfl htol hdx hnu hpre (h0.trans hMV)⟩
  have ht0 : (st 0).time = time := rfl
  obtain ⟨N, hN, hE, hB⟩ := clock_reaches (t := fun n => (st n).time) tEnd fun n hlt => ⟨by linarith [(hdt n hlt).1], (hdt n hlt).2.2⟩
  rw [ht0] at hN
  refine ⟨N, st N, While.of_states (it := st) (Nat.zero_le N) (fun i _ hi => hB i hi) (fun i _ _ => (key i).1) (not_lt.2 hE), hN, hE, ?_⟩
  intro hlt
  cases N with
  | zero => rw [ht0] at hE; exact absurd hE (not_le.2 hlt)
  | succ m =>
    have h1 := hB m (by omega)
    have h2 := (hdt m h1).2.1
    linarith

/-- C96: with a passive scalar the velocities never change, and the loop always ends, after exactly `⌈(t_end - time) / dt⌉` iterations of the same length `dt`. -/
theorem timeLoop2_passive {a : SimArgs2} (h : Fit2 a T) (hft : a.flowType = "passive_scalar") {xr : ℝ} (hxr : 0 < xr) {nu : ℝ} (hnu : 0 ≤ nu) {cfl : ℝ} (hcfl : 0 < cfl)
    {tol : ℝ} (htol : 0 < tol) {K : Kern2} (hK : K.Local) (hK0 : ∀ r, K.upd r (fun _ _ => 0) = 0) (time : ℝ) (dbl0 : World C2 C2 ℝ) (conv0 : Dbl2 T → ℂ)
    (om : ℝ → ℝ → ℝ) (u : Fin 2 → ℝ → ℝ → ℝ) {x : ℕ → StepIn2} {y : ℕ → StepSpec2} (hxy : ∀ i, Means2 a.gy a.gx T (simCfg2 a T xr nu cfl) (x i) (y i))
    {pre : ℝ} (hpre : 0 < pre) (hrule : ∀ i, (x i).rule = .stable pre) (tEnd : ℝ) :
    let C := simCfg2 a T xr nu cfl
    let S0 := initFrom2 T a.g xr time dbl0 conv0 om u
    ∃ dt V S, 0 < dt ∧ dt = leastDt 4 cfl tol (xr / a.gx) nu pre V ∧ IsGreatest {v | ∃ c p, Valid2 T c ∧ Inner2 T ((2 : ℕ) : ℤ) p ∧ v = |S0.vel 0 c p| + |S0.vel 1 c p|} V ∧
      While (fun S : Sim2 T => S.time < tEnd) (loopBody2 C K tol x) 0 S0 ⌈(tEnd - time) / dt⌉₊ (S, none) ∧ S.time = time + ⌈(tEnd - time) / dt⌉₊ * dt := by
  intro C S0
  obtain ⟨hT, -⟩ := simCheck2_cart' h.built
  obtain ⟨e1, e2, -⟩ := construct2_ok hT
  have hgy0 : 0 < a.gy := by rw [← e1]; exact Nat.pos_of_ne_zero (NeZero.ne _)
  have hgx0 : 0 < a.gx := by rw [← e2]; exact Nat.pos_of_ne_zero (NeZero.ne _)
  have hdx : 0 < xr / a.gx := div_pos hxr (by exact_mod_cast hgx0)
  set st := loopState2 C K tol x S0 with hst
  have key := fun n => loop2_states h hxr nu hcfl.le htol hK hK0 time dbl0 conv0 om u hxy n
  have hu : ∀ ys : List StepSpec2, ∀ s : Fields2 × ℝ, (refRun2 a.flowType ⟨a.gy, a.gx, xr, nu, widthOf a.width, a.freeStream⟩ K cfl tol ys s).1.u = s.1.u := by
    intro ys
    induction ys with
    | nil => intro s; rfl
    | cons z zs ih =>
      intro s
      unfold refRun2
      rw [ih]
      unfold refStep2
      rw [hft]
      rfl
  set U := (fieldsFrom2 (xr / a.gx) om u).u with hU
  set V := maxVel2 a.gy a.gx U with hVdef
  have hM := maxVel2_greatest hgy0 hgx0 U
  have hM' : IsGreatest {v | ∃ c p, Valid2 T c ∧ Inner2 T ((2 : ℕ) : ℤ) p ∧ v = |S0.vel 0 c p| + |S0.vel 1 c p|} V := by
    obtain ⟨-, -, r3⟩ := sim2_run h hxr nu hcfl.le htol hK hK0 time dbl0 conv0 om u (prefix_means2 hxy 0)
    have hv : ∀ c p, Valid2 T c → Inner2 T ((2 : ℕ) : ℤ) p → ∀ j, S0.vel j c p = U j (globalIx2 T ((2 : ℕ) : ℤ) c p) := fun c p hc hp j => (r3 c p hc hp).2 j
    refine ⟨?_, ?_⟩
    · obtain ⟨G, hG, hGe⟩ := hM.1
      obtain ⟨c, p, hc, hp, hcp⟩ := domain_owned2 hT 2 ((dom2_iff hT G).1 hG)
      exact ⟨c, p, hc, hp, by rw [hv c p hc hp, hv c p hc hp, hcp]; exact hGe⟩
    · rintro v ⟨c, p, hc, hp, rfl⟩
      rw [hv c p hc hp, hv c p hc hp]
      exact hM.2 ⟨_, (dom2_iff hT _).2 (inner_inDomain2 hT hc hp), rfl⟩
  have h0 : 0 ≤ V := by
    obtain ⟨G, -, hGe⟩ := hM.1
    rw [hVdef, hGe]; positivity
  set dt := leastDt 4 cfl tol (xr / a.gx) nu pre V with hdtdef
  have hdt0 : 0 < dt := leastDt_pos (by norm_num) hcfl htol hdx hnu hpre h0
  have hstep : ∀ n, (st (n + 1)).time = (st n).time + dt := by
    intro n
    obtain ⟨-, k2⟩ := key n
    refine k2.trans ?_
    rw [← (hxy n).rule, hrule n]
    congr 1
    unfold refDt2
    rw [hu]
    rfl
  have htime : ∀ n : ℕ, (st n).time = time + n * dt := by
    intro n
    induction n with
    | zero => simp only [Nat.cast_zero, zero_mul, add_zero]; rfl
    | succ n ih => rw [hstep, ih]; push_cast; ring
  refine ⟨dt, V, st ⌈(tEnd - time) / dt⌉₊, hdt0, rfl, hM', ?_, htime _⟩
  refine While.of_states (it := st) (Nat.zero_le _) (fun i _ hi => ?_) (fun i _ _ => (key i).1) (not_lt.2 ?_)
  · rw [htime]
    have := Nat.lt_ceil.1 hi
    rw [lt_div_iff₀ hdt0] at this
    linarith
  · rw [htime]
    have h1 := Nat.le_ceil ((tEnd - time) / dt)
    rw [div_le_iff₀ hdt0] at h1
    linarith

/-- C96: on any other decomposition the loop ends if it ends, after the same number of iterations, at the same time and with the same fields. -/
theorem timeLoop2_same {a a' : SimArgs2} (hsame : a' = { a with py := a'.py, px := a'.px }) (h : Fit2 a T) (h' : Fit2 a' T') {xr : ℝ} (hxr : 0 < xr) (nu : ℝ) {cfl : ℝ}
    (hcfl : 0 ≤ cfl) {tol : ℝ} (htol : 0 < tol) {K : Kern2} (hK : K.Local) (hK0 : ∀ r, K.upd r (fun _ _ => 0) = 0) (time : ℝ) (dbl0 dbl0' : World C2 C2 ℝ)
    (conv0 : Dbl2 T → ℂ) (conv0' : Dbl2 T' → ℂ) (om : ℝ → ℝ → ℝ) (u : Fin 2 → ℝ → ℝ → ℝ) {x x' : ℕ → StepIn2} {y : ℕ → StepSpec2}
    (hxy : ∀ i, Means2 a.gy a.gx T (simCfg2 a T xr nu cfl) (x i) (y i)) (hxy' : ∀ i, Means2 a'.gy a'.gx T' (simCfg2 a' T' xr nu cfl) (x' i) (y i)) (tEnd : ℝ) {N : ℕ}
    {r : Sim2 T × Option PyErr}
    (hw : While (fun S : Sim2 T => S.time < tEnd) (loopBody2 (simCfg2 a T xr nu cfl) K tol x) 0 (initFrom2 T a.g xr time dbl0 conv0 om u) N r) :
    ∃ S', While (fun S : Sim2 T' => S.time < tEnd) (loopBody2 (simCfg2 a' T' xr nu cfl) K tol x') 0 (initFrom2 T' a'.g xr time dbl0' conv0' om u) N (S', none) ∧
      r.2 = none ∧ r.1.time = S'.time ∧
      ∀ c p c' p', Valid2 T c → Inner2 T ((2 : ℕ) : ℤ) p → Valid2 T' c' → Inner2 T' ((2 : ℕ) : ℤ) p' →
        globalIx2 T ((2 : ℕ) : ℤ) c p = globalIx2 T' ((2 : ℕ) : ℤ) c' p' →
        r.1.prim c p = S'.prim c' p' ∧ ∀ j, r.1.vel j c p = S'.vel j c' p' := by
  have key := fun n => (loop2_states h hxr nu hcfl htol hK hK0 time dbl0 conv0 om u hxy n).1
  have key' := fun n => (loop2_states h' hxr nu hcfl htol hK hK0 time dbl0' conv0' om u hxy' n).1
  have hind := fun n => sim2_decomposition_independent hsame h h' hxr nu hcfl htol hK hK0 time dbl0 dbl0' conv0 conv0' om u (prefix_means2 hxy n) (prefix_means2 hxy' n)
  set st := loopState2 (simCfg2 a T xr nu cfl) K tol x (initFrom2 T a.g xr time dbl0 conv0 om u) with hst
  set st' := loopState2 (simCfg2 a' T' xr nu cfl) K tol x' (initFrom2 T' a'.g xr time dbl0' conv0' om u) with hst'
  have ht : ∀ n, (st n).time = (st' n).time := fun n => (hind n).2.2.1
  obtain ⟨-, w2, w3, w4⟩ := hw.states (it := st) rfl key
  refine ⟨st' N, While.of_states (it := st') (Nat.zero_le N) (fun i hi hn => by rw [← ht]; exact w2 i hi hn) (fun i _ _ => key' i) (by rw [← ht]; exact w3), by rw [w4],
    by rw [w4]; exact ht N, ?_⟩
  rw [w4]
  exact (hind N).2.2.2

/-! ## The hypotheses can be met -/

/-- a stream of iterations with stable time steps exists for every simulator without forcing -/
theorem stream2_exists (T : Cart2) (gy gx : ℕ) (C : Cfg2) (hC : C.flowType ≠ "navier_stokes_with_forcing") (pre : ℝ) :
    ∃ (x : ℕ → StepIn2) (y : ℕ → StepSpec2), (∀ i, Means2 gy gx T C (x i) (y i)) ∧ ∀ i, (x i).rule = .stable pre := by
  obtain ⟨sch, hs⟩ := scheds2_exist T C.d
  exact ⟨fun _ => ⟨.stable pre, fun _ => 0, fun _ _ _ => 0, sch⟩, fun _ => ⟨.stable pre, fun _ => 0, fun _ _ => 0⟩, fun _ => ⟨rfl, rfl, hs, fun h => absurd h hC⟩, fun _ => rfl⟩

/-- kernels of an advected and diffused scalar -/
noncomputable def upKern2 : Kern2 where
  diff := fun a f => a * (f () (1, 0) + f () (-1, 0) + f () (0, 1) + f () (0, -1) - 4 * f () (0, 0))
  adv := fun a f => a * (f (some 0) (0, 0) * (f none (0, 2) - f none (0, -2)) + f (some 1) (0, 0) * (f none (2, 0) - f none (-2, 0)))
  curl := fun a f => (a * (f () (1, 0) - f () (-1, 0)), -a * (f () (0, 1) - f () (0, -1)))
  upd := fun a f => a * (f 1 (0, 1) - f 1 (0, -1) - f 0 (1, 0) + f 0 (-1, 0))

/-- a drop of scalar in a uniform stream on 1 × 2 ranks: the loop to `t_end = 1` ends -/
example : ∃ (x : ℕ → StepIn2) (N : ℕ) (S : Sim2 ⟨16, 8, 1, 2, 16, 4, false⟩),
    haveI : NeZero (Cart2.mk 16 8 1 2 16 4 false).gy := ⟨by decide⟩
    haveI : NeZero (Cart2.mk 16 8 1 2 16 4 false).gx := ⟨by decide⟩
    While (fun S : Sim2 ⟨16, 8, 1, 2, 16, 4, false⟩ => S.time < 1)
      (loopBody2 (simCfg2 ⟨16, 8, 1, 2, "passive_scalar", false, 2, .int 2⟩ ⟨16, 8, 1, 2, 16, 4, false⟩ 1 0.01 0.1) upKern2 0.001 x) 0
      (initFrom2 ⟨16, 8, 1, 2, 16, 4, false⟩ 2 1 0 (fun _ _ => 0) (fun _ => 0) (fun x y => x * y) fun _ _ _ => 1) N (S, none) ∧ 1 ≤ S.time := by
  haveI : NeZero (Cart2.mk 16 8 1 2 16 4 false).gy := ⟨by decide⟩
  haveI : NeZero (Cart2.mk 16 8 1 2 16 4 false).gx := ⟨by decide⟩
  have hF : Fit2 ⟨16, 8, 1, 2, "passive_scalar", false, 2, .int 2⟩ ⟨16, 8, 1, 2, 16, 4, false⟩ :=
    ⟨by decide, ⟨by decide, fun _ => ⟨by decide, 2, rfl⟩⟩, rfl, by decide, by decide, by decide, by decide⟩
  obtain ⟨x, y, hxy, hr⟩ := stream2_exists ⟨16, 8, 1, 2, 16, 4, false⟩ 16 8
    (simCfg2 ⟨16, 8, 1, 2, "passive_scalar", false, 2, .int 2⟩ ⟨16, 8, 1, 2, 16, 4, false⟩ 1 0.01 0.1) (by simp [simCfg2]) 1
  have hK : upKern2.Local := by constructor <;> intro a A B h <;> simp only [upKern2] <;> (repeat rw [h _ _ (by simp [Cross2])])
  obtain ⟨dt, V, S, h1, -, -, h2, h3⟩ := timeLoop2_passive hF rfl (xr := 1) one_pos (nu := 0.01) (by norm_num) (cfl := 0.1) (by norm_num) (tol := 0.001) (by norm_num)
    hK (by simp [upKern2]) 0 (fun _ _ => 0) (fun _ => 0) (fun x y => x * y) (fun _ _ _ => 1) hxy one_pos hr 1
  refine ⟨x, _, S, h2, ?_⟩
  rw [h3]
  have := Nat.le_ceil ((1 - 0) / dt)
  rw [div_le_iff₀ h1] at this
  linarith

/-- Without a bound on the velocities the loop need not end: a clock whose steps halve never reaches 2. -/
example : ¬∃ n r, While (E := Unit) (fun t : ℝ => t < 2) (fun i t => (t + 1 / 2 ^ i, none)) 0 0 n r := by
  rintro ⟨n, r, h⟩
  have hs : ∀ i : ℕ, (2 - 2 / 2 ^ (i + 1) : ℝ) = (2 - 2 / 2 ^ i) + 1 / 2 ^ i := fun i => by rw [pow_succ]; field_simp; ring
  obtain ⟨-, -, h3, -⟩ := h.states (it := fun i : ℕ => (2 - 2 / 2 ^ i : ℝ)) (by norm_num) (fun i => by simp only [hs])
  apply h3
  have : (0 : ℝ) < 2 / 2 ^ n := by positivity
  linarith

end Sopht
