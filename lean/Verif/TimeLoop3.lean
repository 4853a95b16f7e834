import Verif.TimeLoop
import Verif.Sim3DRun

/-!
# The time loop of a driver, 3D

`while flow_sim.time < t_end: dt = flow_sim.compute_stable_timestep(...); flow_sim.time_step(dt=dt, ...)`
(examples/3d_examples/PointSourceAdvectAndDiffuseCase/point_source_advection_diffusion.py:121-146, and the same loop in the other examples).  See `TimeLoop`.
-/

namespace Sopht

/-- The numbers of a simulation. -/
def argP3 (a : SimArgs3) (xr nu : ℝ) : Params3 := ⟨a.gz, a.gy, a.gx, xr, nu, widthOf a.width, a.freeStream, filterNums (filterInUse a)⟩

/-! ## The loop of the simulator -/

variable {T T' : Cart3} [NeZero T.gz] [NeZero T.gy] [NeZero T.gx] [NeZero T'.gz] [NeZero T'.gy] [NeZero T'.gx]

/-- An iteration of the loop on all ranks: `x i` says what iteration `i` does. -/
noncomputable def loopBody3 (C : Cfg3) (K : Kern3) (tol : ℝ) (x : ℕ → StepIn3) (i : ℕ) (S : Sim3 T) : Sim3 T × Option PyErr := iterate3 C K (x i) (pickDt3 C tol S (x i).rule)

/-- The state after `n` iterations. -/
noncomputable def loopState3 (C : Cfg3) (K : Kern3) (tol : ℝ) (x : ℕ → StepIn3) (S : Sim3 T) (n : ℕ) : Sim3 T := (simLoop3 C K tol ((List.range n).map x) S).1

theorem simLoop3_snoc (C : Cfg3) (K : Kern3) (tol : ℝ) (xs : List StepIn3) (x : StepIn3) (S : Sim3 T) (h : (simLoop3 C K tol xs S).2 = none) :
    simLoop3 C K tol (xs ++ [x]) S = iterate3 C K x (pickDt3 C tol (simLoop3 C K tol xs S).1 x.rule) := by
  induction xs generalizing S with
  | nil =>
    simp only [List.nil_append, simLoop3, Out3.andThen]
    split
    · rename_i e he
      exact Prod.ext rfl he.symm
    · rename_i he
      exact Prod.ext rfl he.symm
  | cons y ys ih =>
    simp only [List.cons_append, simLoop3] at h ⊢
    cases he : (iterate3 C K y (pickDt3 C tol S y.rule)).2 with
    | some e =>
      unfold Out3.andThen at h
      rw [he] at h
      cases h
    | none =>
      unfold Out3.andThen at h ⊢
      rw [he] at h ⊢
      exact ih _ h

theorem refRun3_snoc (ft : String) (P : Params3) (K : Kern3) (cfl tol : ℝ) (ys : List StepSpec3) (y : StepSpec3) (s : Fields3 × ℝ) :
    refRun3 ft P K cfl tol (ys ++ [y]) s = (refStep3 ft P K (refDt3 P cfl tol (refRun3 ft P K cfl tol ys s).1 y.rule) y.fs y.Φ (refRun3 ft P K cfl tol ys s).1,
      (refRun3 ft P K cfl tol ys s).2 + refDt3 P cfl tol (refRun3 ft P K cfl tol ys s).1 y.rule) := by
  induction ys generalizing s with
  | nil => rfl
  | cons z zs ih => exact ih _

theorem prefix_means3 {gz gy gx : ℕ} {C : Cfg3} {x : ℕ → StepIn3} {y : ℕ → StepSpec3} (h : ∀ i, Means3 gz gy gx T C (x i) (y i)) (n : ℕ) :
    List.Forall₂ (Means3 gz gy gx T C) ((List.range n).map x) ((List.range n).map y) := by
  rw [List.forall₂_map_left_iff, List.forall₂_map_right_iff]
  exact List.forall₂_same.2 fun i _ => h i

/-- every iteration of the loop returns, and its time step is the one of the global grid -/
theorem loop3_states {a : SimArgs3} (h : Fit3 a T) {xr : ℝ} (hxr : 0 < xr) {nu : ℝ} (hnu : 0 ≤ nu) {cfl : ℝ} (hcfl : 0 ≤ cfl) {tol : ℝ} (htol : 0 < tol)
    {K : Kern3} (hK : K.Local) (hK0 : ∀ r, K.upd r (fun _ _ => 0) = 0) (time : ℝ) (dbl0 : World C3 C3 ℝ) (conv0 : Dbl3 T → ℂ)
    (sc : ℝ → ℝ → ℝ → ℝ) (om u : Fin 3 → ℝ → ℝ → ℝ → ℝ) {x : ℕ → StepIn3} {y : ℕ → StepSpec3} (hxy : ∀ i, Means3 a.gz a.gy a.gx T (simCfg3 a xr nu cfl) (x i) (y i)) (n : ℕ) :
    let C := simCfg3 a xr nu cfl
    let st := loopState3 C K tol x (initFrom3 T a.g xr time dbl0 conv0 sc om u)
    let F := (refRun3 a.flowType (argP3 a xr nu) K cfl tol ((List.range n).map y) (fieldsFrom3 (xr / a.gx) sc om u, time)).1
    loopBody3 C K tol x n (st n) = (st (n + 1), none) ∧ (st (n + 1)).time = (st n).time + refDt3 (argP3 a xr nu) cfl tol F (y n).rule := by
  obtain ⟨r1, r2, -⟩ := sim3_run h hxr hnu hcfl htol hK hK0 time dbl0 conv0 sc om u (prefix_means3 hxy n)
  obtain ⟨s1, s2, -⟩ := sim3_run h hxr hnu hcfl htol hK hK0 time dbl0 conv0 sc om u (prefix_means3 hxy (n + 1))
  have e := simLoop3_snoc (simCfg3 a xr nu cfl) K tol ((List.range n).map x) (x n) (initFrom3 T a.g xr time dbl0 conv0 sc om u) r1
  have hr : (List.range (n + 1)).map x = (List.range n).map x ++ [x n] := by rw [List.range_succ, List.map_append]; rfl
  have hr' : (List.range (n + 1)).map y = (List.range n).map y ++ [y n] := by rw [List.range_succ, List.map_append]; rfl
  rw [← hr] at e
  intro C st F
  refine ⟨?_, ?_⟩
  · exact (show loopBody3 C K tol x n (st n) = _ from e.symm).trans (Prod.ext rfl s1)
  · rw [hr', refRun3_snoc] at s2
    exact s2.trans (congrArg (· + _) r2.symm)

/-- C96: the loop `while flow_sim.time < t_end` with stable time steps ends, without exception, if the velocities stay bounded (by `V`, however large) until `t_end`: after at most
`⌈(t_end - time) / dt⌉` iterations, `dt` the time step at velocity `V`; then `t_end ≤ time < t_end + ` the largest possible time step. -/
theorem timeLoop3_ends {a : SimArgs3} (h : Fit3 a T) {xr : ℝ} (hxr : 0 < xr) {nu : ℝ} (hnu : 0 ≤ nu) {cfl : ℝ} (hcfl : 0 < cfl) {tol : ℝ} (htol : 0 < tol)
    {K : Kern3} (hK : K.Local) (hK0 : ∀ r, K.upd r (fun _ _ => 0) = 0) (time : ℝ) (dbl0 : World C3 C3 ℝ) (conv0 : Dbl3 T → ℂ)
    (sc : ℝ → ℝ → ℝ → ℝ) (om u : Fin 3 → ℝ → ℝ → ℝ → ℝ) {x : ℕ → StepIn3} {y : ℕ → StepSpec3} (hxy : ∀ i, Means3 a.gz a.gy a.gx T (simCfg3 a xr nu cfl) (x i) (y i))
    {pre : ℝ} (hpre : 0 < pre) (hrule : ∀ i, (x i).rule = .stable pre) (tEnd : ℝ) {V : ℝ}
    (hV : ∀ n c p, (loopState3 (simCfg3 a xr nu cfl) K tol x (initFrom3 T a.g xr time dbl0 conv0 sc om u) n).time < tEnd → Valid3 T c → Inner3 T a.g p →
      |(loopState3 (simCfg3 a xr nu cfl) K tol x (initFrom3 T a.g xr time dbl0 conv0 sc om u) n).vel 0 c p| +
      |(loopState3 (simCfg3 a xr nu cfl) K tol x (initFrom3 T a.g xr time dbl0 conv0 sc om u) n).vel 1 c p| + |(loopState3 (simCfg3 a xr nu cfl) K tol x (initFrom3 T a.g xr time dbl0 conv0 sc om u) n).vel 2 c p| ≤ V) :
    let C := simCfg3 a xr nu cfl
    let S0 := initFrom3 T a.g xr time dbl0 conv0 sc om u
    ∃ N S, While (fun S : Sim3 T => S.time < tEnd) (loopBody3 C K tol x) 0 S0 N (S, none) ∧
      N ≤ ⌈(tEnd - time) / leastDt 6 cfl tol (xr / a.gx) (nu + tol) pre V⌉₊ ∧ tEnd ≤ S.time ∧ (time < tEnd → S.time < tEnd + cfl * (xr / a.gx) / tol * pre) := by
  intro C S0
  obtain ⟨hT, -⟩ := simCheck3_cart h.built
  obtain ⟨e0, e1, e2, -⟩ := construct3_ok hT
  have hgz0 : 0 < a.gz := by rw [← e0]; exact Nat.pos_of_ne_zero (NeZero.ne _)
  have hgy0 : 0 < a.gy := by rw [← e1]; exact Nat.pos_of_ne_zero (NeZero.ne _)
  have hgx0 : 0 < a.gx := by rw [← e2]; exact Nat.pos_of_ne_zero (NeZero.ne _)
  have hnt : 0 < nu + tol := by linarith
  have hdx : 0 < xr / a.gx := div_pos hxr (by exact_mod_cast hgx0)
  set st := loopState3 C K tol x S0 with hst
  have key := fun n => loop3_states h hxr hnu hcfl.le htol hK hK0 time dbl0 conv0 sc om u hxy n
  -- the time step of iteration `n`
  have hdt : ∀ n, (st n).time < tEnd → leastDt 6 cfl tol (xr / a.gx) (nu + tol) pre V ≤ (st (n + 1)).time - (st n).time ∧ (st (n + 1)).time - (st n).time ≤ cfl * (xr / a.gx) / tol * pre ∧
      0 < leastDt 6 cfl tol (xr / a.gx) (nu + tol) pre V := by
    intro n hlt
    obtain ⟨-, k2⟩ := key n
    obtain ⟨-, -, r3⟩ := sim3_run h hxr hnu hcfl.le htol hK hK0 time dbl0 conv0 sc om u (prefix_means3 hxy n)
    have k3 : (st (n + 1)).time - (st n).time = _ := sub_eq_of_eq_add' k2
    rw [k3, ← (hxy n).rule, hrule n]
    set F := (refRun3 a.flowType (argP3 a xr nu) K cfl tol ((List.range n).map y) (fieldsFrom3 (xr / a.gx) sc om u, time)).1
    have hM := maxVel3_greatest hgz0 hgy0 hgx0 F.u
    obtain ⟨⟨G, hG, hGe⟩, -⟩ := hM
    have h0 : 0 ≤ maxVel3 a.gz a.gy a.gx F.u := by rw [hGe]; positivity
    have hMV : maxVel3 a.gz a.gy a.gx F.u ≤ V := by
      rw [hGe]
      obtain ⟨c, p, hc, hp, hcp⟩ := domain_owned3 hT a.g ((dom3_iff hT G).1 hG)
      have := hV n c p hlt hc hp
      have q : ∀ j, (st n).vel j c p = F.u j (globalIx3 T a.g c p) := fun j => ((r3 c p hc hp).2 j).2
      rw [← hcp, ← q 0, ← q 1, ← q 2]
      exact this
    have ed : refDt3 (argP3 a xr nu) cfl tol F (.stable pre) = leastDt 6 cfl tol (xr / a.gx) (nu + tol) pre (maxVel3 a.gz a.gy a.gx F.u) := by
      unfold leastDt
      rw [if_neg hnt.ne']
      rfl
    rw [ed]
    exact ⟨leastDt_mono hcfl htol hdx hpre h0 hMV, leastDt_le hcfl htol hdx hpre h0, leastDt_pos (by norm_num) hcfl htol hdx hnt.le hpre (h0.trans hMV)⟩
  have ht0 : (st 0).time = time := rfl
  obtain ⟨N, hN, hE, hB⟩ := clock_reaches (t := fun n => (st n).time) tEnd fun n hlt => ⟨by linarith [(hdt n hlt).1], (hdt n hlt).2.2⟩
  rw [ht0] at hN
  refine ⟨N, st N, While.of_states (it := st) (Nat.zero_le N) (fun i _ hi => hB i hi) (fun i _ _ => (key i).1) (not_lt.2 hE), hN, hE, ?_⟩
  intro hlt
  cases N with
  | zero => rw [ht0] at hE; exact absurd hE (not_le.2 hlt)
  | succ m =>
    have h1 := hB m (by omega)
    have h2 := (hdt m h1).2.1
    linarith

/-- C96: with a passive scalar or vector the velocities never change, and the loop always ends, after exactly `⌈(t_end - time) / dt⌉` iterations of the same length `dt`. -/
theorem timeLoop3_passive {a : SimArgs3} (h : Fit3 a T) (hft : a.flowType = "passive_scalar" ∨ a.flowType = "passive_vector") {xr : ℝ} (hxr : 0 < xr) {nu : ℝ} (hnu : 0 ≤ nu) {cfl : ℝ} (hcfl : 0 < cfl)
    {tol : ℝ} (htol : 0 < tol) {K : Kern3} (hK : K.Local) (hK0 : ∀ r, K.upd r (fun _ _ => 0) = 0) (time : ℝ) (dbl0 : World C3 C3 ℝ) (conv0 : Dbl3 T → ℂ)
    (sc : ℝ → ℝ → ℝ → ℝ) (om u : Fin 3 → ℝ → ℝ → ℝ → ℝ) {x : ℕ → StepIn3} {y : ℕ → StepSpec3} (hxy : ∀ i, Means3 a.gz a.gy a.gx T (simCfg3 a xr nu cfl) (x i) (y i))
    {pre : ℝ} (hpre : 0 < pre) (hrule : ∀ i, (x i).rule = .stable pre) (tEnd : ℝ) :
    let C := simCfg3 a xr nu cfl
    let S0 := initFrom3 T a.g xr time dbl0 conv0 sc om u
    ∃ dt V S, 0 < dt ∧ dt = leastDt 6 cfl tol (xr / a.gx) (nu + tol) pre V ∧ IsGreatest {v | ∃ c p, Valid3 T c ∧ Inner3 T a.g p ∧ v = |S0.vel 0 c p| + |S0.vel 1 c p| + |S0.vel 2 c p|} V ∧
      While (fun S : Sim3 T => S.time < tEnd) (loopBody3 C K tol x) 0 S0 ⌈(tEnd - time) / dt⌉₊ (S, none) ∧ S.time = time + ⌈(tEnd - time) / dt⌉₊ * dt := by
  intro C S0
  obtain ⟨hT, -⟩ := simCheck3_cart h.built
  obtain ⟨e0, e1, e2, -⟩ := construct3_ok hT
  have hgz0 : 0 < a.gz := by rw [← e0]; exact Nat.pos_of_ne_zero (NeZero.ne _)
  have hgy0 : 0 < a.gy := by rw [← e1]; exact Nat.pos_of_ne_zero (NeZero.ne _)
  have hgx0 : 0 < a.gx := by rw [← e2]; exact Nat.pos_of_ne_zero (NeZero.ne _)
  have hnt : 0 < nu + tol := by linarith
  have hdx : 0 < xr / a.gx := div_pos hxr (by exact_mod_cast hgx0)
  set st := loopState3 C K tol x S0 with hst
  have key := fun n => loop3_states h hxr hnu hcfl.le htol hK hK0 time dbl0 conv0 sc om u hxy n
  have hu : ∀ ys : List StepSpec3, ∀ s : Fields3 × ℝ, (refRun3 a.flowType (argP3 a xr nu) K cfl tol ys s).1.u = s.1.u := by
    intro ys
    induction ys with
    | nil => intro s; rfl
    | cons z zs ih =>
      intro s
      unfold refRun3
      rw [ih]
      unfold refStep3
      rcases hft with hft | hft <;> rw [hft] <;> rfl
  set U := (fieldsFrom3 (xr / a.gx) sc om u).u with hU
  set V := maxVel3 a.gz a.gy a.gx U with hVdef
  have hM := maxVel3_greatest hgz0 hgy0 hgx0 U
  have hM' : IsGreatest {v | ∃ c p, Valid3 T c ∧ Inner3 T a.g p ∧ v = |S0.vel 0 c p| + |S0.vel 1 c p| + |S0.vel 2 c p|} V := by
    obtain ⟨-, -, r3⟩ := sim3_run h hxr hnu hcfl.le htol hK hK0 time dbl0 conv0 sc om u (prefix_means3 hxy 0)
    have hv : ∀ c p, Valid3 T c → Inner3 T a.g p → ∀ j, S0.vel j c p = U j (globalIx3 T a.g c p) := fun c p hc hp j => ((r3 c p hc hp).2 j).2
    refine ⟨?_, ?_⟩
    · obtain ⟨G, hG, hGe⟩ := hM.1
      obtain ⟨c, p, hc, hp, hcp⟩ := domain_owned3 hT a.g ((dom3_iff hT G).1 hG)
      exact ⟨c, p, hc, hp, by rw [hv c p hc hp, hv c p hc hp, hv c p hc hp, hcp]; exact hGe⟩
    · rintro v ⟨c, p, hc, hp, rfl⟩
      rw [hv c p hc hp, hv c p hc hp, hv c p hc hp]
      exact hM.2 ⟨_, (dom3_iff hT _).2 (inner_inDomain3 hT hc hp), rfl⟩
  have h0 : 0 ≤ V := by
    obtain ⟨G, -, hGe⟩ := hM.1
    rw [hVdef, hGe]; positivity
  set dt := leastDt 6 cfl tol (xr / a.gx) (nu + tol) pre V with hdtdef
  have hdt0 : 0 < dt := leastDt_pos (by norm_num) hcfl htol hdx hnt.le hpre h0
  have hstep : ∀ n, (st (n + 1)).time = (st n).time + dt := by
    intro n
    obtain ⟨-, k2⟩ := key n
    refine k2.trans ?_
    rw [← (hxy n).rule, hrule n]
    congr 1
    unfold refDt3
    rw [hu, hdtdef]
    unfold leastDt
    rw [if_neg hnt.ne']
    rfl
  have htime : ∀ n : ℕ, (st n).time = time + n * dt := by
    intro n
    induction n with
    | zero => simp only [Nat.cast_zero, zero_mul, add_zero]; rfl
    | succ n ih => rw [hstep, ih]; push_cast; ring
  refine ⟨dt, V, st ⌈(tEnd - time) / dt⌉₊, hdt0, rfl, hM', ?_, htime _⟩
  refine While.of_states (it := st) (Nat.zero_le _) (fun i _ hi => ?_) (fun i _ _ => (key i).1) (not_lt.2 ?_)
  · rw [htime]
    have := Nat.lt_ceil.1 hi
    rw [lt_div_iff₀ hdt0] at this
    linarith
  · rw [htime]
    have h1 := Nat.le_ceil ((tEnd - time) / dt)
    rw [div_le_iff₀ hdt0] at h1
    linarith

/-- C96: on any other decomposition the loop ends if it ends, after the same number of iterations, at the same time and with the same fields. -/
theorem timeLoop3_same {a a' : SimArgs3} (hsame : a' = { a with pz := a'.pz, py := a'.py, px := a'.px }) (h : Fit3 a T) (h' : Fit3 a' T') {xr : ℝ} (hxr : 0 < xr) {nu : ℝ} (hnu : 0 ≤ nu) {cfl : ℝ}
    (hcfl : 0 ≤ cfl) {tol : ℝ} (htol : 0 < tol) {K : Kern3} (hK : K.Local) (hK0 : ∀ r, K.upd r (fun _ _ => 0) = 0) (time : ℝ) (dbl0 dbl0' : World C3 C3 ℝ)
    (conv0 : Dbl3 T → ℂ) (conv0' : Dbl3 T' → ℂ) (sc : ℝ → ℝ → ℝ → ℝ) (om u : Fin 3 → ℝ → ℝ → ℝ → ℝ) {x x' : ℕ → StepIn3} {y : ℕ → StepSpec3}
    (hxy : ∀ i, Means3 a.gz a.gy a.gx T (simCfg3 a xr nu cfl) (x i) (y i)) (hxy' : ∀ i, Means3 a'.gz a'.gy a'.gx T' (simCfg3 a' xr nu cfl) (x' i) (y i)) (tEnd : ℝ) {N : ℕ}
    {r : Sim3 T × Option PyErr}
    (hw : While (fun S : Sim3 T => S.time < tEnd) (loopBody3 (simCfg3 a xr nu cfl) K tol x) 0 (initFrom3 T a.g xr time dbl0 conv0 sc om u) N r) :
    ∃ S', While (fun S : Sim3 T' => S.time < tEnd) (loopBody3 (simCfg3 a' xr nu cfl) K tol x') 0 (initFrom3 T' a'.g xr time dbl0' conv0' sc om u) N (S', none) ∧
      r.2 = none ∧ r.1.time = S'.time ∧
      ∀ c p c' p', Valid3 T c → Inner3 T a.g p → Valid3 T' c' → Inner3 T' a'.g p' →
        globalIx3 T a.g c p = globalIx3 T' a'.g c' p' →
        r.1.sc c p = S'.sc c' p' ∧ ∀ j, r.1.om j c p = S'.om j c' p' ∧ r.1.vel j c p = S'.vel j c' p' := by
  have key := fun n => (loop3_states h hxr hnu hcfl htol hK hK0 time dbl0 conv0 sc om u hxy n).1
  have key' := fun n => (loop3_states h' hxr hnu hcfl htol hK hK0 time dbl0' conv0' sc om u hxy' n).1
  have hind := fun n => sim3_decomposition_independent hsame h h' hxr hnu hcfl htol hK hK0 time dbl0 dbl0' conv0 conv0' sc om u (prefix_means3 hxy n) (prefix_means3 hxy' n)
  set st := loopState3 (simCfg3 a xr nu cfl) K tol x (initFrom3 T a.g xr time dbl0 conv0 sc om u) with hst
  set st' := loopState3 (simCfg3 a' xr nu cfl) K tol x' (initFrom3 T' a'.g xr time dbl0' conv0' sc om u) with hst'
  have ht : ∀ n, (st n).time = (st' n).time := fun n => (hind n).2.2.1
  obtain ⟨-, w2, w3, w4⟩ := hw.states (it := st) rfl key
  refine ⟨st' N, While.of_states (it := st') (Nat.zero_le N) (fun i hi hn => by rw [← ht]; exact w2 i hi hn) (fun i _ _ => key' i) (by rw [← ht]; exact w3), by rw [w4],
    by rw [w4]; exact ht N, ?_⟩
  rw [w4]
  exact (hind N).2.2.2

/-! ## The hypotheses can be met -/

/-- a stream of iterations with stable time steps exists for every simulator without forcing -/
theorem stream3_exists (T : Cart3) (gz gy gx : ℕ) (C : Cfg3) (hC : C.flowType ≠ "navier_stokes_with_forcing") (pre : ℝ) :
    ∃ (x : ℕ → StepIn3) (y : ℕ → StepSpec3), (∀ i, Means3 gz gy gx T C (x i) (y i)) ∧ ∀ i, (x i).rule = .stable pre := by
  obtain ⟨sch, hs⟩ := scheds3_exist T C.g C.full
  exact ⟨fun _ => ⟨.stable pre, some fun _ => 0, fun _ _ _ => 0, sch⟩, fun _ => ⟨.stable pre, fun _ => 0, fun _ _ => 0⟩, fun _ => ⟨rfl, fun _ => rfl, hs, fun h => absurd h hC⟩,
    fun _ => rfl⟩

end Sopht
