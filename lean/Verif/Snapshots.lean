import Verif.TimeLoop
import Verif.TimeLoop3
import Mathlib.Data.List.Chain
import Mathlib.Order.Interval.Finset.Nat

/-!
# Snapshots of a driver

The timers of the examples: `if foto_timer >= foto_timer_limit or foto_timer == 0: foto_timer = 0.0; ...` at the start of an iteration and `foto_timer += dt` at its end
(examples/2d_examples/LambOseenVortexCase/lamb_oseen_vortex.py:66-109 and the other 2D examples; the 3D examples have `>` for `>=`), and the names
`"snap_" + str("%0.4d" % (flow_sim.time * 100)) + ".png"` of the files written.
-/

namespace Sopht

/-! ## Timers -/

/-- `foto_timer >= foto_timer_limit` (2D examples; lamb_oseen_vortex.py:83, flow_past_cylinder.py:101, flow_past_rod.py:217) or, `strict`,
`foto_timer > foto_timer_limit` (3D examples; point_source_advection_diffusion.py:111, flow_past_sphere_case.py, flow_past_rod_case.py, flow_past_freely_rotating_rod_case.py). -/
def Due (strict : Bool) (limit timer : ℝ) : Prop := if strict then limit < timer else limit ≤ timer

/-- C97: what the comparison means. -/
theorem due_iff (limit timer : ℝ) : (Due true limit timer ↔ limit < timer) ∧ (Due false limit timer ↔ limit ≤ timer) := ⟨Iff.rfl, Iff.rfl⟩

section
variable {S E : Type}

open Classical in
/-- An iteration of a driver with a timer: snapshot if due, then `core` (which computes `dt` and steps the simulator), then `foto_timer += dt`.
State: the simulator, the timer, and the snapshots: what `shot` – the time, a drag coefficient, … – was when they were taken. -/
noncomputable def snapBody {V : Type} (strict : Bool) (limit : ℝ) (shot : S → V) (dtOf : ℕ → S → Except E ℝ) (core : ℕ → S → S × Option E) (i : ℕ) (s : S × ℝ × List V) :
    (S × ℝ × List V) × Option E :=
  let due := Due strict limit s.2.1 ∨ s.2.1 = 0
  let timer := if due then 0 else s.2.1
  let snaps := if due then s.2.2 ++ [shot s.1] else s.2.2
  match dtOf i s.1, core i s.1 with
  | .error e, r => ((r.1, timer, snaps), some e)
  | .ok _, (s', some e) => ((s', timer, snaps), some e)
  | .ok dt, (s', none) => ((s', timer + dt, snaps), none)

end

/-- The specification: `snaps` are the times of those of the iterations `0 … N - 1` – iteration `k` starts at time `t k` – that a user expects a snapshot in: the first
iteration, and after a snapshot the first iteration that starts `limit` later. -/
structure Snapshots (strict : Bool) (limit : ℝ) (t : ℕ → ℝ) (N : ℕ) (idx : List ℕ) : Prop where
  first : N ≠ 0 → idx.head? = some 0
  lt : ∀ i ∈ idx, i < N
  next : idx.IsChain fun i j => i < j ∧ Due strict limit (t j - t i) ∧ ∀ k, i < k → k < j → ¬Due strict limit (t k - t i)
  last : ∀ i, idx.getLast? = some i → ∀ k, i < k → k < N → ¬Due strict limit (t k - t i)

section
variable {strict : Bool} {limit : ℝ} {t dt : ℕ → ℝ} {V : Type} {v : ℕ → V}

open Classical in
/-- timer and snapshots before iteration `n` -/
noncomputable def snapSeq (strict : Bool) (limit : ℝ) (v : ℕ → V) (dt : ℕ → ℝ) : ℕ → ℝ × List V
  | 0 => (0, [])
  | n + 1 =>
    let s := snapSeq strict limit v dt n
    let due := Due strict limit s.1 ∨ s.1 = 0
    ((if due then 0 else s.1) + dt n, if due then s.2 ++ [v n] else s.2)

theorem snapSeq_spec (hdt : ∀ n, 0 < dt n) (ht : ∀ n, t (n + 1) = t n + dt n) (n : ℕ) :
    ∃ idx, Snapshots strict limit t n idx ∧ (snapSeq strict limit v dt n).2 = idx.map v ∧
      (n = 0 ∧ idx = [] ∧ (snapSeq strict limit v dt n).1 = 0 ∨ ∃ i, idx.getLast? = some i ∧ i < n ∧ (snapSeq strict limit v dt n).1 = t n - t i) := by
  have hmono : StrictMono t := strictMono_nat_of_lt_succ fun n => by rw [ht]; linarith [hdt n]
  induction n with
  | zero => exact ⟨[], ⟨fun h => absurd rfl h, by simp, List.isChain_nil, by simp⟩, rfl, Or.inl ⟨rfl, rfl, rfl⟩⟩
  | succ n ih =>
    obtain ⟨idx, h1, h2, h3⟩ := ih
    by_cases hd : Due strict limit (snapSeq strict limit v dt n).1 ∨ (snapSeq strict limit v dt n).1 = 0
    · refine ⟨idx ++ [n], ⟨fun _ => ?_, ?_, ?_, ?_⟩, ?_, Or.inr ⟨n, by simp, by omega, ?_⟩⟩
      · rcases h3 with ⟨rfl, rfl, -⟩ | ⟨i, hi, hin, -⟩
        · rfl
        · rw [List.head?_append, h1.first (by omega)]; rfl
      · intro i hi
        rcases List.mem_append.1 hi with hi | hi
        · have := h1.lt i hi; omega
        · have := List.mem_singleton.1 hi; omega
      · refine List.isChain_append.2 ⟨h1.next, List.isChain_singleton _, ?_⟩
        intro i hi j hj
        have ej : j = n := by simpa using hj.symm
        subst ej
        rcases h3 with ⟨-, rfl, -⟩ | ⟨i', hi', hin, htm⟩
        · simp at hi
        · have ei : i = i' := by have := hi.symm.trans hi'; simpa using this
          subst ei
          have hlt : t i < t j := hmono hin
          refine ⟨hin, ?_, fun k hk1 hk2 => h1.last i hi k hk1 hk2⟩
          rcases hd with hd | hd
          · rwa [htm] at hd
          · rw [htm] at hd; linarith
      · intro i hi k hk1 hk2
        have : i = n := by simpa using hi.symm
        omega
      · simp only [snapSeq, if_pos hd, h2, List.map_append, List.map_cons, List.map_nil]
      · simp only [snapSeq, if_pos hd, ht]; ring
    · rcases h3 with ⟨-, -, h0⟩ | ⟨i, hi, hin, htm⟩
      · exact absurd (Or.inr h0) hd
      · refine ⟨idx, ⟨fun _ => h1.first (by omega), fun i hi => (h1.lt i hi).trans (Nat.lt_succ_self n), h1.next, ?_⟩, ?_, Or.inr ⟨i, hi, by omega, ?_⟩⟩
        · intro i' hi' k hk1 hk2
          have ei : i' = i := by have := hi'.symm.trans hi; simpa using this
          subst ei
          rcases Nat.lt_succ_iff_lt_or_eq.1 hk2 with h | rfl
          · exact h1.last i' hi k hk1 h
          · intro hh; exact hd (Or.inl (by rw [htm]; exact hh))
        · simp only [snapSeq, if_neg hd, h2]
        · simp only [snapSeq, if_neg hd, htm, ht]; ring

/-- the states of a driver with a timer -/
theorem snapBody_states {S E : Type} {shot : S → V} {dtOf : ℕ → S → Except E ℝ} {core : ℕ → S → S × Option E} {it : ℕ → S} (hb : ∀ i, core i (it i) = (it (i + 1), none))
    (hdt : ∀ i, dtOf i (it i) = .ok (dt i)) (strict : Bool) (limit : ℝ) (i : ℕ) :
    snapBody strict limit shot dtOf core i (it i, snapSeq strict limit (fun i => shot (it i)) dt i) = ((it (i + 1), snapSeq strict limit (fun i => shot (it i)) dt (i + 1)), none) := by
  simp only [snapBody, hdt, hb]
  rfl

/-- A driver whose simulator passes through the states `it` takes the snapshots a user expects, and its timer changes nothing in the simulator. -/
theorem While.snapshots {S E : Type} {time : S → ℝ} {shot : S → V} {dtOf : ℕ → S → Except E ℝ} {core : ℕ → S → S × Option E} {it : ℕ → S} {N : ℕ} {tEnd : ℝ}
    (hw : While (fun s => time s < tEnd) core 0 (it 0) N (it N, none)) (hb : ∀ i, core i (it i) = (it (i + 1), none))
    (hdt : ∀ i, dtOf i (it i) = .ok (time (it (i + 1)) - time (it i))) (hpos : ∀ i, time (it i) < time (it (i + 1))) (strict : Bool) (limit : ℝ) :
    ∃ timer idx, While (fun s : S × ℝ × List V => time s.1 < tEnd) (snapBody strict limit shot dtOf core) 0 (it 0, 0, []) N ((it N, timer, idx.map fun i => shot (it i)), none) ∧
      Snapshots strict limit (fun i => time (it i)) N idx := by
  set t := fun i => time (it i) with htdef
  set v := fun i => shot (it i) with hvdef
  set dt := fun i => t (i + 1) - t i with hdtdef
  have h1 : ∀ n, 0 < dt n := fun n => sub_pos.2 (hpos n)
  obtain ⟨idx, a1, a2, -⟩ := snapSeq_spec (strict := strict) (limit := limit) (t := t) (v := v) (dt := dt) h1 (fun n => by simp [hdtdef]) N
  refine ⟨(snapSeq strict limit v dt N).1, idx, ?_, a1⟩
  obtain ⟨-, w2, w3, -⟩ := hw.states (it := it) rfl hb
  have key := While.of_states (cond := fun s : S × ℝ × List V => time s.1 < tEnd) (body := snapBody strict limit shot dtOf core)
    (it := fun i => (it i, snapSeq strict limit v dt i)) (Nat.zero_le N) (fun i h h' => w2 i h h') (fun i _ _ => ?_) w3
  · have e : ((it N, (snapSeq strict limit v dt N).1, idx.map v) : S × ℝ × List V) = (it N, snapSeq strict limit v dt N) := by rw [← a2]
    rw [e]
    exact key
  · simp only [snapBody, hdt, hb]
    rfl

/-! ## What a user can rely on -/

variable {N : ℕ} {idx : List ℕ}

theorem Snapshots.start (h : Snapshots strict limit t N idx) (hN : N ≠ 0) : (idx.map t).head? = some (t 0) := by
  rw [List.head?_map, h.first hN]; rfl

/-- two snapshots in a row are at least `limit` apart, and less than `limit` and a time step -/
theorem Snapshots.gaps (h : Snapshots strict limit t N idx) {dmax : ℝ} (hstep : ∀ n, t (n + 1) ≤ t n + dmax) (hlim : 0 < limit) :
    (idx.map t).IsChain fun s s' => limit ≤ s' - s ∧ s' - s ≤ limit + dmax := by
  rw [List.isChain_map]
  refine h.next.imp ?_
  rintro i j ⟨hij, hd, hn⟩
  have h1 : limit ≤ t j - t i := by
    unfold Due at hd; split at hd
    · exact hd.le
    · exact hd
  refine ⟨h1, ?_⟩
  obtain ⟨m, rfl⟩ : ∃ m, j = m + 1 := ⟨j - 1, by omega⟩
  have h2 := hstep m
  by_cases e : m = i
  · subst e; linarith
  · have h3 := hn m (by omega) (by omega)
    have h4 : t m - t i ≤ limit := by
      unfold Due at h3; split at h3
      · exact not_lt.1 h3
      · exact (not_le.1 h3).le
    linarith

/-- no time without a recent snapshot: every iteration starts at most `limit` after one -/
theorem Snapshots.recent (h : Snapshots strict limit t N idx) (hlim : 0 < limit) {k : ℕ} (hk : k < N) : ∃ i ∈ idx, i ≤ k ∧ t k - t i ≤ limit := by
  have hne : idx ≠ [] := by
    intro e
    have := h.first (by omega)
    rw [e] at this; simp at this
  have key : ∀ (l : List ℕ) (a : ℕ), a ≤ k → (a :: l).IsChain (fun i j => i < j ∧ Due strict limit (t j - t i) ∧ ∀ k, i < k → k < j → ¬Due strict limit (t k - t i)) →
      (∀ i, (a :: l).getLast? = some i → ∀ k, i < k → k < N → ¬Due strict limit (t k - t i)) → ∃ i ∈ a :: l, i ≤ k ∧ t k - t i ≤ limit := by
    intro l
    have hle : ∀ i, i ≤ k → (i < k → ¬Due strict limit (t k - t i)) → t k - t i ≤ limit := by
      intro i hi hh
      rcases Nat.lt_or_eq_of_le hi with hi | rfl
      · have := hh hi
        unfold Due at this; split at this
        · exact not_lt.1 this
        · exact (not_le.1 this).le
      · rw [sub_self]; exact hlim.le
    induction l with
    | nil =>
      intro a ha _ hl
      exact ⟨a, by simp, ha, hle a ha fun hak => hl a rfl k hak hk⟩
    | cons b l ih =>
      intro a ha hc hl
      obtain ⟨⟨hab, -, hn⟩, hc'⟩ := List.isChain_cons_cons.1 hc
      by_cases hb : b ≤ k
      · obtain ⟨i, hi, h1, h2⟩ := ih b hb hc' (fun i hi => hl i (by rw [List.getLast?_cons_cons]; exact hi))
        exact ⟨i, List.mem_cons_of_mem _ hi, h1, h2⟩
      · exact ⟨a, by simp, ha, hle a ha fun hak => hn k hak (by omega)⟩
  cases idx with
  | nil => exact absurd rfl hne
  | cons a l =>
    have ha : a = 0 := by have := h.first (by omega); simpa using this
    exact key l a (by omega) h.next h.last

/-- number of snapshots -/
theorem Snapshots.count (h : Snapshots strict limit t N idx) (hlim : 0 < limit) {tEnd : ℝ} (hT : ∀ k < N, t k < tEnd) (hN : N ≠ 0) :
    idx.length ≤ ⌈(tEnd - t 0) / limit⌉₊ := by
  have key : ∀ (l : List ℕ) (a : ℕ), (a :: l).IsChain (fun i j => i < j ∧ Due strict limit (t j - t i) ∧ ∀ k, i < k → k < j → ¬Due strict limit (t k - t i)) →
      (∀ i ∈ a :: l, t i < tEnd) → ((a :: l).length - 1 : ℝ) * limit < tEnd - t a := by
    intro l
    induction l with
    | nil => intro a _ h; have := h a (by simp); simp; linarith
    | cons b l ih =>
      intro a hc hl
      obtain ⟨⟨hab, hd, -⟩, hc'⟩ := List.isChain_cons_cons.1 hc
      have := ih b hc' fun i hi => hl i (List.mem_cons_of_mem _ hi)
      have h1 : limit ≤ t b - t a := by
        unfold Due at hd; split at hd
        · exact hd.le
        · exact hd
      simp only [List.length_cons, Nat.cast_add, Nat.cast_one] at this ⊢
      nlinarith
  cases idx with
  | nil => simp
  | cons a l =>
    have ha : a = 0 := by have := h.first hN; simpa using this
    have := key l a h.next fun i hi => hT i (h.lt i hi)
    rw [ha] at this
    have h2 : ((a :: l).length - 1 : ℝ) < (tEnd - t 0) / limit := by rw [lt_div_iff₀ hlim, ha]; exact this
    have h3 : (((a :: l).length - 1 : ℕ) : ℝ) < (tEnd - t 0) / limit := by
      rw [Nat.cast_sub (by simp)]; simpa using h2
    have := Nat.lt_ceil.2 h3
    simp only [List.length_cons] at this ⊢
    omega

end

/-! ## The drivers -/

section
variable {T : Cart2} [NeZero T.gy] [NeZero T.gx]

/-- the time step an iteration of the loop asks for is the one its clock moves by, and it is positive -/
theorem loop2_dt {a : SimArgs2} (h : Fit2 a T) {xr : ℝ} (hxr : 0 < xr) {nu : ℝ} (hnu : 0 ≤ nu) {cfl : ℝ} (hcfl : 0 < cfl) {tol : ℝ} (htol : 0 < tol)
    {K : Kern2} (hK : K.Local) (hK0 : ∀ r, K.upd r (fun _ _ => 0) = 0) (time : ℝ) (dbl0 : World C2 C2 ℝ) (conv0 : Dbl2 T → ℂ)
    (om : ℝ → ℝ → ℝ) (u : Fin 2 → ℝ → ℝ → ℝ) {x : ℕ → StepIn2} {y : ℕ → StepSpec2} (hxy : ∀ i, Means2 a.gy a.gx T (simCfg2 a T xr nu cfl) (x i) (y i))
    {pre : ℝ} (hpre : 0 < pre) (hrule : ∀ i, (x i).rule = .stable pre) (n : ℕ) :
    let st := loopState2 (simCfg2 a T xr nu cfl) K tol x (initFrom2 T a.g xr time dbl0 conv0 om u)
    (pickDt2 (simCfg2 a T xr nu cfl) tol (st n) (x n).rule).2 = .ok ((st (n + 1)).time - (st n).time) ∧ (st n).time < (st (n + 1)).time ∧
      (st (n + 1)).time ≤ (st n).time + cfl * (xr / a.gx) / tol * pre := by
  intro st
  obtain ⟨hT, hft⟩ := simCheck2_cart' h.built
  obtain ⟨e1, e2, -⟩ := construct2_ok hT
  have hgy0 : 0 < a.gy := by rw [← e1]; exact Nat.pos_of_ne_zero (NeZero.ne _)
  have hgx0 : 0 < a.gx := by rw [← e2]; exact Nat.pos_of_ne_zero (NeZero.ne _)
  have hdx : 0 < xr / a.gx := div_pos hxr (by exact_mod_cast hgx0)
  have hinit := initFrom2_holds hT (simCfg2 a T xr nu cfl) time dbl0 conv0 om u
  have hg : a.g = 2 := h.g
  obtain ⟨-, r2, -⟩ := simLoop2_holds hT (h.good hxr nu cfl) (h.dbl xr nu cfl) hft hcfl.le htol hK hK0 (prefix_means2 hxy n) hinit
  obtain ⟨d1, -, -⟩ := pickDt2_holds hT (h.good hxr nu cfl) hcfl.le htol r2 (x n).rule
  have k2 := (loop2_states h hxr nu hcfl.le htol hK hK0 time dbl0 conv0 om u hxy n).2
  have k3 : (st (n + 1)).time - (st n).time = _ := sub_eq_of_eq_add' k2
  rw [← (hxy n).rule] at k3
  set F := (refRun2 a.flowType ⟨a.gy, a.gx, xr, nu, widthOf a.width, a.freeStream⟩ K cfl tol ((List.range n).map y) (fieldsFrom2 (xr / a.gx) om u, time)).1
  have hM := maxVel2_greatest hgy0 hgx0 F.u
  obtain ⟨⟨G, hG, hGe⟩, -⟩ := hM
  have h0 : 0 ≤ maxVel2 a.gy a.gx F.u := by rw [hGe]; positivity
  have ed : refDt2 ⟨a.gy, a.gx, xr, nu, widthOf a.width, a.freeStream⟩ cfl tol F (x n).rule = leastDt 4 cfl tol (xr / a.gx) nu pre (maxVel2 a.gy a.gx F.u) := by
    rw [hrule n]; rfl
  have hp := leastDt_pos (d := 4) (by norm_num) hcfl htol hdx hnu hpre h0
  have hl := leastDt_le (d := 4) (nu := nu) hcfl htol hdx hpre h0
  refine ⟨?_, ?_, ?_⟩
  · rw [k3]
    simp only [st, loopState2, hg]
    exact d1
  · rw [← ed, ← k3] at hp; linarith
  · rw [← ed, ← k3] at hl; linarith

/-- C97: a driver that ends takes its snapshots (plots, data files, log entries) when it should, whatever the time steps: `idx` are the iterations with snapshot. -/
theorem timeLoop2_snapshots {a : SimArgs2} (h : Fit2 a T) {xr : ℝ} (hxr : 0 < xr) {nu : ℝ} (hnu : 0 ≤ nu) {cfl : ℝ} (hcfl : 0 < cfl) {tol : ℝ} (htol : 0 < tol)
    {K : Kern2} (hK : K.Local) (hK0 : ∀ r, K.upd r (fun _ _ => 0) = 0) (time : ℝ) (dbl0 : World C2 C2 ℝ) (conv0 : Dbl2 T → ℂ)
    (om : ℝ → ℝ → ℝ) (u : Fin 2 → ℝ → ℝ → ℝ) {x : ℕ → StepIn2} {y : ℕ → StepSpec2} (hxy : ∀ i, Means2 a.gy a.gx T (simCfg2 a T xr nu cfl) (x i) (y i))
    {pre : ℝ} (hpre : 0 < pre) (hrule : ∀ i, (x i).rule = .stable pre) (strict : Bool) {limit : ℝ} (hlim : 0 < limit) (tEnd : ℝ) {N : ℕ} {S : Sim2 T}
    (hw : While (fun S : Sim2 T => S.time < tEnd) (loopBody2 (simCfg2 a T xr nu cfl) K tol x) 0 (initFrom2 T a.g xr time dbl0 conv0 om u) N (S, none)) :
    let C := simCfg2 a T xr nu cfl
    let S0 := initFrom2 T a.g xr time dbl0 conv0 om u
    let t := fun i => (loopState2 C K tol x S0 i).time
    ∃ timer idx, While (fun s : Sim2 T × ℝ × List ℝ => s.1.time < tEnd)
        (snapBody strict limit Sim2.time (fun i S => (pickDt2 C tol S (x i).rule).2) (loopBody2 C K tol x)) 0 (S0, 0, []) N ((S, timer, idx.map t), none) ∧
      Snapshots strict limit t N idx ∧
      (time < tEnd → (idx.map t).head? = some time) ∧
      ((idx.map t).IsChain fun s s' => limit ≤ s' - s ∧ s' - s ≤ limit + cfl * (xr / a.gx) / tol * pre) ∧
      (∀ s ∈ idx.map t, time ≤ s ∧ s < tEnd) ∧ idx.length ≤ ⌈(tEnd - time) / limit⌉₊ ∧
      ∀ k < N, ∃ s ∈ idx.map t, s ≤ t k ∧ t k ≤ s + limit := by
  intro C S0 t
  have key := fun n => loop2_dt h hxr hnu hcfl htol hK hK0 time dbl0 conv0 om u hxy hpre hrule n
  have keyb := fun n => (loop2_states h hxr nu hcfl.le htol hK hK0 time dbl0 conv0 om u hxy n).1
  set it := loopState2 C K tol x S0 with hit
  obtain ⟨-, w2, w3, w4⟩ := hw.states (it := it) rfl keyb
  have hS : S = it N := (Prod.mk.inj w4).1
  rw [hS] at hw ⊢
  obtain ⟨timer, idx, s1, s2⟩ := While.snapshots (time := Sim2.time) (shot := Sim2.time) (dtOf := fun i S => (pickDt2 C tol S (x i).rule).2) (it := it) hw keyb (fun i => (key i).1) (fun i => (key i).2.1)
    strict limit
  have hmono : StrictMono t := strictMono_nat_of_lt_succ fun n => (key n).2.1
  have hN0 : time < tEnd → N ≠ 0 := by
    rintro hlt rfl
    exact w3 hlt
  refine ⟨timer, idx, s1, s2, fun hlt => s2.start (hN0 hlt), s2.gaps (fun n => (key n).2.2) hlim, ?_, ?_, fun k hk => ?_⟩
  · intro s hs
    obtain ⟨i, hi, rfl⟩ := List.mem_map.1 hs
    exact ⟨hmono.monotone (Nat.zero_le i), w2 i (Nat.zero_le i) (s2.lt i hi)⟩
  · by_cases hN : N = 0
    · have : idx = [] := List.eq_nil_iff_forall_not_mem.2 fun i hi => by have := s2.lt i hi; omega
      rw [this]; simp
    · exact s2.count hlim (fun k hk => w2 k (Nat.zero_le k) hk) hN
  · obtain ⟨i, hi, h1, h2⟩ := s2.recent hlim hk
    exact ⟨t i, List.mem_map_of_mem hi, hmono.monotone h1, by linarith⟩

end

section
variable {T : Cart3} [NeZero T.gz] [NeZero T.gy] [NeZero T.gx]

/-- the time step an iteration of the loop asks for is the one its clock moves by, and it is positive -/
theorem loop3_dt {a : SimArgs3} (h : Fit3 a T) {xr : ℝ} (hxr : 0 < xr) {nu : ℝ} (hnu : 0 ≤ nu) {cfl : ℝ} (hcfl : 0 < cfl) {tol : ℝ} (htol : 0 < tol)
    {K : Kern3} (hK : K.Local) (hK0 : ∀ r, K.upd r (fun _ _ => 0) = 0) (time : ℝ) (dbl0 : World C3 C3 ℝ) (conv0 : Dbl3 T → ℂ)
    (sc : ℝ → ℝ → ℝ → ℝ) (om u : Fin 3 → ℝ → ℝ → ℝ → ℝ) {x : ℕ → StepIn3} {y : ℕ → StepSpec3} (hxy : ∀ i, Means3 a.gz a.gy a.gx T (simCfg3 a xr nu cfl) (x i) (y i))
    {pre : ℝ} (hpre : 0 < pre) (hrule : ∀ i, (x i).rule = .stable pre) (n : ℕ) :
    let st := loopState3 (simCfg3 a xr nu cfl) K tol x (initFrom3 T a.g xr time dbl0 conv0 sc om u)
    (pickDt3 (simCfg3 a xr nu cfl) tol (st n) (x n).rule).2 = .ok ((st (n + 1)).time - (st n).time) ∧ (st n).time < (st (n + 1)).time ∧
      (st (n + 1)).time ≤ (st n).time + cfl * (xr / a.gx) / tol * pre := by
  intro st
  obtain ⟨hT, hft⟩ := simCheck3_cart h.built
  obtain ⟨e0, e1, e2, -⟩ := construct3_ok hT
  have hgz0 : 0 < a.gz := by rw [← e0]; exact Nat.pos_of_ne_zero (NeZero.ne _)
  have hgy0 : 0 < a.gy := by rw [← e1]; exact Nat.pos_of_ne_zero (NeZero.ne _)
  have hgx0 : 0 < a.gx := by rw [← e2]; exact Nat.pos_of_ne_zero (NeZero.ne _)
  have hnt : 0 < nu + tol := by linarith
  have hdx : 0 < xr / a.gx := div_pos hxr (by exact_mod_cast hgx0)
  have hinit := initFrom3_holds hT (simCfg3 a xr nu cfl) time dbl0 conv0 sc om u
  have hg : 1 ≤ (simCfg3 a xr nu cfl).g := by
    cases hp : isNS a.flowType with
    | true => exact (h.good xr nu cfl hp).g
    | false =>
      have e : a.g = 2 := (h.passive hp).1
      change 1 ≤ a.g
      omega
  obtain ⟨-, r2, -⟩ := simLoop3_holds hT (fun hn => h.good xr nu cfl hn)
    (fun hn => ⟨(h.passive hn).1, (h.passive hn).2.1, (h.passive hn).2.2.1, (h.passive hn).2.2.2⟩) hxr hft hcfl.le hnu htol hK hK0 (prefix_means3 hxy n) hinit
  obtain ⟨d1, -, -⟩ := pickDt3_holds hT hg hcfl.le hxr hnu htol r2 (x n).rule
  have k2 := (loop3_states h hxr hnu hcfl.le htol hK hK0 time dbl0 conv0 sc om u hxy n).2
  have k3 : (st (n + 1)).time - (st n).time = _ := sub_eq_of_eq_add' k2
  rw [← (hxy n).rule] at k3
  set F := (refRun3 a.flowType (argP3 a xr nu) K cfl tol ((List.range n).map y) (fieldsFrom3 (xr / a.gx) sc om u, time)).1
  have hM := maxVel3_greatest hgz0 hgy0 hgx0 F.u
  obtain ⟨⟨G, hG, hGe⟩, -⟩ := hM
  have h0 : 0 ≤ maxVel3 a.gz a.gy a.gx F.u := by rw [hGe]; positivity
  have ed : refDt3 (argP3 a xr nu) cfl tol F (x n).rule = leastDt 6 cfl tol (xr / a.gx) (nu + tol) pre (maxVel3 a.gz a.gy a.gx F.u) := by
    rw [hrule n]
    unfold leastDt
    rw [if_neg hnt.ne']
    rfl
  have hp := leastDt_pos (d := 6) (by norm_num) hcfl htol hdx hnt.le hpre h0
  have hl := leastDt_le (d := 6) (nu := nu + tol) hcfl htol hdx hpre h0
  refine ⟨?_, ?_, ?_⟩
  · rw [k3]
    exact d1
  · rw [← ed, ← k3] at hp; linarith
  · rw [← ed, ← k3] at hl; linarith

/-- C97: a driver that ends takes its snapshots (plots, data files, log entries) when it should, whatever the time steps: `idx` are the iterations with snapshot. -/
theorem timeLoop3_snapshots {a : SimArgs3} (h : Fit3 a T) {xr : ℝ} (hxr : 0 < xr) {nu : ℝ} (hnu : 0 ≤ nu) {cfl : ℝ} (hcfl : 0 < cfl) {tol : ℝ} (htol : 0 < tol)
    {K : Kern3} (hK : K.Local) (hK0 : ∀ r, K.upd r (fun _ _ => 0) = 0) (time : ℝ) (dbl0 : World C3 C3 ℝ) (conv0 : Dbl3 T → ℂ)
    (sc : ℝ → ℝ → ℝ → ℝ) (om u : Fin 3 → ℝ → ℝ → ℝ → ℝ) {x : ℕ → StepIn3} {y : ℕ → StepSpec3} (hxy : ∀ i, Means3 a.gz a.gy a.gx T (simCfg3 a xr nu cfl) (x i) (y i))
    {pre : ℝ} (hpre : 0 < pre) (hrule : ∀ i, (x i).rule = .stable pre) (strict : Bool) {limit : ℝ} (hlim : 0 < limit) (tEnd : ℝ) {N : ℕ} {S : Sim3 T}
    (hw : While (fun S : Sim3 T => S.time < tEnd) (loopBody3 (simCfg3 a xr nu cfl) K tol x) 0 (initFrom3 T a.g xr time dbl0 conv0 sc om u) N (S, none)) :
    let C := simCfg3 a xr nu cfl
    let S0 := initFrom3 T a.g xr time dbl0 conv0 sc om u
    let t := fun i => (loopState3 C K tol x S0 i).time
    ∃ timer idx, While (fun s : Sim3 T × ℝ × List ℝ => s.1.time < tEnd)
        (snapBody strict limit Sim3.time (fun i S => (pickDt3 C tol S (x i).rule).2) (loopBody3 C K tol x)) 0 (S0, 0, []) N ((S, timer, idx.map t), none) ∧
      Snapshots strict limit t N idx ∧
      (time < tEnd → (idx.map t).head? = some time) ∧
      ((idx.map t).IsChain fun s s' => limit ≤ s' - s ∧ s' - s ≤ limit + cfl * (xr / a.gx) / tol * pre) ∧
      (∀ s ∈ idx.map t, time ≤ s ∧ s < tEnd) ∧ idx.length ≤ ⌈(tEnd - time) / limit⌉₊ ∧
      ∀ k < N, ∃ s ∈ idx.map t, s ≤ t k ∧ t k ≤ s + limit := by
  intro C S0 t
  have key := fun n => loop3_dt h hxr hnu hcfl htol hK hK0 time dbl0 conv0 sc om u hxy hpre hrule n
  have keyb := fun n => (loop3_states h hxr hnu hcfl.le htol hK hK0 time dbl0 conv0 sc om u hxy n).1
  set it := loopState3 C K tol x S0 with hit
  obtain ⟨-, w2, w3, w4⟩ := hw.states (it := it) rfl keyb
  have hS : S = it N := (Prod.mk.inj w4).1
  rw [hS] at hw ⊢
  obtain ⟨timer, idx, s1, s2⟩ := While.snapshots (time := Sim3.time) (shot := Sim3.time) (dtOf := fun i S => (pickDt3 C tol S (x i).rule).2) (it := it) hw keyb (fun i => (key i).1) (fun i => (key i).2.1)
    strict limit
  have hmono : StrictMono t := strictMono_nat_of_lt_succ fun n => (key n).2.1
  have hN0 : time < tEnd → N ≠ 0 := by
    rintro hlt rfl
    exact w3 hlt
  refine ⟨timer, idx, s1, s2, fun hlt => s2.start (hN0 hlt), s2.gaps (fun n => (key n).2.2) hlim, ?_, ?_, fun k hk => ?_⟩
  · intro s hs
    obtain ⟨i, hi, rfl⟩ := List.mem_map.1 hs
    exact ⟨hmono.monotone (Nat.zero_le i), w2 i (Nat.zero_le i) (s2.lt i hi)⟩
  · by_cases hN : N = 0
    · have : idx = [] := List.eq_nil_iff_forall_not_mem.2 fun i hi => by have := s2.lt i hi; omega
      rw [this]; simp
    · exact s2.count hlim (fun k hk => w2 k (Nat.zero_le k) hk) hN
  · obtain ⟨i, hi, h1, h2⟩ := s2.recent hlim hk
    exact ⟨t i, List.mem_map_of_mem hi, hmono.monotone h1, by linarith⟩

end

/-! ## Examples -/

/-- unit steps, `limit = 2.5`, six iterations: snapshots in the iterations 0 and 3 -/
example : Snapshots false 2.5 (fun i => (i : ℝ)) 6 [0, 3] := by
  refine ⟨by simp, by simp, ?_, ?_⟩
  · refine List.isChain_pair.2 ⟨by norm_num, by norm_num [Due], fun k h1 h2 => ?_⟩
    have : k ≤ 2 := by omega
    have : (k : ℝ) ≤ 2 := by exact_mod_cast this
    simp only [Due, Bool.false_eq_true, if_false, not_le, Nat.cast_zero, sub_zero]
    linarith
  · intro i hi k h1 h2
    have hi3 : i = 3 := by simpa using hi.symm
    subst hi3
    have : k ≤ 5 := by omega
    have : (k : ℝ) ≤ 5 := by exact_mod_cast this
    simp only [Due, Bool.false_eq_true, if_false, not_le]
    push_cast
    linarith

end Sopht
