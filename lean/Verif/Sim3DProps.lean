import Verif.Sim3D
import Verif.Sim2DProps
import Verif.FilterProps
import Verif.Poisson3DProps

/-! # Properties of the 3D flow simulator: set-up, time, diagnostics (C51–C55, C57, C58) -/

namespace Sopht

set_option linter.unusedSimpArgs false

/-! ## C55: coordinates -/

/-- C55 (3D): in every cell of every rank, ghost cells included, `position_field` holds the coordinates of the centre of that cell of the global
grid: x (component 0), y (1), z (2) of cell `(I, J, K)` are `(K + 1/2) dx`, `(J + 1/2) dx`, `(I + 1/2) dx`. -/
theorem position3_cells (T : Cart3) (g : ℕ) (xr : ℝ) (c : C3) {p : C3} (hp : InArr3 T g p) :
    position3 T g xr c 0 p = ((globalIx3 T g c p).2.2 + 1 / 2) * (xr / T.gx) ∧
    position3 T g xr c 1 p = ((globalIx3 T g c p).2.1 + 1 / 2) * (xr / T.gx) ∧
    position3 T g xr c 2 p = ((globalIx3 T g c p).1 + 1 / 2) * (xr / T.gx) := by
  obtain ⟨p1, p2, p3, p4, p5, p6⟩ := hp
  have h0 : position3 T g xr c 0 p = localCoords (simDx3 T xr) g T.nx c.2.2 p.2.2 := rfl
  have h1 : position3 T g xr c 1 p = localCoords (simDx3 T xr) g T.ny c.2.1 p.2.1 := rfl
  have h2 : position3 T g xr c 2 p = localCoords (simDx3 T xr) g T.nz c.1 p.1 := rfl
  rw [h0, h1, h2, localCoords_eq _ _ _ p5 p6, localCoords_eq _ _ _ p3 p4, localCoords_eq _ _ _ p1 p2]
  unfold globalIx3 simDx3
  simp only
  refine ⟨?_, ?_, ?_⟩ <;> ring

/-- C55: two ranks that both hold a cell agree on its coordinates, whatever their decompositions. -/
theorem position3_shared {gz gy gx pz py px pz' py' px' : ℕ} {per per' : Bool} {T T' : Cart3} (hT : mkCart3 gz gy gx pz py px per = .ok T)
    (hT' : mkCart3 gz gy gx pz' py' px' per' = .ok T') (g g' : ℕ) (xr : ℝ) (c c' : C3) {p p' : C3} (hp : InArr3 T g p) (hp' : InArr3 T' g' p')
    (h : globalIx3 T g c p = globalIx3 T' g' c' p') (a : Fin 3) : position3 T g xr c a p = position3 T' g' xr c' a p' := by
  obtain ⟨-, -, e2, -⟩ := construct3_ok hT
  obtain ⟨-, -, e2', -⟩ := construct3_ok hT'
  have k := position3_cells T g xr c hp
  have k' := position3_cells T' g' xr c' hp'
  rw [h, e2, ← e2'] at k
  match a with
  | 0 => rw [k.1, k'.1]
  | 1 => rw [k.2.1, k'.2.1]
  | 2 => rw [k.2.2, k'.2.2]

/-- non-vacuity: a ghost cell of rank (0, 0, 0) and an inner cell of rank (1, 0, 0) are the same cell -/
example : InArr3 ⟨8, 4, 4, 2, 1, 1, 4, 4, 4, false⟩ ((2 : ℕ) : ℤ) (7, 3, 3) ∧ InArr3 ⟨8, 4, 4, 2, 1, 1, 4, 4, 4, false⟩ ((2 : ℕ) : ℤ) (3, 3, 3) ∧
    globalIx3 ⟨8, 4, 4, 2, 1, 1, 4, 4, 4, false⟩ ((2 : ℕ) : ℤ) (0, 0, 0) (7, 3, 3) =
      globalIx3 ⟨8, 4, 4, 2, 1, 1, 4, 4, 4, false⟩ ((2 : ℕ) : ℤ) (1, 0, 0) (3, 3, 3) := by
  refine ⟨by simp [InArr3], by simp [InArr3], by decide⟩

/-- the form the penalisation theorems use -/
theorem position3_gridX (T : Cart3) (g : ℕ) (xr : ℝ) (c : C3) :
    GridX3 T g (simDx3 T xr) (simDx3 T xr / 2) (simDx3 T xr / 2) (simDx3 T xr / 2) c (position3 T g xr c 0) (position3 T g xr c 1)
      (position3 T g xr c 2) := by
  intro p hp
  obtain ⟨h0, h1, h2⟩ := position3_cells T g xr c hp
  rw [h0, h1, h2]
  unfold simDx3
  refine ⟨?_, ?_, ?_⟩ <;> ring

/-! ## C57: construction -/

/-- What the constructor of a Navier-Stokes simulator asks of its filter. -/
def FilterOk (f : Option (PyNum × String)) : Prop :=
  ∀ order ty, f = some (order, ty) → (∃ n : ℕ, order = .int n) ∧ (ty = "multiplicative" ∨ ty = "convolution")

/-- C57 (3D): construction succeeds exactly if the flow type is one of the four supported ones, the rank distribution divides the grid, and
passive transport: ghost size at least 2; Navier-Stokes: ghost size at least 1, some axis not distributed, penalty width a non-negative integer, filter
(if one is asked for) of non-negative integer order and known type. -/
theorem simCheck3_ok_iff (a : SimArgs3) : (∃ T, simCheck3 a = .ok T) ↔
    (a.gz % a.pz = 0 ∧ a.gy % a.py = 0 ∧ a.gx % a.px = 0) ∧
    (((a.flowType = "passive_scalar" ∨ a.flowType = "passive_vector") ∧ 2 ≤ a.g) ∨
     ((a.flowType = "navier_stokes" ∨ a.flowType = "navier_stokes_with_forcing") ∧ 1 ≤ a.g ∧ (a.pz = 1 ∨ a.py = 1 ∨ a.px = 1) ∧
      (∃ n : ℕ, a.width = .int n) ∧ (a.filterVorticity = true → FilterOk (filterInUse a)))) := by
  have hflt : filterCheck3 a.g (filterInUse a) = .ok () ↔
      (a.filterVorticity = true → FilterOk (filterInUse a) ∧ 1 ≤ a.g) := by
    unfold filterInUse
    by_cases hv : a.filterVorticity = true
    · rw [if_pos hv]
      obtain ⟨o, ty⟩ := a.filterSetting.getD (.int 2, "multiplicative")
      unfold filterCheck3
      simp only
      rw [(filterCheck_ok_iff _).1]
      simp only [hv, true_imp_iff, FilterOk, Option.some.injEq, Prod.mk.injEq, String.reduceEq, or_true, and_true]
      constructor
      · rintro ⟨h1, -, h2, h3⟩
        exact ⟨by rintro o' ty' ⟨rfl, rfl⟩; exact ⟨h1, h3⟩, by omega⟩
      · rintro ⟨h1, h2⟩
        obtain ⟨h3, h4⟩ := h1 o ty ⟨rfl, rfl⟩
        exact ⟨h3, ⟨0, rfl⟩, by omega, h4⟩
    · rw [if_neg hv]
      simp [hv, filterCheck3]
  have errNone : ∀ x : Except PyErr Unit, errOf x = none ↔ x = .ok () := by
    intro x; cases x <;> simp [errOf]
  have gen : ∀ (s : String) (k : ℤ), s = "scalar" ∨ s = "vector" → (genFieldKernel3 s a.g k = .ok () ↔ k ≤ a.g) := by
    intro s k hs
    unfold genFieldKernel3
    rw [if_neg (by rcases hs with h | h <;> simp [h])]
    exact (checkSupport_error_iff _ _).2
  unfold simCheck3
  by_cases hf : a.flowType ∉ flowTypes3
  · rw [if_pos hf]
    simp only [flowTypes3, List.mem_cons, List.not_mem_nil, or_false, not_or] at hf
    simp [hf]
  · rw [if_neg hf]
    unfold mkCart3
    by_cases hd : a.gz % a.pz ≠ 0 ∨ a.gy % a.py ≠ 0 ∨ a.gx % a.px ≠ 0
    · rw [if_pos hd]
      simp only [reduceCtorEq, exists_false, false_iff]
      rintro ⟨⟨h1, h2, h3⟩, -⟩
      rcases hd with h | h | h
      · exact h h1
      · exact h h2
      · exact h h3
    · rw [if_neg hd]
      have hd' : a.gz % a.pz = 0 ∧ a.gy % a.py = 0 ∧ a.gx % a.px = 0 := by
        push Not at hd; exact hd
      simp only [hd', and_self, true_and]
      have hgc : ghostCommCheck (.int a.g) = .ok () := by unfold ghostCommCheck; simp [PyNum.isInt]
      rw [hgc]
      simp only
      generalize hTdef : (Cart3.mk a.gz a.gy a.gx a.pz a.py a.px (a.gz / a.pz) (a.gy / a.py) (a.gx / a.px) false) = T
      have e3 : T.pz = a.pz := by rw [← hTdef]
      have e4 : T.py = a.py := by rw [← hTdef]
      have e5 : T.px = a.px := by rw [← hTdef]
      have hdbl : ((doublingInit3 (.int a.g) T).map fun _ => ()) = .ok () ↔ (a.pz = 1 ∨ a.py = 1 ∨ a.px = 1) := by
        by_cases h : T.pz = 1 ∨ T.py = 1 ∨ T.px = 1
        · obtain ⟨dd, hdd, -⟩ := doublingInit3_accepts a.g T h
          rw [hdd, ← e3, ← e4, ← e5]; simp [Except.map, h]
        · rw [(doublingInit3_valueError_iff a.g T).2 (by push Not at h; exact h), ← e3, ← e4, ← e5]
          simp [Except.map, h]
      refine Iff.trans (b := (compileSeq3 a T).findSome? errOf = none) ?_ ?_
      · cases (compileSeq3 a T).findSome? errOf <;> simp
      rw [List.findSome?_eq_none_iff]
      unfold compileSeq3
      simp only [flowTypes3, List.mem_cons, List.not_mem_nil, or_false, not_not] at hf
      rcases hf with h | h | h | h
      all_goals
        rw [h]
        simp only [isNS, String.reduceEq, decide_false, decide_true, Bool.or_self, Bool.or_true, Bool.true_or, Bool.false_eq_true, if_false, if_true, List.nil_append,
          List.append_nil, List.mem_cons, List.not_mem_nil, or_false, false_or, or_true, or_self, forall_eq_or_imp, forall_eq, errNone, true_and, false_and, or_true, true_or,
          gen "scalar" _ (Or.inl rfl), gen "vector" _ (Or.inr rfl), (checkSupport_error_iff _ _).2, hdbl, (penCheck_ok_iff a.width).1, hflt]
      · omega
      · omega
      · constructor
        · rintro ⟨h1, h2, -, h3, -, -, h4⟩
          exact ⟨by omega, h2, h3, fun h => (h4 h).1⟩
        · rintro ⟨h1, h2, h3, h4⟩
          exact ⟨by omega, h2, by omega, h3, by omega, by omega, fun h => ⟨h4 h, h1⟩⟩
      · constructor
        · rintro ⟨h1, h2, -, h3, -, -, h4⟩
          exact ⟨by omega, h2, h3, fun h => (h4 h).1⟩
        · rintro ⟨h1, h2, h3, h4⟩
          exact ⟨by omega, h2, by omega, h3, by omega, by omega, fun h => ⟨h4 h, h1⟩⟩

/-- C57: an unsupported flow type is refused with ValueError, before anything else is looked at; a bad rank distribution for a supported one with
RuntimeError; everything else that is refused with ValueError. -/
theorem simCheck3_error (a : SimArgs3) {e : PyErr} (h : simCheck3 a = .error e) :
    (e = .valueError ∨ e = .runtimeError) ∧
    (e = .runtimeError ↔ a.flowType ∈ flowTypes3 ∧ ¬ (a.gz % a.pz = 0 ∧ a.gy % a.py = 0 ∧ a.gx % a.px = 0)) := by
  have ge : ∀ (s : String) (k : ℤ) (e : PyErr), errOf (genFieldKernel3 s a.g k) = some e → e = .valueError := by
    intro s k e
    unfold genFieldKernel3 checkSupport
    split_ifs <;> simp [errOf] <;> exact fun h => h.symm
  have gc : ∀ (k : ℤ) (e : PyErr), errOf (checkSupport a.g k) = some e → e = .valueError := by
    intro k e
    unfold checkSupport
    split_ifs <;> simp [errOf]; exact fun h => h.symm
  have gp : ∀ (e : PyErr), errOf (penCheck a.width) = some e → e = .valueError := by
    intro e
    unfold penCheck
    split_ifs <;> simp [errOf]; exact fun h => h.symm
  have gf : ∀ (e : PyErr), errOf (filterCheck3 a.g (filterInUse a)) = some e → e = .valueError := by
    intro e
    cases hx : filterInUse a with
    | none => simp [filterCheck3, errOf]
    | some x =>
      unfold filterCheck3
      simp only
      by_cases hc : filterCheck ⟨x.1, .int 1, a.g, x.2, "vector"⟩ = .ok ()
      · rw [hc]; simp [errOf]
      · rw [(filterCheck_ok_iff _).2 hc]; simp [errOf]; exact fun h => h.symm
  unfold simCheck3 at h
  by_cases hf : a.flowType ∉ flowTypes3
  · rw [if_pos hf] at h
    cases h
    simp [hf]
  · rw [if_neg hf] at h
    unfold mkCart3 at h
    by_cases hd : a.gz % a.pz ≠ 0 ∨ a.gy % a.py ≠ 0 ∨ a.gx % a.px ≠ 0
    · rw [if_pos hd] at h
      cases h
      simp only [reduceCtorEq, or_true, true_and, true_iff]
      refine ⟨by simpa using hf, ?_⟩
      rintro ⟨h1, h2, h3⟩
      rcases hd with h | h | h
      · exact h h1
      · exact h h2
      · exact h h3
    · rw [if_neg hd] at h
      push Not at hd
      have hgc : ghostCommCheck (.int a.g) = .ok () := by unfold ghostCommCheck; simp [PyNum.isInt]
      rw [hgc] at h
      simp only at h
      generalize hTdef : (Cart3.mk a.gz a.gy a.gx a.pz a.py a.px (a.gz / a.pz) (a.gy / a.py) (a.gx / a.px) false) = T at h
      have gd : ∀ (e : PyErr), errOf ((doublingInit3 (.int a.g) T).map fun _ => ()) = some e → e = .valueError := by
        intro e
        by_cases h : T.pz = 1 ∨ T.py = 1 ∨ T.px = 1
        · obtain ⟨dd, hdd, -⟩ := doublingInit3_accepts a.g T h
          rw [hdd]; simp [Except.map, errOf]
        · rw [(doublingInit3_valueError_iff a.g T).2 (by push Not at h; exact h)]
          simp [Except.map, errOf]; exact fun h => h.symm
      cases hq : (compileSeq3 a T).findSome? errOf with
      | none => rw [hq] at h; simp at h
      | some e' =>
        rw [hq] at h
        simp only [Except.error.injEq] at h
        subst h
        obtain ⟨x, hx, hxe⟩ := List.exists_of_findSome?_eq_some hq
        have : e' = .valueError := by
          unfold compileSeq3 at hx
          simp only [List.mem_append] at hx
          rcases hx with (hx | hx) | hx
          · split_ifs at hx
            · simp only [List.mem_cons, List.not_mem_nil, or_false] at hx
              rcases hx with rfl | rfl <;> exact ge _ _ _ hxe
            · simp at hx
          · split_ifs at hx
            · simp only [List.mem_cons, List.not_mem_nil, or_false] at hx
              rcases hx with rfl | rfl <;> exact ge _ _ _ hxe
            · simp at hx
          · split_ifs at hx
            · simp only [List.mem_cons, List.not_mem_nil, or_false] at hx
              rcases hx with rfl | rfl | rfl | rfl | rfl | rfl | rfl
              · exact ge _ _ _ hxe
              · exact gd _ hxe
              · exact gc _ _ hxe
              · exact gp _ hxe
              · exact gc _ _ hxe
              · exact gc _ _ hxe
              · exact gf _ hxe
            · simp at hx
        rw [this]
        simp [hd]

theorem simCheck3_cart {a : SimArgs3} {T : Cart3} (h : simCheck3 a = .ok T) :
    mkCart3 a.gz a.gy a.gx a.pz a.py a.px false = .ok T ∧ a.flowType ∈ flowTypes3 := by
  unfold simCheck3 at h
  split at h
  · cases h
  · rename_i hf
    split at h
    · cases h
    · rename_i T' hT'
      split at h
      · cases h
      · split at h
        · cases h
        · cases h; exact ⟨hT', by simpa using hf⟩

/-- non-vacuity: a pencil decomposition with filter is accepted; a 2 × 2 × 2 distribution, ghost size 1 for advection and a filter of order 1.5 are not -/
example : (∃ T, simCheck3 ⟨8, 8, 8, 2, 1, 2, "navier_stokes", true, none, false, 1, .int 2⟩ = .ok T) ∧
    simCheck3 ⟨8, 8, 8, 2, 2, 2, "navier_stokes", false, none, false, 2, .int 2⟩ = .error .valueError ∧
    simCheck3 ⟨8, 8, 8, 2, 2, 2, "passive_vector", false, none, false, 1, .int 2⟩ = .error .valueError ∧
    simCheck3 ⟨8, 8, 8, 3, 2, 2, "passive_vector", false, none, false, 2, .int 2⟩ = .error .runtimeError ∧
    simCheck3 ⟨8, 8, 8, 2, 2, 2, "stokes", false, none, false, 2, .int 2⟩ = .error .valueError := by
  refine ⟨(simCheck3_ok_iff _).2 ⟨by decide, Or.inr ⟨Or.inl rfl, by decide, by decide, ⟨2, rfl⟩, fun _ => ?_⟩⟩, by decide, by decide, by decide, by decide⟩
  unfold FilterOk filterInUse
  simp only [if_true, Option.getD_none, Option.some.injEq, Prod.mk.injEq]
  rintro o ty ⟨rfl, rfl⟩
  exact ⟨⟨2, rfl⟩, Or.inl rfl⟩

/-! ## C53: time -/

variable {T : Cart3} [NeZero T.gz] [NeZero T.gy] [NeZero T.gx]

omit [NeZero T.gz] [NeZero T.gy] [NeZero T.gx] in
theorem andThen3_time {r : Out3 T} {f : Sim3 T → Out3 T} {t : ℝ} (h1 : r.1.time = t) (h2 : ∀ S, S.time = t → (f S).1.time = t) :
    (r.andThen f).1.time = t := by
  unfold Out3.andThen
  split
  · exact h1
  · exact h2 _ h1

omit [NeZero T.gz] [NeZero T.gy] [NeZero T.gx] in
theorem callPen3_time (C : Cfg3) (S : Sim3 T) : (callPen3 C S).1.time = S.time := by
  unfold callPen3; dsimp only; split <;> rfl

theorem callSolve3_time (C : Cfg3) (s) (S : Sim3 T) : (callSolve3 C s S).1.time = S.time := by
  unfold callSolve3
  split
  · rfl
  · split <;> rfl

omit [NeZero T.gz] [NeZero T.gy] [NeZero T.gx] in
theorem vorticityStep3_time (C : Cfg3) (K : Kern3) (sch : Scheds3) (dt : ℝ) (S : Sim3 T) : (vorticityStep3 C K sch dt S).time = S.time := by
  unfold vorticityStep3 callFilter3
  dsimp only
  split <;> rfl

theorem nsStep3_time (C : Cfg3) (K : Kern3) (sch : Scheds3) (dt : ℝ) (fs : Fin 3 → ℝ) (S : Sim3 T) : (nsStep3 C K sch dt fs S).1.time = S.time := by
  unfold nsStep3 flowVelocity3
  refine andThen3_time (andThen3_time ((callPen3_time C _).trans (vorticityStep3_time C K sch dt S)) ?_) ?_
  · intro S' h; exact (callSolve3_time C _ _).trans h
  · intro S' h
    rw [← h]
    unfold freeStream3
    split <;> rfl

/-- no flow step changes the time -/
theorem flowStep3_time (C : Cfg3) (K : Kern3) (sch : Scheds3) (dt : ℝ) (fs : Option (Fin 3 → ℝ)) (S : Sim3 T) :
    (flowStep3 C K sch dt fs S).1.time = S.time := by
  unfold flowStep3
  split
  · cases fs with
    | none => rfl
    | some fs =>
      simp only
      split
      · exact nsStep3_time C K sch dt fs S
      · unfold nsForcingStep3
        refine andThen3_time (nsStep3_time C K sch dt fs _) ?_
        intro S' h; exact h
  · split <;> rfl

/-- C53 (3D): a call of `time_step` that returns advances the time by `dt`; one that raises leaves it as it was. -/
theorem timeStep3_time (C : Cfg3) (K : Kern3) (sch : Scheds3) (dt : ℝ) (fs : Option (Fin 3 → ℝ)) (S : Sim3 T) :
    (timeStep3 C K sch dt fs S).1.time = if (timeStep3 C K sch dt fs S).2 = none then S.time + dt else S.time := by
  unfold timeStep3 Out3.andThen
  have := flowStep3_time C K sch dt fs S
  cases h : (flowStep3 C K sch dt fs S).2 with
  | some e => simp [this]
  | none => simp [this]

/-- What a driver does in one iteration: anything that leaves the time alone, then one call of `time_step`. -/
structure Iter3 (T : Cart3) where
  user : Sim3 T → Sim3 T
  sch : Scheds3
  dt : ℝ
  fs : Option (Fin 3 → ℝ)

/-- The history of a driver: final state, and for each call its `dt` and whether it raised. -/
noncomputable def drive3 (C : Cfg3) (K : Kern3) : List (Iter3 T) → Sim3 T → Sim3 T × List (ℝ × Option PyErr)
  | [], S => (S, [])
  | x :: xs, S =>
    let r := timeStep3 C K x.sch x.dt x.fs (x.user S)
    let q := drive3 C K xs r.1
    (q.1, (x.dt, r.2) :: q.2)

/-- C53 (3D): after any history the time is the initial time plus the sum of the `dt`s of the calls that returned. -/
theorem drive3_time (C : Cfg3) (K : Kern3) (xs : List (Iter3 T)) (hu : ∀ x ∈ xs, ∀ S, (x.user S).time = S.time) (S : Sim3 T) :
    (drive3 C K xs S).1.time = S.time + (((drive3 C K xs S).2.filter fun y => y.2 = none).map (·.1)).sum := by
  induction xs generalizing S with
  | nil => simp [drive3]
  | cons x xs ih =>
    unfold drive3
    simp only
    rw [ih (fun y hy => hu y (List.mem_cons_of_mem _ hy)), timeStep3_time, hu x List.mem_cons_self, List.filter_cons]
    by_cases h : (timeStep3 C K x.sch x.dt x.fs (x.user S)).2 = none
    · simp [h, add_assoc]
    · simp [h]

/-- C57: a Navier-Stokes step without `free_stream_velocity` raises TypeError and changes nothing. -/
theorem timeStep3_noFreeStream (C : Cfg3) (hC : isNS C.flowType = true) (K : Kern3) (sch : Scheds3) (dt : ℝ) (S : Sim3 T) :
    timeStep3 C K sch dt none S = (S, some .typeError) := by
  unfold timeStep3 flowStep3 Out3.andThen
  simp [hC]

/-! ## C54: forcing -/

/-- C54 (3D): when a step with forcing has returned, the forcing field is zero in every cell of every rank, ghost cells included. -/
theorem forcing3_consumed (C : Cfg3) (K : Kern3) (sch : Scheds3) (dt : ℝ) (fs : Option (Fin 3 → ℝ)) (S : Sim3 T)
    (hft : C.flowType = "navier_stokes_with_forcing") (h : (timeStep3 C K sch dt fs S).2 = none) (j : Fin 3) (c p : C3) :
    (timeStep3 C K sch dt fs S).1.forcing j c p = 0 := by
  unfold timeStep3 flowStep3 at h ⊢
  rw [hft] at h ⊢
  cases fs with
  | none =>
    unfold Out3.andThen at h
    simp [isNS] at h
  | some fs =>
    simp only [isNS, String.reduceEq, decide_false, decide_true, Bool.or_true, if_false, if_true] at h ⊢
    unfold nsForcingStep3 Out3.andThen at h ⊢
    simp only at h ⊢
    split at h
    · cases h
    · rename_i he
      split at he
      · cases he
      · rename_i hq
        rw [hq] at *

omit [NeZero T.gz] [NeZero T.gy] [NeZero T.gx] in
/-- with zero forcing the vorticity update does nothing -/
theorem zeroForcing3_upd (C : Cfg3) (K : Kern3) (sch : Sched3) (dt : ℝ) (om f : Fin 3 → World C3 C3 ℝ)
    (hK : ∀ a, K.upd a (fun _ _ => 0) = 0) (h0 : ∀ j c p, f j c p = 0) : callUpd3 (T := T) C K sch dt om f = (om, f) := by
  have hw : ∀ s c i, multiExchange3 T C.g C.full [0, 1, 2] (asFam f) s c i = 0 :=
    fun s c i => by unfold multiExchange3; exact runNet_const _ (fun c i => h0 i.1 c i.2) s c i
  have hpass : ∀ (A : Fin 3 → C3 → ℝ) (hA : ∀ i p, A i p = 0) (V : View3) (o : C3 → ℝ × ℝ × ℝ),
      pass3 1 (fun a b => a + b) (K.upd (dt / (2 * simDx3 T C.xr))) A o V = o := by
    intro A hA V o
    funext p
    unfold pass3
    have : (fun (i : Fin 3) (d : C3) => A i (shift3 p d)) = fun _ _ => 0 := by funext i d; exact hA _ _
    rw [this, hK]
    simp
  unfold callUpd3
  refine Prod.ext ?_ ?_
  · have hp : stencilAdd3 T C.g C.full [0, 1, 2] 1 (K.upd (dt / (2 * simDx3 T C.xr))) (asFam f) sch.1 sch.2 (zip3 om) = zip3 om := by
      funext c
      unfold stencilAdd3 stencil3 kernel3 boundaryViews3
      simp only [List.foldl_cons, List.foldl_nil]
      rw [hpass _ (fun i p => hw _ _ _), hpass _ (fun i p => hw _ _ _), hpass _ (fun i p => hw _ _ _), hpass _ (fun i p => hw _ _ _),
        hpass _ (fun i p => hw _ _ _), hpass _ (fun i p => hw _ _ _), hpass _ (fun i p => hw _ _ _)]
    simp only [hp]
    funext j
    match j with
    | 0 => rfl
    | 1 => rfl
    | 2 => rfl
  · funext j c p
    exact (hw _ _ _).trans (h0 j c p).symm

omit [NeZero T.gz] [NeZero T.gy] [NeZero T.gx] in
theorem andThen3_forcing {r : Out3 T} {f : Sim3 T → Out3 T} {t : Fin 3 → World C3 C3 ℝ} (h1 : r.1.forcing = t)
    (h2 : ∀ S, S.forcing = t → (f S).1.forcing = t) : (r.andThen f).1.forcing = t := by
  unfold Out3.andThen
  split
  · exact h1
  · exact h2 _ h1

/-- a Navier-Stokes step does not change the forcing field -/
theorem nsStep3_forcing (C : Cfg3) (K : Kern3) (sch : Scheds3) (dt : ℝ) (fs : Fin 3 → ℝ) (S : Sim3 T) :
    (nsStep3 C K sch dt fs S).1.forcing = S.forcing := by
  unfold nsStep3 flowVelocity3
  refine andThen3_forcing (andThen3_forcing ?_ ?_) ?_
  · have : (callPen3 C (vorticityStep3 C K sch dt S)).1.forcing = (vorticityStep3 C K sch dt S).forcing := by
      unfold callPen3; dsimp only; split <;> rfl
    rw [this]
    unfold vorticityStep3 callFilter3
    dsimp only
    split <;> rfl
  · intro S' h
    rw [← h]
    unfold callSolve3
    split
    · rfl
    · split <;> rfl
  · intro S' h
    rw [← h]
    unfold freeStream3
    split <;> rfl

/-- C54 (3D): a step with zero forcing does to all arrays (and raises) exactly what a step without forcing does (on the same kind of simulator: `C` fixes
whether corners are exchanged). -/
theorem zeroForcing3_eq_ns (C : Cfg3) (K : Kern3) (sch : Scheds3) (dt : ℝ) (fs : Fin 3 → ℝ) (S : Sim3 T)
    (hK : ∀ a, K.upd a (fun _ _ => 0) = 0) (h0 : ∀ j c p, S.forcing j c p = 0) :
    nsForcingStep3 C K sch dt fs S = nsStep3 C K sch dt fs S := by
  unfold nsForcingStep3
  rw [zeroForcing3_upd C K sch.force dt S.om S.forcing hK h0]
  have hf := nsStep3_forcing C K sch dt fs S
  simp only [Out3.andThen]
  cases h : (nsStep3 C K sch dt fs S).2 with
  | some e => exact Prod.ext rfl h.symm
  | none =>
    refine Prod.ext ?_ h.symm
    simp only
    have : S.forcing = fun _ _ _ => 0 := by funext j c p; exact h0 j c p
    rw [this] at hf
    rw [← hf]

/-- the hypothesis on the kernel holds for a central difference curl of the forcing -/
example : ∀ a : ℝ, (fun (a : ℝ) (u : Fin 3 → C3 → ℝ) => ((a * ((u 2 (0, 1, 0) - u 2 (0, -1, 0)) - (u 1 (1, 0, 0) - u 1 (-1, 0, 0))), 0, 0) : ℝ × ℝ × ℝ)) a (fun _ _ => 0) = 0 := by
  intro a; simp

/-! ## C51, C52, C58: diagnostics -/

omit [NeZero T.gz] [NeZero T.gy] [NeZero T.gx] in
theorem mem_innerCells3 {g : ℕ} {p : C3} : p ∈ innerCells3 T g ↔ 1 ≤ g ∧ Inner3 T g p := by
  unfold innerCells3
  simp only [List.mem_flatMap, List.mem_map, mem_rangeOf_inner]
  constructor
  · rintro ⟨i, ⟨h, i1, i2⟩, j, ⟨-, j1, j2⟩, k, ⟨-, k1, k2⟩, rfl⟩
    exact ⟨h, i1, i2, j1, j2, k1, k2⟩
  · rintro ⟨h, p1, p2, p3, p4, p5, p6⟩
    exact ⟨p.1, ⟨h, p1, p2⟩, p.2.1, ⟨h, p3, p4⟩, p.2.2, ⟨h, p5, p6⟩, rfl⟩

omit [NeZero T.gz] [NeZero T.gy] [NeZero T.gx] in
/-- every cell of the domain is an inner cell of some rank -/
theorem domain_owned3 {gz gy gx pz py px : ℕ} {per : Bool} (hT : mkCart3 gz gy gx pz py px per = .ok T) (g : ℕ) {G : C3} (hG : InDomain3 T G) :
    ∃ c p, Valid3 T c ∧ Inner3 T g p ∧ globalIx3 T g c p = G := by
  obtain ⟨c, ⟨hc, b1, b2, b3, b4, b5, b6⟩, -⟩ := decomposition3_partition hT G hG
  refine ⟨c, (G.1 - c.1 * T.nz + g, G.2.1 - c.2.1 * T.ny + g, G.2.2 - c.2.2 * T.nx + g), hc, ⟨?_, ?_, ?_, ?_, ?_, ?_⟩, ?_⟩
  · simp only; omega
  · simp only; omega
  · simp only; omega
  · simp only; omega
  · simp only; omega
  · simp only; omega
  · unfold globalIx3; refine Prod.ext ?_ (Prod.ext ?_ ?_) <;> simp only <;> ring

omit [NeZero T.gz] [NeZero T.gy] [NeZero T.gx] in
/-- the local maxima of all ranks, and the global one; `L c` lists the values rank `c` looks at -/
theorem localMax3 {gz gy gx pz py px : ℕ} {per : Bool} (hT : mkCart3 gz gy gx pz py px per = .ok T) {g : ℕ} (hg : 1 ≤ g) {ι : Type} {F : ι → C3 → ℝ}
    {v : ι → World C3 C3 ℝ} (hv : ∀ j, Holds3 T g (F j) (v j)) {L : C3 → List ℝ} (hL : ∀ c x, x ∈ L c ↔ ∃ j p, Inner3 T g p ∧ x = v j c p)
    {M : ℝ} (hM : IsGreatest {x | ∃ j G, InDomain3 T G ∧ x = F j G} M) :
    ranks3 T ≠ [] ∧ ∃ m : C3 → ℝ, (∀ c ∈ ranks3 T, amax (L c) = .ok (m c) ∧ m c ≤ M ∧ ∃ j p, Inner3 T g p ∧ m c = v j c p) ∧
      ∃ c ∈ ranks3 T, m c = M := by
  obtain ⟨⟨j0, G, hG, rfl⟩, hub⟩ := hM
  obtain ⟨c0, p0, hc0, hp0, rfl⟩ := domain_owned3 hT g hG
  refine ⟨List.ne_nil_of_mem (mem_ranks3.2 hc0), ?_⟩
  have hne : ∀ c, L c ≠ [] := fun c => List.ne_nil_of_mem ((hL c _).2 ⟨j0, p0, hp0, rfl⟩)
  choose m hm hgr using fun c => amax_ok (hne c)
  have hin : ∀ c, ∃ j p, Inner3 T g p ∧ m c = v j c p := fun c => (hL c _).1 (hgr c).1
  have hle : ∀ c ∈ ranks3 T, m c ≤ F j0 (globalIx3 T g c0 p0) := by
    intro c hc
    obtain ⟨j, p, hp, he⟩ := hin c
    rw [he, hv j c p (mem_ranks3.1 hc) hp]
    exact hub ⟨j, _, inner_inDomain3 hT (mem_ranks3.1 hc) hp, rfl⟩
  refine ⟨m, fun c hc => ⟨hm c, hle c hc, hin c⟩, c0, mem_ranks3.2 hc0, le_antisymm (hle _ (mem_ranks3.2 hc0)) ?_⟩
  rw [← hv j0 c0 p0 hc0 hp0]
  exact (hgr c0).2 ((hL c0 _).2 ⟨j0, p0, hp0, rfl⟩)

omit [NeZero T.gz] [NeZero T.gy] [NeZero T.gx] in
/-- C52 (3D): `get_max_vorticity` returns (on every rank) the largest vorticity component of the whole grid. -/
theorem maxVorticity3_global {gz gy gx pz py px : ℕ} {per : Bool} (hT : mkCart3 gz gy gx pz py px per = .ok T) (C : Cfg3) (hg : 1 ≤ C.g)
    (hft : isNS C.flowType = true) (S : Sim3 T) {F : Fin 3 → C3 → ℝ} (hF : ∀ j, Holds3 T C.g (F j) (S.om j)) {M : ℝ}
    (hM : IsGreatest {x | ∃ j G, InDomain3 T G ∧ x = F j G} M) : maxVorticity3 C S = .ok M := by
  have hL : ∀ c x, x ∈ (([0, 1, 2] : List (Fin 3)).flatMap fun j => (innerCells3 T C.g).map (S.om j c)) ↔ ∃ j p, Inner3 T C.g p ∧ x = S.om j c p := by
    intro c x
    simp only [List.mem_flatMap, List.mem_map, mem_innerCells3]
    constructor
    · rintro ⟨j, -, p, ⟨-, hp⟩, rfl⟩; exact ⟨j, p, hp, rfl⟩
    · rintro ⟨j, p, hp, rfl⟩
      refine ⟨j, ?_, p, ⟨hg, hp⟩, rfl⟩
      match j with
      | 0 => simp
      | 1 => simp
      | 2 => simp
  obtain ⟨hne, m, hm, c0, hc0, hM0⟩ := localMax3 hT hg hF hL hM
  unfold maxVorticity3
  rw [if_pos hft]
  obtain ⟨v, hv, hgr⟩ := allreduce_max hne (fun c hc => (hm c hc).1)
  rw [hv]
  congr 1
  apply le_antisymm
  · obtain ⟨c, hc, rfl⟩ := hgr.1
    exact (hm c hc).2.1
  · exact hgr.2 ⟨c0, hc0, hM0.symm⟩

omit [NeZero T.gz] [NeZero T.gy] [NeZero T.gx] in
/-- C52: passive simulators have no vorticity. -/
theorem maxVorticity3_passive (C : Cfg3) (hft : isNS C.flowType = false) (S : Sim3 T) : maxVorticity3 C S = .error .attributeError := by
  unfold maxVorticity3; simp [hft]

omit [NeZero T.gz] [NeZero T.gy] [NeZero T.gx] in
/-- C51 (3D): `compute_stable_timestep` returns on every rank `dt_prefac` times the smaller of the CFL limit with the largest velocity of the whole grid
and the diffusion limit: the number a single-rank run returns. -/
theorem stableDt3_global {gz gy gx pz py px : ℕ} {per : Bool} (hT : mkCart3 gz gy gx pz py px per = .ok T) (C : Cfg3) (hg : 1 ≤ C.g)
    {tol : ℝ} (htol : 0 < tol) (hnu : 0 ≤ C.nu) (pre : ℝ) (hcfl : 0 ≤ C.cfl) (hxr : 0 ≤ C.xr) (S : Sim3 T) {V : Fin 3 → C3 → ℝ}
    (hV : ∀ j, Holds3 T C.g (V j) (S.vel j)) {M : ℝ} (hM : IsGreatest {x | ∃ G, InDomain3 T G ∧ x = |V 0 G| + |V 1 G| + |V 2 G|} M) :
    (stableDt3 C tol pre S).2 = .ok (min (C.cfl * (C.xr / gx) / (M + tol)) (0.9 * (C.xr / gx) ^ 2 / 6 / (C.nu + tol)) * pre) := by
  obtain ⟨-, -, e2, -⟩ := construct3_ok hT
  have hB : ∀ _ : Unit, Holds3 T C.g (fun G => |V 0 G| + |V 1 G| + |V 2 G|) (fun c p => |S.vel 0 c p| + |S.vel 1 c p| + |S.vel 2 c p|) := by
    intro _ c p hc hp
    simp only
    rw [hV 0 c p hc hp, hV 1 c p hc hp, hV 2 c p hc hp]
  have hM' : IsGreatest {x | ∃ (_ : Unit) (G : C3), InDomain3 T G ∧ x = |V 0 G| + |V 1 G| + |V 2 G|} M := by
    refine ⟨⟨(), hM.1⟩, ?_⟩
    rintro x ⟨-, h⟩; exact hM.2 h
  have hL : ∀ (c : C3) (x : ℝ), x ∈ ((innerCells3 T C.g).map fun p => |S.vel 0 c p| + |S.vel 1 c p| + |S.vel 2 c p|) ↔
      ∃ (_ : Unit) (p : C3), Inner3 T C.g p ∧ x = |S.vel 0 c p| + |S.vel 1 c p| + |S.vel 2 c p| := by
    intro c x
    simp only [List.mem_map, mem_innerCells3]
    constructor
    · rintro ⟨p, ⟨-, hp⟩, rfl⟩; exact ⟨(), p, hp, rfl⟩
    · rintro ⟨-, p, hp, rfl⟩; exact ⟨p, ⟨hg, hp⟩, rfl⟩
  obtain ⟨hne, m, hm, c0, hc0, hM0⟩ := localMax3 hT hg hB hL hM'
  have hdx : 0 ≤ simDx3 T C.xr := by unfold simDx3; positivity
  let lim : ℝ → ℝ := fun x => min (C.cfl * simDx3 T C.xr / (x + tol)) (0.9 * simDx3 T C.xr ^ 2 / 6 / (C.nu + tol))
  have hanti : ∀ x y, 0 ≤ x → x ≤ y → lim y ≤ lim x := by
    intro x y hx hxy
    have h1 : C.cfl * simDx3 T C.xr / (y + tol) ≤ C.cfl * simDx3 T C.xr / (x + tol) := by
      apply div_le_div_of_nonneg_left (by positivity) (by linarith) (by linarith)
    exact min_le_min_right _ h1
  have hn : C.nu + tol ≠ 0 := by positivity
  have hloc : ∀ c ∈ ranks3 T, (do
      let m ← amax ((innerCells3 T C.g).map fun p => |S.vel 0 c p| + |S.vel 1 c p| + |S.vel 2 c p|)
      Except.ok (minInf (C.cfl * simDx3 T C.xr / (m + tol)) (divInf (0.9 * simDx3 T C.xr ^ 2 / (2 * 3)) (C.nu + tol))) : Except PyErr ℝ) = .ok (lim (m c)) := by
    intro c hc
    rw [(hm c hc).1]
    simp only [bind, Except.bind, lim, divInf]
    rw [if_neg hn, show (2 : ℝ) * 3 = 6 by norm_num]
    rfl
  unfold stableDt3
  simp only
  obtain ⟨v, hv, hle⟩ := allreduce_min hne hloc
  rw [hv]
  have : v = lim M := by
    apply le_antisymm
    · refine hle.2 ⟨c0, hc0, by rw [hM0]⟩
    · obtain ⟨c, hc, rfl⟩ := hle.1
      obtain ⟨-, p, hp, hmc⟩ := (hm c hc).2.2
      refine hanti _ _ ?_ (hm c hc).2.1
      rw [hmc]; positivity
  rw [this]
  simp only [Except.map, lim, simDx3, e2]

omit [NeZero T.gz] [NeZero T.gy] [NeZero T.gx] in
/-- C51: it changes nothing but the scratch buffer. -/
theorem stableDt3_state (C : Cfg3) (tol pre : ℝ) (S : Sim3 T) : ∃ b, (stableDt3 C tol pre S).1 = { S with buf := b } := ⟨_, rfl⟩

omit [NeZero T.gz] [NeZero T.gy] [NeZero T.gx] in
theorem allreduce_add {R : Type} {rs : List R} (hne : rs ≠ []) {x : R → Except PyErr ℝ} {y : R → ℝ} (h : ∀ r ∈ rs, x r = .ok (y r)) :
    allreduce (fun a b => a + b) rs x = .ok ((rs.map y).sum) := by
  unfold allreduce
  rw [mapM_okR h]
  cases rs with
  | nil => exact absurd rfl hne
  | cons r rs =>
    have hf : ∀ (l : List ℝ) (a : ℝ), l.foldl (fun a b => a + b) a = a + l.sum := by
      intro l
      induction l with
      | nil => intro a; simp
      | cons b l ih => intro a; rw [List.foldl_cons, ih, List.sum_cons]; ring
    simp only [bind, Except.bind, List.map_cons]
    rw [hf, List.sum_cons]

omit [NeZero T.gz] [NeZero T.gy] [NeZero T.gx] in
theorem innerCells3_nodup (g : ℕ) : (innerCells3 T g).Nodup := by
  have hr : ∀ r : ℤ × ℤ, (rangeOf r).Nodup := fun r => (irange_nodup _).map fun a b h => by simpa using h
  unfold innerCells3
  rw [List.nodup_flatMap]
  refine ⟨fun i _ => ?_, ?_⟩
  · rw [List.nodup_flatMap]
    refine ⟨fun j _ => (hr _).map fun a b h => by simpa using h, ?_⟩
    refine (hr _).imp fun {a b} hab => ?_
    simp only [Function.onFun, List.Disjoint, List.mem_map]
    rintro x ⟨k, -, rfl⟩ ⟨k', -, h⟩
    simp only [Prod.mk.injEq] at h
    exact hab h.2.1.symm
  · refine (hr _).imp fun {a b} hab => ?_
    simp only [Function.onFun, List.Disjoint, List.mem_flatMap, List.mem_map]
    rintro x ⟨j, -, k, -, rfl⟩ ⟨j', -, k', -, h⟩
    simp only [Prod.mk.injEq] at h
    exact hab h.1.symm

/-- The cells of a `gz` × `gy` × `gx` grid. -/
noncomputable def cells3 (gz gy gx : ℕ) : Finset C3 := Finset.Ico (0 : ℤ) gz ×ˢ Finset.Ico (0 : ℤ) gy ×ˢ Finset.Ico (0 : ℤ) gx

omit [NeZero T.gz] [NeZero T.gy] [NeZero T.gx] in
/-- a sum over the inner cells of all ranks is a sum over the cells of the grid -/
theorem sum_owned3 {gz gy gx pz py px : ℕ} {per : Bool} (hT : mkCart3 gz gy gx pz py px per = .ok T) {g : ℕ} (hg : 1 ≤ g) (f : C3 → ℝ) :
    ((ranks3 T).map fun c => ((innerCells3 T g).map fun p => f (globalIx3 T g c p)).sum).sum = ∑ G ∈ cells3 gz gy gx, f G := by
  obtain ⟨e0, e1, e2, -⟩ := construct3_ok hT
  have hinj : ∀ c p p', globalIx3 T g c p = globalIx3 T g c p' → p = p' := by
    intro c p p' h
    unfold globalIx3 at h
    simp only [Prod.mk.injEq] at h
    exact Prod.ext (by omega) (Prod.ext (by omega) (by omega))
  have hn : ((ranks3 T).flatMap fun c => (innerCells3 T g).map (globalIx3 T g c)).Nodup := by
    rw [List.nodup_flatMap]
    refine ⟨fun c _ => (innerCells3_nodup g).map (hinj c), ?_⟩
    refine (ranks3_nodup T).imp_of_mem fun {a b} ha hb hab => ?_
    simp only [Function.onFun, List.Disjoint, List.mem_map, mem_innerCells3]
    rintro x ⟨p, ⟨-, hp⟩, rfl⟩ ⟨p', ⟨-, hp'⟩, h⟩
    have hd := inner_inDomain3 hT (mem_ranks3.1 ha) hp
    obtain ⟨c, -, hu⟩ := decomposition3_partition hT _ hd
    have blk : ∀ c p, Inner3 T g p → InBlock3 T c (globalIx3 T g c p) := by
      rintro c p ⟨p1, p2, p3, p4, p5, p6⟩
      unfold InBlock3 globalIx3
      simp only
      refine ⟨?_, ?_, ?_, ?_, ?_, ?_⟩ <;> nlinarith
    have h1 := hu a ⟨mem_ranks3.1 ha, blk a p hp⟩
    have h2 := hu b ⟨mem_ranks3.1 hb, h ▸ blk b p' hp'⟩
    exact hab (h1.trans h2.symm)
  have hset : ((ranks3 T).flatMap fun c => (innerCells3 T g).map (globalIx3 T g c)).toFinset = cells3 gz gy gx := by
    ext G
    simp only [List.mem_toFinset, List.mem_flatMap, List.mem_map, mem_innerCells3, mem_ranks3, cells3, Finset.mem_product, Finset.mem_Ico]
    constructor
    · rintro ⟨c, hc, p, ⟨-, hp⟩, rfl⟩
      obtain ⟨h1, h2, h3, h4, h5, h6⟩ := inner_inDomain3 hT hc hp
      rw [e0] at h2; rw [e1] at h4; rw [e2] at h6
      exact ⟨⟨h1, h2⟩, ⟨h3, h4⟩, h5, h6⟩
    · rintro ⟨⟨h1, h2⟩, ⟨h3, h4⟩, h5, h6⟩
      obtain ⟨c, p, hc, hp, h⟩ := domain_owned3 hT g (G := G) ⟨h1, by rw [e0]; exact h2, h3, by rw [e1]; exact h4, h5, by rw [e2]; exact h6⟩
      exact ⟨c, hc, p, ⟨hg, hp⟩, h⟩
  rw [← hset, List.sum_toFinset f hn, List.map_flatMap]
  induction ranks3 T with
  | nil => rfl
  | cons c l ih => rw [List.map_cons, List.sum_cons, List.flatMap_cons, List.sum_append, ih, List.map_map]; rfl

omit [NeZero T.gy] [NeZero T.gx] [NeZero T.gz] in
/-- C58: `get_vorticity_divergence_l2_norm` returns on every rank the l2 norm, over all cells of the global grid and weighted with `dx^1.5`, of the
divergence computed on the global vorticity, zero in the outermost cells of the domain: the number a single-rank run returns, whatever the topology
and the schedule. -/
theorem divNorm3_global {gz gy gx pz py px : ℕ} {per : Bool} (hT : mkCart3 gz gy gx pz py px per = .ok T) (h0 : 0 < gz ∧ 0 < gy ∧ 0 < gx) (C : Cfg3)
    (hg : 1 ≤ C.g) (hz : C.g ≤ T.nz) (hy : C.g ≤ T.ny) (hx : C.g ≤ T.nx) (hft : isNS C.flowType = true) (K : Kern3)
    (hK : ∀ a, CrossLocal3 1 (K.div a)) {sch : Sched3} (hs : Complete (multiMsgs3 T C.g C.full ([0, 1, 2] : List (Fin 3))) sch.2) (S : Sim3 T) {F : Fin 3 → C3 → ℝ}
    (hF : ∀ j, Holds3 T C.g (F j) (S.om j)) :
    (divNorm3 C K sch S).2 =
      .ok (Real.sqrt (∑ G ∈ cells3 gz gy gx, serialZero3 gz gy gx per 0 (K.div (1 / (C.xr / gx))) F G ^ 2) * (C.xr / gx) ^ (1.5 : ℝ)) := by
  obtain ⟨e0, e1, e2, -⟩ := construct3_ok hT
  have hne : ranks3 T ≠ [] := by
    obtain ⟨c, p, hc, -⟩ := domain_owned3 hT C.g (G := (0, 0, 0)) (by
      refine ⟨?_, ?_, ?_, ?_, ?_, ?_⟩ <;> simp <;> omega)
    exact List.ne_nil_of_mem (mem_ranks3.2 hc)
  have hcs : ∀ i : Fin 3, i ∈ ([0, 1, 2] : List (Fin 3)) := by decide
  have hD : ∀ c ∈ ranks3 T, ∀ p ∈ innerCells3 T C.g,
      stencilZero3 T C.g C.full [0, 1, 2] 1 false (0 : ℝ) (K.div (1.0 / simDx3 T C.xr)) (asFam S.om) sch.1 sch.2 S.buf c p =
        serialZero3 gz gy gx per 0 (K.div (1 / (C.xr / gx))) F (globalIx3 T C.g c p) := by
    intro c hc p hp
    rw [stencilZero3_global hT hg hz hy hx C.full hcs false (hK _) 0 (w := asFam S.om) (F := F) (fun i c p hc hp => hF i c p hc hp) sch.1 hs S.buf
      (mem_ranks3.1 hc) (mem_innerCells3.1 hp).2]
    unfold simDx3
    rw [e2, show (1.0 : ℝ) = 1 by norm_num]
  unfold divNorm3
  rw [if_pos hft]
  simp only
  rw [allreduce_add hne (y := fun c => ((innerCells3 T C.g).map fun p =>
    serialZero3 gz gy gx per 0 (K.div (1 / (C.xr / gx))) F (globalIx3 T C.g c p) ^ 2).sum)]
  · rw [sum_owned3 hT hg (fun G => serialZero3 gz gy gx per 0 (K.div (1 / (C.xr / gx))) F G ^ 2)]
    simp only [Except.map, simDx3, e2]
  · intro c hc
    rw [Real.sq_sqrt]
    · congr 2
      apply List.map_congr_left
      intro p hp
      rw [hD c hc p hp]
    · apply List.sum_nonneg
      intro x hx
      obtain ⟨p, -, rfl⟩ := List.mem_map.1 hx
      positivity

omit [NeZero T.gy] [NeZero T.gx] [NeZero T.gz] in
/-- C58: passive simulators have no such diagnostic. -/
theorem divNorm3_passive (C : Cfg3) (hft : isNS C.flowType = false) (K : Kern3) (sch : Sched3) (S : Sim3 T) :
    divNorm3 C K sch S = (S, .error .attributeError) := by
  unfold divNorm3; simp [hft]

omit [NeZero T.gy] [NeZero T.gx] [NeZero T.gz] in
/-- C58: no inner cell of the vorticity is changed, nor anything but the scratch buffer and vorticity ghost cells. -/
theorem divNorm3_state (C : Cfg3) (hz : C.g ≤ T.nz) (hy : C.g ≤ T.ny) (hx : C.g ≤ T.nx) (K : Kern3) (sch : Sched3) (S : Sim3 T) :
    ∃ b om, (divNorm3 C K sch S).1 = { S with buf := b, om := om } ∧ ∀ j c p, Inner3 T C.g p → om j c p = S.om j c p := by
  unfold divNorm3
  split
  · refine ⟨_, _, rfl, fun j c p hp => ?_⟩
    exact multiExchange3_inner hz hy hx C.full (by decide : ∀ i : Fin 3, i ∈ ([0, 1, 2] : List (Fin 3))) (asFam S.om) sch.2 j hp
  · exact ⟨S.buf, S.om, rfl, fun _ _ _ _ => rfl⟩

/-- the hypothesis on the kernel holds for the central difference divergence -/
example : ∀ a : ℝ, CrossLocal3 1 (fun u : Fin 3 → C3 → ℝ =>
    0.5 * a * ((u 0 (0, 0, 1) - u 0 (0, 0, -1)) + (u 1 (0, 1, 0) - u 1 (0, -1, 0)) + (u 2 (1, 0, 0) - u 2 (-1, 0, 0)))) := by
  intro a u v h
  have hz : u 2 (1, 0, 0) = v 2 (1, 0, 0) := h _ _ (by simp [Cross3])
  have hz' : u 2 (-1, 0, 0) = v 2 (-1, 0, 0) := h _ _ (by simp [Cross3])
  have hy : u 1 (0, 1, 0) = v 1 (0, 1, 0) := h _ _ (by simp [Cross3])
  have hy' : u 1 (0, -1, 0) = v 1 (0, -1, 0) := h _ _ (by simp [Cross3])
  have hx : u 0 (0, 0, 1) = v 0 (0, 0, 1) := h _ _ (by simp [Cross3])
  have hx' : u 0 (0, 0, -1) = v 0 (0, 0, -1) := h _ _ (by simp [Cross3])
  simp only [hz, hz', hy, hy', hx, hx']

/-- non-vacuity: a maximum exists -/
example : ∃ M, IsGreatest {x | ∃ G : C3, InDomain3 ⟨4, 4, 4, 2, 1, 1, 2, 4, 4, false⟩ G ∧ x = ((G.1 + 2 * G.2.1 + G.2.2 : ℤ) : ℝ)} M := by
  refine ⟨12, ⟨(3, 3, 3), by simp [InDomain3], by norm_num⟩, ?_⟩
  rintro x ⟨G, hG, rfl⟩
  simp only [InDomain3] at hG
  have : G.1 + 2 * G.2.1 + G.2.2 ≤ 12 := by omega
  exact_mod_cast this

end Sopht
