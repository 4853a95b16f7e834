import Verif.SimLemmas

/-! # Properties of the 2D flow simulator: set-up, time, diagnostics (C51–C55, C57) -/

namespace Sopht

set_option linter.unusedSimpArgs false

/-! ## C55: coordinates -/

/-- C55 (2D): in every cell of every rank, ghost cells included, `position_field` holds the coordinates of the centre of that cell of the global
grid: x (component 0) and y (component 1) of cell `(I, J)` are `(J + 1/2) dx` and `(I + 1/2) dx`. -/
theorem position2_cells (T : Cart2) (g : ℕ) (xr : ℝ) (c : C2) {p : C2} (hp : InArr2 T g p) :
    position2 T g xr c 0 p = ((globalIx2 T g c p).2 + 1 / 2) * (xr / T.gx) ∧
    position2 T g xr c 1 p = ((globalIx2 T g c p).1 + 1 / 2) * (xr / T.gx) := by
  obtain ⟨p1, p2, p3, p4⟩ := hp
  have h0 : position2 T g xr c 0 p = localCoords (simDx2 T xr) g T.nx c.2 p.2 := rfl
  have h1 : position2 T g xr c 1 p = localCoords (simDx2 T xr) g T.ny c.1 p.1 := rfl
  rw [h0, h1, localCoords_eq _ _ _ p3 p4, localCoords_eq _ _ _ p1 p2]
  unfold globalIx2 simDx2
  simp only
  constructor <;> ring

/-- C55: two ranks that both hold a cell (one as inner cell, the other as ghost cell, or on another decomposition of the same grid) agree on its
coordinates. -/
theorem position2_shared {gy gx py px py' px' : ℕ} {per per' : Bool} {T T' : Cart2} (hT : mkCart2 gy gx py px per = .ok T)
    (hT' : mkCart2 gy gx py' px' per' = .ok T') (g g' : ℕ) (xr : ℝ) (c c' : C2) {p p' : C2} (hp : InArr2 T g p) (hp' : InArr2 T' g' p')
    (h : globalIx2 T g c p = globalIx2 T' g' c' p') (a : Fin 2) : position2 T g xr c a p = position2 T' g' xr c' a p' := by
  obtain ⟨-, e2, -⟩ := construct2_ok hT
  obtain ⟨-, e2', -⟩ := construct2_ok hT'
  have k := position2_cells T g xr c hp
  have k' := position2_cells T' g' xr c' hp'
  rw [h, e2, ← e2'] at k
  match a with
  | 0 => rw [k.1, k'.1]
  | 1 => rw [k.2, k'.2]

/-- non-vacuity: the last ghost row of rank (0, 0) and an inner row of rank (1, 0) are the same cell -/
example : InArr2 ⟨8, 4, 2, 1, 4, 4, false⟩ ((2 : ℕ) : ℤ) (7, 3) ∧ InArr2 ⟨8, 4, 2, 1, 4, 4, false⟩ ((2 : ℕ) : ℤ) (3, 3) ∧
    globalIx2 ⟨8, 4, 2, 1, 4, 4, false⟩ ((2 : ℕ) : ℤ) (0, 0) (7, 3) = globalIx2 ⟨8, 4, 2, 1, 4, 4, false⟩ ((2 : ℕ) : ℤ) (1, 0) (3, 3) := by
  refine ⟨by simp [InArr2], by simp [InArr2], by decide⟩

/-- the form the penalisation theorems use -/
theorem position2_gridX (T : Cart2) (g : ℕ) (xr : ℝ) (c : C2) :
    GridX2 T g (simDx2 T xr) (simDx2 T xr / 2) (simDx2 T xr / 2) c (position2 T g xr c 0) (position2 T g xr c 1) := by
  intro p hp
  obtain ⟨h0, h1⟩ := position2_cells T g xr c hp
  rw [h0, h1]
  unfold simDx2
  constructor <;> ring

/-! ## C57: construction -/

/-- C57 (2D): construction raises ValueError exactly for a flow type other than the three supported ones, or for a passive scalar with free stream. -/
theorem simCheck2_valueError_iff (a : SimArgs2) : simCheck2 a = .error .valueError ↔
    (a.flowType ≠ "passive_scalar" ∧ a.flowType ≠ "navier_stokes" ∧ a.flowType ≠ "navier_stokes_with_forcing") ∨
    (a.flowType = "passive_scalar" ∧ a.freeStream = true) := by
  unfold simCheck2
  by_cases h1 : a.flowType ∉ flowTypes2
  · rw [if_pos h1]
    simp only [flowTypes2, List.mem_cons, List.not_mem_nil, or_false, not_or] at h1
    simp [h1]
  · rw [if_neg h1]
    simp only [flowTypes2, List.mem_cons, List.not_mem_nil, or_false, not_or] at h1
    by_cases h2 : a.flowType = "passive_scalar" ∧ a.freeStream
    · rw [if_pos h2]; simp [h2]
    · rw [if_neg h2]
      have h3 : ¬ ((a.flowType ≠ "passive_scalar" ∧ a.flowType ≠ "navier_stokes" ∧ a.flowType ≠ "navier_stokes_with_forcing") ∨
          (a.flowType = "passive_scalar" ∧ a.freeStream = true)) := not_or.2 ⟨h1, h2⟩
      refine iff_of_false ?_ h3
      unfold mkCart2 ghostCommCheck
      split
      · rename_i e he
        split at he
        · cases he; simp
        · cases he
      · simp [PyNum.isInt]

/-- C57: otherwise it fails (RuntimeError) exactly if the rank distribution does not divide the grid. -/
theorem simCheck2_ok_iff (a : SimArgs2) : (∃ T, simCheck2 a = .ok T) ↔
    ((a.flowType = "passive_scalar" ∧ a.freeStream = false) ∨ a.flowType = "navier_stokes" ∨ a.flowType = "navier_stokes_with_forcing") ∧
    a.gy % a.py = 0 ∧ a.gx % a.px = 0 := by
  have hv := simCheck2_valueError_iff a
  by_cases hf : ((a.flowType = "passive_scalar" ∧ a.freeStream = false) ∨ a.flowType = "navier_stokes" ∨ a.flowType = "navier_stokes_with_forcing")
  · have h1 : ¬ a.flowType ∉ flowTypes2 := by
      simp only [flowTypes2, List.mem_cons, List.not_mem_nil, or_false, not_not]
      rcases hf with h | h | h
      · exact Or.inl h.1
      · exact Or.inr (Or.inl h)
      · exact Or.inr (Or.inr h)
    have h2 : ¬ (a.flowType = "passive_scalar" ∧ a.freeStream = true) := by
      rcases hf with h | h | h
      · rw [h.2]; simp
      · rw [h]; simp
      · rw [h]; simp
    unfold simCheck2
    rw [if_neg h1, if_neg h2]
    unfold mkCart2 ghostCommCheck
    by_cases hd : a.gy % a.py ≠ 0 ∨ a.gx % a.px ≠ 0
    · rw [if_pos hd]
      simp only [reduceCtorEq, exists_false, false_iff, not_and]
      intro _ h; omega
    · rw [if_neg hd]
      simp only [PyNum.isInt, Bool.not_true, Bool.and_false, Bool.false_eq_true, if_false, Except.ok.injEq, exists_eq', true_iff]
      exact ⟨hf, by omega, by omega⟩
  · simp only [hf, false_and, iff_false, not_exists]
    intro T hT
    have : simCheck2 a = .error .valueError := by
      rw [hv]
      by_cases h0 : a.flowType = "passive_scalar"
      · right
        refine ⟨h0, ?_⟩
        by_contra hc
        exact hf (Or.inl ⟨h0, by simpa using hc⟩)
      · left
        exact ⟨h0, fun h => hf (Or.inr (Or.inl h)), fun h => hf (Or.inr (Or.inr h))⟩
    rw [this] at hT
    cases hT

/-- What a simulator needs beyond the checks of the constructor: ghost layer, slab decomposition and penalty width. -/
def Usable2 (a : SimArgs2) : Prop :=
  2 ≤ a.g ∧ (a.flowType ≠ "passive_scalar" → (a.py = 1 ∨ a.px = 1) ∧ ∃ n : ℕ, a.width = .int n)

/-- The functions `time_step` calls, by flow type. -/
def used2 (flowType : String) : List String :=
  if flowType = "passive_scalar" then ["advection_timestep", "diffusion_timestep"]
  else ["advection_timestep", "diffusion_timestep", "penalise_field_towards_boundary", "unbounded_poisson_solver", "curl",
    "update_velocity_with_free_stream"] ++
    if flowType = "navier_stokes_with_forcing" then ["update_vorticity_from_velocity_forcing", "set_field"] else []

theorem raised_iff (x : String × Except PyErr Unit) : raised x = false ↔ x.2 = .ok () := by
  unfold raised
  cases h : x.2 with
  | ok u => simp
  | error e => simp

theorem simCheck2_cart {a : SimArgs2} {T : Cart2} (hT : simCheck2 a = .ok T) : mkCart2 a.gy a.gx a.py a.px false = .ok T := by
  unfold simCheck2 at hT
  split at hT
  · cases hT
  · split at hT
    · cases hT
    · split at hT
      · cases hT
      · rename_i T' hT'
        split at hT
        · cases hT
        · cases hT; exact hT'

/-- which functions exist after the constructor -/
theorem attrs2_mem (a : SimArgs2) {T : Cart2} (hT : simCheck2 a = .ok T) :
    ("advection_timestep" ∈ attrs2 a T ↔ 2 ≤ a.g) ∧ ("diffusion_timestep" ∈ attrs2 a T ↔ 1 ≤ a.g) ∧
    (a.flowType ≠ "passive_scalar" →
      ("penalise_field_towards_boundary" ∈ attrs2 a T ↔ Usable2 a) ∧
      (Usable2 a → "unbounded_poisson_solver" ∈ attrs2 a T ∧ "curl" ∈ attrs2 a T)) ∧
    (a.flowType = "navier_stokes_with_forcing" →
      ("update_vorticity_from_velocity_forcing" ∈ attrs2 a T ↔ Usable2 a) ∧ ("set_field" ∈ attrs2 a T ↔ Usable2 a)) ∧
    ("update_velocity_with_free_stream" ∈ attrs2 a T ↔ Usable2 a) := by
  obtain ⟨hf, hd⟩ := (simCheck2_ok_iff a).1 ⟨T, hT⟩
  obtain ⟨-, -, e1, e2, -⟩ := construct2_ok (simCheck2_cart hT)
  have r1 : ∀ s, raised (s, checkSupport a.g 1) = decide (a.g < 1) := by
    intro s
    by_cases h : a.g < 1
    · unfold checkSupport raised; rw [if_pos (by omega)]; simp [h]
    · rw [(raised_iff _).2 ((checkSupport_error_iff _ _).2.2 (by omega))]; simp [h]
  have r2 : ∀ s, raised (s, checkSupport a.g 2) = decide (a.g < 2) := by
    intro s
    by_cases h : a.g < 2
    · unfold checkSupport raised; rw [if_pos (by omega)]; simp [h]
    · rw [(raised_iff _).2 ((checkSupport_error_iff _ _).2.2 (by omega))]; simp [h]
  have r3 : ∀ s, raised (s, (doublingInit2 (.int a.g) T).map fun _ => ()) = decide (¬ (a.py = 1 ∨ a.px = 1)) := by
    intro s
    by_cases h : a.py = 1 ∨ a.px = 1
    · rw [doublingInit2_accepts _ _ (by rw [e1, e2]; exact h)]; simp [raised, h, Except.map]
    · rw [(doublingInit2_valueError_iff _ _).2 (by rw [e1, e2]; push Not at h; exact h)]; simp [raised, h, Except.map]
  have r4 : ∀ s, raised (s, penCheck a.width) = decide (¬ penCheck a.width = .ok ()) := by
    intro s
    by_cases h : penCheck a.width = .ok ()
    · rw [h]; simp [raised]
    · rw [(penCheck_ok_iff a.width).2 h]; simp [raised]
  have r5 : ∀ s, raised (s, .ok ()) = false := fun s => rfl
  unfold Usable2
  rw [← (penCheck_ok_iff a.width).1]
  unfold attrs2 compileSeq2
  have gcases : a.g < 1 ∧ ¬ 2 ≤ a.g ∧ ¬ 1 ≤ a.g ∨ (¬ a.g < 1 ∧ a.g < 2 ∧ ¬ 2 ≤ a.g ∧ 1 ≤ a.g) ∨ (¬ a.g < 1 ∧ ¬ a.g < 2 ∧ 2 ≤ a.g ∧ 1 ≤ a.g) := by omega
  rcases hf with ⟨h, -⟩ | h | h
  all_goals
    rw [h]
    simp only [reduceCtorEq, String.reduceEq, or_self, or_false, or_true, if_false, if_true, List.append_nil, List.cons_append, List.nil_append,
      List.takeWhile_cons, List.takeWhile_nil, r1, r2, r3, r4, r5, ne_eq, not_true_eq_false, not_false_eq_true, true_imp_iff, false_imp_iff, and_true, true_and]
    rcases gcases with ⟨g1, g2, g3⟩ | ⟨g1, g2, g3, g4⟩ | ⟨g1, g2, g3, g4⟩
    · simp [g1, g2, g3]
    · simp [g1, g2, g3, g4]
    · by_cases q3 : a.py = 1 ∨ a.px = 1
      · by_cases q4 : penCheck a.width = .ok ()
        · simp [g1, g2, g3, g4, q3, q4]
        · simp [g1, g2, g3, g4, q3, q4]
      · simp [g1, g2, g3, g4, q3]

/-- C57: the constructor swallows what `compile_kernels` raises. All functions that `time_step` uses exist exactly if the
configuration is usable. -/
theorem attrs2_complete_iff (a : SimArgs2) {T : Cart2} (hT : simCheck2 a = .ok T) :
    (∀ n ∈ used2 a.flowType, n ∈ attrs2 a T) ↔ Usable2 a := by
  obtain ⟨hf, -⟩ := (simCheck2_ok_iff a).1 ⟨T, hT⟩
  obtain ⟨m1, m2, m3, m4, m5⟩ := attrs2_mem a hT
  unfold used2
  rcases hf with ⟨h, -⟩ | h | h
  · rw [h]
    simp only [if_true, List.mem_cons, List.not_mem_nil, or_false, forall_eq_or_imp, forall_eq]
    rw [m1, m2]
    unfold Usable2
    simp only [h, ne_eq, not_true_eq_false, false_imp_iff, and_true]
    omega
  · have k := m3 (by rw [h]; simp)
    rw [h]
    simp only [String.reduceEq, if_false, List.append_nil, List.mem_cons, List.not_mem_nil, or_false, forall_eq_or_imp, forall_eq]
    rw [m1, m2, k.1, m5]
    constructor
    · exact fun hh => hh.2.2.1
    · intro hh
      have := hh.1
      exact ⟨this, by omega, hh, (k.2 hh).1, (k.2 hh).2, hh⟩
  · have k := m3 (by rw [h]; simp)
    have k' := m4 h
    rw [h]
    simp only [String.reduceEq, if_false, if_true, List.cons_append, List.nil_append, List.mem_cons, List.not_mem_nil, or_false, forall_eq_or_imp, forall_eq]
    rw [m1, m2, k.1, m5, k'.1, k'.2]
    constructor
    · exact fun hh => hh.2.2.1
    · intro hh
      have := hh.1
      exact ⟨this, by omega, hh, (k.2 hh).1, (k.2 hh).2, hh, hh, hh⟩

/-! ## Steps -/

variable {T : Cart2} [NeZero T.gy] [NeZero T.gx]

/-- `penalise_field_towards_boundary` does not change the time. -/
theorem callPen2_time (C : Cfg2) (S : Sim2 T) : (callPen2 C S).1.time = S.time := by
  unfold callPen2
  dsimp only
  split <;> rfl

theorem useAttr2_time {C : Cfg2} {n : String} {S : Sim2 T} {f : Sim2 T → Out2 T} (h : (f S).1.time = S.time) :
    (useAttr2 C n S f).1.time = S.time := by
  unfold useAttr2
  split
  · exact h
  · rfl

theorem andThen_time {r : Out2 T} {f : Sim2 T → Out2 T} {t : ℝ} (h1 : r.1.time = t) (h2 : ∀ S, S.time = t → (f S).1.time = t) :
    (r.andThen f).1.time = t := by
  unfold Out2.andThen
  split
  · exact h1
  · exact h2 _ h1

/-- no flow step changes the time -/
theorem flowStep2_time (C : Cfg2) (K : Kern2) (sch : Scheds2) (dt : ℝ) (fs : Fin 2 → ℝ) (S : Sim2 T) :
    (flowStep2 C K sch dt fs S).1.time = S.time := by
  have h1 : ∀ S' : Sim2 T, S'.time = S.time → (advDiffStep2 C K sch dt S').1.time = S.time := by
    intro S' h
    unfold advDiffStep2
    refine andThen_time ((useAttr2_time (by rfl)).trans h) ?_
    intro S'' h'
    exact (useAttr2_time (by rfl)).trans h'
  have h2 : ∀ S' : Sim2 T, S'.time = S.time → (velFromVort2 C K sch S').1.time = S.time := by
    intro S' h
    unfold velFromVort2
    refine andThen_time (andThen_time ((useAttr2_time (callPen2_time C S')).trans h) ?_) ?_
    · intro S'' h'; exact (useAttr2_time (by rfl)).trans h'
    · intro S'' h'; exact (useAttr2_time (by rfl)).trans h'
  have h3 : ∀ S' : Sim2 T, S'.time = S.time → (nsStep2 C K sch dt fs S').1.time = S.time := by
    intro S' h
    unfold nsStep2
    refine andThen_time (andThen_time (h1 S' h) h2) ?_
    intro S'' h'
    refine (useAttr2_time ?_).trans h'
    unfold freeStream2
    split <;> rfl
  unfold flowStep2
  split
  · exact h3 S rfl
  · split
    · unfold nsForcingStep2
      refine andThen_time (andThen_time (useAttr2_time (by rfl)) h3) ?_
      intro S'' h'
      exact (useAttr2_time (by rfl)).trans h'
    · exact h1 S rfl

/-- C53 (2D): a call of `time_step` that returns advances the time by `dt`; one that raises leaves it as it was. -/
theorem timeStep2_time (C : Cfg2) (K : Kern2) (sch : Scheds2) (dt : ℝ) (fs : Fin 2 → ℝ) (S : Sim2 T) :
    (timeStep2 C K sch dt fs S).1.time = if (timeStep2 C K sch dt fs S).2 = none then S.time + dt else S.time := by
  unfold timeStep2 Out2.andThen
  have := flowStep2_time C K sch dt fs S
  cases h : (flowStep2 C K sch dt fs S).2 with
  | some e => simp [this]
  | none => simp [this]

/-- What a driver does in one iteration: anything that leaves the time alone (initialise fields, add forcing, ask for the stable time step,
communicate), then one call of `time_step`. -/
structure Iter2 (T : Cart2) where
  user : Sim2 T → Sim2 T
  sch : Scheds2
  dt : ℝ
  fs : Fin 2 → ℝ

/-- The history of a driver: final state, and for each call its `dt` and whether it raised. -/
noncomputable def drive2 (C : Cfg2) (K : Kern2) : List (Iter2 T) → Sim2 T → Sim2 T × List (ℝ × Option PyErr)
  | [], S => (S, [])
  | x :: xs, S =>
    let r := timeStep2 C K x.sch x.dt x.fs (x.user S)
    let q := drive2 C K xs r.1
    (q.1, (x.dt, r.2) :: q.2)

/-- C53 (2D): after any history the time is the initial time plus the sum of the `dt`s of the calls that returned. -/
theorem drive2_time (C : Cfg2) (K : Kern2) (xs : List (Iter2 T)) (hu : ∀ x ∈ xs, ∀ S, (x.user S).time = S.time) (S : Sim2 T) :
    (drive2 C K xs S).1.time = S.time + (((drive2 C K xs S).2.filter fun y => y.2 = none).map (·.1)).sum := by
  induction xs generalizing S with
  | nil => simp [drive2]
  | cons x xs ih =>
    unfold drive2
    simp only
    rw [ih (fun y hy => hu y (List.mem_cons_of_mem _ hy)), timeStep2_time, hu x List.mem_cons_self, List.filter_cons]
    by_cases h : (timeStep2 C K x.sch x.dt x.fs (x.user S)).2 = none
    · simp [h]; ring
    · simp [h]

/-! ## C57: a misconfigured simulator fails in its first step -/

theorem useAttr2_missing {C : Cfg2} {n : String} {S : Sim2 T} {f : Sim2 T → Out2 T} (h : n ∉ C.attrs) :
    (useAttr2 C n S f).2 = some .attributeError := by unfold useAttr2; rw [if_neg h]

theorem andThen_err {r : Out2 T} {f : Sim2 T → Out2 T} {e : PyErr} (h1 : r.2 = none ∨ r.2 = some e) (h2 : r.2 = some e ∨ ∀ S, (f S).2 = some e) :
    (r.andThen f).2 = some e := by
  unfold Out2.andThen
  rcases h1 with h1 | h1
  · rw [h1]
    rcases h2 with h2 | h2
    · rw [h1] at h2; cases h2
    · exact h2 _
  · rw [h1]

/-- C57: in an unusable configuration the constructor returns, but every call of `time_step` raises AttributeError — after having
possibly advected and diffused the field — and never advances the time. -/
theorem timeStep2_misconfigured (a : SimArgs2) (hT : simCheck2 a = .ok T) (hbad : ¬ Usable2 a) {C : Cfg2}
    (hft : C.flowType = a.flowType) (hat : C.attrs = attrs2 a T) (K : Kern2) (sch : Scheds2) (dt : ℝ) (fs : Fin 2 → ℝ) (S : Sim2 T) :
    (timeStep2 C K sch dt fs S).2 = some .attributeError ∧ (timeStep2 C K sch dt fs S).1.time = S.time := by
  obtain ⟨hf, -⟩ := (simCheck2_ok_iff a).1 ⟨T, hT⟩
  obtain ⟨m1, m2, m3, m4, m5⟩ := attrs2_mem a hT
  rw [← hat] at m1 m2 m3 m4 m5
  have hend : (timeStep2 C K sch dt fs S).2 = (flowStep2 C K sch dt fs S).2 := by
    unfold timeStep2 Out2.andThen
    split
    · rename_i e he; exact he.symm
    · rename_i he; exact he.symm
  have hadv : (advDiffStep2 C K sch dt S).2 = none ∨ (advDiffStep2 C K sch dt S).2 = some .attributeError := by
    unfold advDiffStep2 useAttr2
    split <;> simp only [Out2.andThen]
    · split <;> simp
    · simp
  have key : (timeStep2 C K sch dt fs S).2 = some .attributeError := by
    rw [hend]
    unfold flowStep2
    rw [hft]
    rcases hf with ⟨h, -⟩ | h | h
    · rw [h]
      simp only [String.reduceEq, if_false]
      have hg : ¬ 2 ≤ a.g := by
        intro hg; apply hbad; unfold Usable2; simp [h, hg]
      exact andThen_err (Or.inr (useAttr2_missing fun hm => hg (m1.1 hm))) (Or.inl (useAttr2_missing fun hm => hg (m1.1 hm)))
    · have k := (m3 (by rw [h]; simp)).1
      rw [h]
      simp only [if_true]
      have hv : ∀ S : Sim2 T, (velFromVort2 C K sch S).2 = some .attributeError := by
        intro S
        have h0 : (useAttr2 C "penalise_field_towards_boundary" S (callPen2 C)).2 = some .attributeError :=
          useAttr2_missing fun hm => hbad (k.1 hm)
        have h1 := andThen_err (f := fun S => useAttr2 C "unbounded_poisson_solver" S fun S => (callSolve2 C sch.toDbl sch.fromDbl S, none))
          (Or.inr h0) (Or.inl h0)
        exact andThen_err (Or.inr h1) (Or.inl h1)
      have h2 := andThen_err (f := fun S => velFromVort2 C K sch S) hadv (Or.inr hv)
      exact andThen_err (Or.inr h2) (Or.inl h2)
    · have k := (m4 h).1
      rw [h]
      simp only [String.reduceEq, if_false, if_true]
      have h0 : (useAttr2 C "update_vorticity_from_velocity_forcing" S fun S => (callUpd2 C K sch.upd dt S, none)).2 = some .attributeError :=
        useAttr2_missing fun hm => hbad (k.1 hm)
      have h1 := andThen_err (f := fun S => nsStep2 C K sch dt fs S) (Or.inr h0) (Or.inl h0)
      exact andThen_err (Or.inr h1) (Or.inl h1)
  refine ⟨key, ?_⟩
  rw [timeStep2_time, key]
  simp

/-- non-vacuity: a 2 × 2 distribution of a Navier-Stokes simulator is accepted by the constructor and is not usable; so is ghost size 1 -/
example : (∃ T, simCheck2 ⟨8, 8, 2, 2, "navier_stokes", false, 2, .int 2⟩ = .ok T) ∧ ¬ Usable2 ⟨8, 8, 2, 2, "navier_stokes", false, 2, .int 2⟩ ∧
    (∃ T, simCheck2 ⟨8, 8, 2, 1, "passive_scalar", false, 1, .int 2⟩ = .ok T) ∧ ¬ Usable2 ⟨8, 8, 2, 1, "passive_scalar", false, 1, .int 2⟩ ∧
    Usable2 ⟨8, 8, 2, 1, "navier_stokes", true, 2, .int 2⟩ := by
  refine ⟨(simCheck2_ok_iff _).2 (by simp), by simp [Usable2], (simCheck2_ok_iff _).2 (by simp), by simp [Usable2], ⟨le_rfl, fun _ => ⟨Or.inr rfl, 2, rfl⟩⟩⟩

/-! ## C54: forcing -/

theorem unpack_const {ι α : Type} [DecidableEq ι] {z : α} {A : ι → α} (hA : ∀ i, A i = z) (ix : List ι) {vals : List α} (hv : ∀ v ∈ vals, v = z) (i : ι) :
    unpack A ix vals i = z := by
  unfold unpack
  have hz : ∀ q ∈ ix.zip vals, q.2 = z := fun q hq => hv _ (List.of_mem_zip hq).2
  generalize ix.zip vals = l at hz
  induction l generalizing A with
  | nil => exact hA i
  | cons q l ih =>
    rw [List.foldl_cons]
    refine ih ?_ fun x hx => hz x (List.mem_cons_of_mem _ hx)
    intro j
    rw [Function.update_apply]
    split
    · exact hz q List.mem_cons_self
    · exact hA j

/-- if all arrays hold the same value everywhere, no exchange changes that, at any moment -/
theorem runNet_const {R ι α : Type} [DecidableEq R] [DecidableEq ι] {z : α} (M : List (Msg R ι)) {w : World R ι α} (hw : ∀ r i, w r i = z)
    (sched : List Ev) (r : R) (i : ι) : runNet M w sched r i = z := by
  have step : ∀ (st : Net R ι α) (e : Ev), ((∀ r i, st.w r i = z) ∧ ∀ k vals, st.net k = some vals → ∀ v ∈ vals, v = z) →
      ((∀ r i, (evStep M st e).w r i = z) ∧ ∀ k vals, (evStep M st e).net k = some vals → ∀ v ∈ vals, v = z) := by
    rintro st e ⟨h, hn⟩
    cases e with
    | pick k =>
      simp only [evStep]
      split
      · refine ⟨h, ?_⟩
        intro k' vals hk v hv
        simp only [Function.update_apply] at hk
        by_cases hkk : k' = k
        · rw [if_pos hkk] at hk
          cases hk
          obtain ⟨j, -, rfl⟩ := List.mem_map.1 hv
          exact h _ _
        · rw [if_neg hkk] at hk
          exact hn k' vals hk v hv
      · exact ⟨h, hn⟩
    | land k =>
      simp only [evStep]
      split
      · rename_i m vals hm hk
        refine ⟨?_, hn⟩
        intro r i
        simp only [setRank]
        rw [Function.update_apply]
        split
        · exact unpack_const (h _) _ (hn k vals hk) i
        · exact h r i
      · exact ⟨h, hn⟩
  have key : ∀ (l : List Ev) (st : Net R ι α), ((∀ r i, st.w r i = z) ∧ ∀ k vals, st.net k = some vals → ∀ v ∈ vals, v = z) →
      ∀ r i, (l.foldl (evStep M) st).w r i = z := by
    intro l
    induction l with
    | nil => intro st h; exact h.1
    | cons e l ih => intro st h; rw [List.foldl_cons]; exact ih _ (step st e h)
  exact key sched ⟨w, fun _ => none⟩ ⟨hw, by simp⟩ r i

/-- C54 (2D): when a step with forcing has returned, the forcing field is zero in every cell of every rank, ghost cells included. -/
theorem forcing2_consumed (C : Cfg2) (K : Kern2) (sch : Scheds2) (dt : ℝ) (fs : Fin 2 → ℝ) (S : Sim2 T)
    (hft : C.flowType = "navier_stokes_with_forcing") (h : (timeStep2 C K sch dt fs S).2 = none) (j : Fin 2) (c p : C2) :
    (timeStep2 C K sch dt fs S).1.forcing j c p = 0 := by
  unfold timeStep2 flowStep2 at h ⊢
  rw [hft] at h ⊢
  simp only [String.reduceEq, if_false, if_true] at h ⊢
  unfold nsForcingStep2 Out2.andThen at h ⊢
  simp only at h ⊢
  split at h
  · cases h
  · rename_i he
    split at he
    · cases he
    · rename_i hq
      rw [hq] at *
      simp only at he ⊢
      unfold useAttr2 at he ⊢
      split at he
      · rename_i hmem
        simp [hmem]
      · cases he

/-- with zero forcing the vorticity update does nothing -/
theorem zeroForcing2_upd (C : Cfg2) (K : Kern2) (sch : Scheds2) (dt : ℝ) (S : Sim2 T)
    (hK : ∀ a, K.upd a (fun _ _ => 0) = 0) (h0 : ∀ j c p, S.forcing j c p = 0)
    (hat : "update_vorticity_from_velocity_forcing" ∈ C.attrs) :
    (useAttr2 C "update_vorticity_from_velocity_forcing" S fun S => (callUpd2 C K sch.upd dt S, none)) = (S, none) := by
  unfold useAttr2
  rw [if_pos hat]
  have hw : ∀ s c i, multiExchange2 T C.g false [0, 1] (fun c (i : Fin 2 × ℤ) => toFlat2 T C.g (S.forcing i.1) c i.2) s c i = 0 :=
    fun s c i => by unfold multiExchange2; exact runNet_const _ (fun c i => by unfold toFlat2; exact h0 i.1 c _) s c i
  have hpass : ∀ (A : Fin 2 → C2 → ℝ) (hA : ∀ i p, A i p = 0) (V : View2) (o : C2 → ℝ),
      pass2 1 (fun a b => a + b) (K.upd (dt / (2 * simDx2 T C.xr))) A o V = o := by
    intro A hA V o
    funext p
    unfold pass2
    have : (fun (i : Fin 2) (d : C2) => A i (p.1 + d.1, p.2 + d.2)) = fun _ _ => 0 := by funext i d; exact hA _ _
    rw [this, hK]
    simp
  unfold callUpd2
  refine Prod.ext ?_ rfl
  have hp : stencilAdd2 T C.g false [0, 1] 1 (K.upd (dt / (2 * simDx2 T C.xr)))
      (fun c (i : Fin 2 × ℤ) => toFlat2 T C.g (S.forcing i.1) c i.2) sch.upd.1 sch.upd.2 S.prim = S.prim := by
    funext c
    unfold stencilAdd2 stencil2 kernel2 boundaryViews2
    simp only [List.foldl_cons, List.foldl_nil]
    rw [hpass _ (fun i p => hw _ _ _), hpass _ (fun i p => hw _ _ _), hpass _ (fun i p => hw _ _ _), hpass _ (fun i p => hw _ _ _),
      hpass _ (fun i p => hw _ _ _)]
  have hf : (fun j => ofFlat2 T C.g fun c i => multiExchange2 T C.g false [0, 1]
      (fun c (i : Fin 2 × ℤ) => toFlat2 T C.g (S.forcing i.1) c i.2) sch.upd.2 c (j, i)) = S.forcing := by
    funext j c p
    exact (hw _ _ _).trans (h0 j c p).symm
  simp only
  rw [hp, hf]

theorem useAttr2_forcing {C : Cfg2} {n : String} {S : Sim2 T} {f : Sim2 T → Out2 T} (h : (f S).1.forcing = S.forcing) :
    (useAttr2 C n S f).1.forcing = S.forcing := by
  unfold useAttr2
  split
  · exact h
  · rfl

theorem andThen_forcing {r : Out2 T} {f : Sim2 T → Out2 T} {t : Fin 2 → World C2 C2 ℝ} (h1 : r.1.forcing = t)
    (h2 : ∀ S, S.forcing = t → (f S).1.forcing = t) : (r.andThen f).1.forcing = t := by
  unfold Out2.andThen
  split
  · exact h1
  · exact h2 _ h1

/-- a Navier-Stokes step does not look at the forcing field, nor change it -/
theorem nsStep2_forcing (C : Cfg2) (K : Kern2) (sch : Scheds2) (dt : ℝ) (fs : Fin 2 → ℝ) (S : Sim2 T) :
    (nsStep2 C K sch dt fs S).1.forcing = S.forcing := by
  unfold nsStep2 advDiffStep2 velFromVort2
  refine andThen_forcing (andThen_forcing (andThen_forcing (useAttr2_forcing (by rfl)) ?_) ?_) ?_
  · intro S' h; exact (useAttr2_forcing (by rfl)).trans h
  · intro S' h
    refine andThen_forcing (andThen_forcing ((useAttr2_forcing ?_).trans h) ?_) ?_
    · unfold callPen2; dsimp only; split <;> rfl
    · intro S'' h'; exact (useAttr2_forcing (by rfl)).trans h'
    · intro S'' h'; exact (useAttr2_forcing (by rfl)).trans h'
  · intro S' h
    refine (useAttr2_forcing ?_).trans h
    unfold freeStream2
    split <;> rfl

/-- C54 (2D): a step with zero forcing does to all arrays (and raises) exactly what a step without forcing does: a force acts in
the step it was set for and in no other. (`upd` of zero forcing is zero: it is the curl of the forcing times a factor.) -/
theorem zeroForcing2_eq_ns (C : Cfg2) (K : Kern2) (sch : Scheds2) (dt : ℝ) (fs : Fin 2 → ℝ) (S : Sim2 T)
    (hK : ∀ a, K.upd a (fun _ _ => 0) = 0) (h0 : ∀ j c p, S.forcing j c p = 0)
    (hat : "update_vorticity_from_velocity_forcing" ∈ C.attrs) (hset : "set_field" ∈ C.attrs) :
    nsForcingStep2 C K sch dt fs S = nsStep2 C K sch dt fs S := by
  unfold nsForcingStep2
  rw [zeroForcing2_upd C K sch dt S hK h0 hat]
  have hf := nsStep2_forcing C K sch dt fs S
  simp only [Out2.andThen]
  cases h : (nsStep2 C K sch dt fs S).2 with
  | some e => exact Prod.ext rfl h.symm
  | none =>
    simp only [useAttr2, if_pos hset]
    refine Prod.ext ?_ h.symm
    simp only
    have : S.forcing = fun _ _ _ => 0 := by funext j c p; exact h0 j c p
    rw [this] at hf
    rw [← hf]

/-- the hypothesis on the kernel holds for a central difference curl of the forcing -/
example : ∀ a : ℝ, (fun (a : ℝ) (u : Fin 2 → C2 → ℝ) => a * ((u 1 (0, 1) - u 1 (0, -1)) - (u 0 (1, 0) - u 0 (-1, 0)))) a (fun _ _ => 0) = 0 := by
  intro a; simp

/-! ## C51, C52: diagnostics -/

omit [NeZero T.gy] [NeZero T.gx] in
/-- C52 (2D): `get_max_vorticity` returns (on every rank) the largest vorticity of the whole grid. -/
theorem maxVorticity2_global {gy gx py px : ℕ} {per : Bool} (hT : mkCart2 gy gx py px per = .ok T) (C : Cfg2) (hg : 1 ≤ C.g)
    (hft : C.flowType ≠ "passive_scalar") (S : Sim2 T) {F : C2 → ℝ} (hF : Blocks2 T C.g F S.prim) {M : ℝ}
    (hM : IsGreatest {x | ∃ G, InDomain2 T G ∧ x = F G} M) : maxVorticity2 C S = .ok M := by
  obtain ⟨hne, m, hm, c0, hc0, hM0⟩ := localMax2 hT hg hF hM
  unfold maxVorticity2
  rw [if_neg hft]
  obtain ⟨v, hv, hgr⟩ := allreduce_max hne (fun c hc => (hm c hc).1)
  rw [hv]
  congr 1
  apply le_antisymm
  · obtain ⟨c, hc, rfl⟩ := hgr.1
    exact (hm c hc).2.1
  · exact hgr.2 ⟨c0, hc0, hM0.symm⟩

omit [NeZero T.gy] [NeZero T.gx] in
/-- C52: with ghost size 0 the slice `[0:-0]` is empty, and the call raises ValueError. -/
theorem maxVorticity2_noGhost (C : Cfg2) (hg : C.g = 0) (hft : C.flowType ≠ "passive_scalar") (hne : ranks2 T ≠ []) (S : Sim2 T) :
    maxVorticity2 C S = .error .valueError := by
  unfold maxVorticity2
  rw [if_neg hft]
  refine allreduce_error hne fun c _ => ?_
  have : innerElems2 T C.g (S.prim c) = [] := by
    rw [List.eq_nil_iff_forall_not_mem]
    intro x hx
    rw [mem_innerElems2] at hx
    omega
  rw [this]
  rfl

omit [NeZero T.gy] [NeZero T.gx] in
/-- C51 (2D): `compute_stable_timestep` returns on every rank `dt_prefac` times the smaller of the CFL limit with the largest velocity of the whole grid
and the diffusion limit (only the CFL limit if the viscosity is zero): the number a single-rank run returns. -/
theorem stableDt2_global {gy gx py px : ℕ} {per : Bool} (hT : mkCart2 gy gx py px per = .ok T) (C : Cfg2) (hg : 1 ≤ C.g)
    {tol : ℝ} (htol : 0 < tol) (pre : ℝ) (hcfl : 0 ≤ C.cfl) (hxr : 0 ≤ C.xr) (S : Sim2 T) {V : Fin 2 → C2 → ℝ}
    (hV : ∀ j, Blocks2 T C.g (V j) (S.vel j)) {M : ℝ} (hM : IsGreatest {x | ∃ G, InDomain2 T G ∧ x = |V 0 G| + |V 1 G|} M) :
    (stableDt2 C tol pre S).2 = .ok ((if C.nu = 0 then C.cfl * (C.xr / gx) / (M + tol)
      else min (C.cfl * (C.xr / gx) / (M + tol)) (0.9 * (C.xr / gx) ^ 2 / 4 / C.nu)) * pre) := by
  obtain ⟨-, e2, -⟩ := construct2_ok hT
  have hB : Blocks2 T C.g (fun G => |V 0 G| + |V 1 G|) (fun c p => |S.vel 0 c p| + |S.vel 1 c p|) := by
    intro c p hc hp
    simp only
    rw [hV 0 c p hc hp, hV 1 c p hc hp]
  obtain ⟨hne, m, hm, c0, hc0, hM0⟩ := localMax2 hT hg hB hM
  have hdx : 0 ≤ simDx2 T C.xr := by unfold simDx2; positivity
  have hM1 : 0 ≤ M := by obtain ⟨G, -, rfl⟩ := hM.1; positivity
  let lim : ℝ → ℝ := fun x => if C.nu = 0 then C.cfl * simDx2 T C.xr / (x + tol)
      else min (C.cfl * simDx2 T C.xr / (x + tol)) (0.9 * simDx2 T C.xr ^ 2 / 4 / C.nu)
  have hanti : ∀ x y, 0 ≤ x → x ≤ y → lim y ≤ lim x := by
    intro x y hx hxy
    have h1 : C.cfl * simDx2 T C.xr / (y + tol) ≤ C.cfl * simDx2 T C.xr / (x + tol) := by
      apply div_le_div_of_nonneg_left (by positivity) (by linarith) (by linarith)
    simp only [lim]
    split
    · exact h1
    · exact min_le_min_right _ h1
  have hloc : ∀ c ∈ ranks2 T, (do
      let m ← amax (innerElems2 T C.g fun p => |S.vel 0 c p| + |S.vel 1 c p|)
      Except.ok (minInf (C.cfl * simDx2 T C.xr / (m + tol)) (divInf (0.9 * simDx2 T C.xr ^ 2 / (2 * 2)) C.nu)) : Except PyErr ℝ) = .ok (lim (m c)) := by
    intro c hc
    rw [(hm c hc).1]
    simp only [bind, Except.bind, lim, divInf]
    by_cases hn : C.nu = 0
    · rw [if_pos hn, if_pos hn]; rfl
    · rw [if_neg hn, if_neg hn]
      rw [show (2 : ℝ) * 2 = 4 by norm_num]
      rfl
  unfold stableDt2
  simp only
  obtain ⟨v, hv, hle⟩ := allreduce_min hne hloc
  rw [hv]
  have : v = lim M := by
    apply le_antisymm
    · refine hle.2 ⟨c0, hc0, by rw [hM0]⟩
    · obtain ⟨c, hc, rfl⟩ := hle.1
      obtain ⟨p, hp, hmc⟩ := (hm c hc).2.2
      refine hanti _ _ ?_ (hm c hc).2.1
      rw [hmc]; positivity
  rw [this]
  simp only [Except.map, lim, simDx2, e2]

omit [NeZero T.gy] [NeZero T.gx] in
/-- C51: it changes nothing but the scratch buffer, which every step overwrites before reading (`advectionStep2_buffer_irrelevant`). -/
theorem stableDt2_state (C : Cfg2) (tol pre : ℝ) (S : Sim2 T) : ∃ b, (stableDt2 C tol pre S).1 = { S with buf := b } := ⟨_, rfl⟩

/-- non-vacuity: a maximum exists for every field on a non-empty grid -/
example : ∃ M, IsGreatest {x | ∃ G : C2, InDomain2 ⟨4, 4, 2, 1, 2, 4, false⟩ G ∧ x = ((G.1 + 2 * G.2 : ℤ) : ℝ)} M := by
  refine ⟨9, ⟨(3, 3), by simp [InDomain2], by norm_num⟩, ?_⟩
  rintro x ⟨G, hG, rfl⟩
  simp only [InDomain2] at hG
  have : G.1 + 2 * G.2 ≤ 9 := by omega
  exact_mod_cast this

end Sopht
