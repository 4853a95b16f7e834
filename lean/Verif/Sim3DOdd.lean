import Verif.Sim3DRun

/-! # 3D Navier-Stokes simulators step exactly on even rank distributions (C67) -/

namespace Sopht

variable {gz gy gx pz py px : ℕ} {T : Cart3}

theorem mapM_error_of {A B : Type} {l : List A} {f : A → Except PyErr B} {e e' : PyErr} (hf : ∀ x, ∀ e', f x = .error e' → e' = e) (h : l.mapM f = .error e') :
    e' = e := by
  induction l with
  | nil => cases h
  | cons a t ih =>
    rw [List.mapM_cons] at h
    cases ha : f a with
    | error x =>
      rw [ha] at h
      have := hf a x ha
      cases h; exact this
    | ok b =>
      rw [ha] at h
      cases ht : t.mapM f with
      | error x => rw [ht] at h; cases h; exact ih ht
      | ok bs => rw [ht] at h; cases h

/-- an exception of the copy to the doubled domain is an MPI error -/
theorem toPosts3_error {g : ℕ} {dd : List (Fin 3)} {c : C3} {e : PyErr} (h : toPosts3 T g dd c = .error e) : e = .mpiError := by
  have hr : ∀ x e, cartRank3 T x = .error e → e = .mpiError := by
    intro x e h
    unfold cartRank3 at h
    split at h
    · cases h
    · split at h
      · cases h
      · cases h; rfl
  unfold toPosts3 at h
  split at h
  · rename_i e' he
    cases h; exact hr _ _ he
  · split at h
    · split at h
      · rename_i e' he
        cases h
        refine mapM_error_of ?_ he
        intro x e'' hx
        cases hc : cartRank3 T (pairCoord3 dd c x) with
        | error y => rw [hc] at hx; cases hx; exact hr _ _ hc
        | ok y => rw [hc] at hx; cases hx
      · cases h
    · cases h

/-- the penalisation never raises if the zone fits the blocks -/
theorem callPen3_ok (hT : mkCart3 gz gy gx pz py px false = .ok T) {C : Cfg3} (hg : 1 ≤ C.g)
    (hwz : C.w ≤ T.nz) (hwy : C.w ≤ T.ny) (hwx : C.w ≤ T.nx) (hn : 0 < T.nx) (hxr : 0 < C.xr) (S : Sim3 T) : (callPen3 C S).2 = none := by
  obtain ⟨-, -, -, -, -, -, -, -, -, hX⟩ := construct3_ok hT
  have hnone : ((ranks3 T).findSome? fun c => errOf (penaliseVec3 T C.g C.w (simDx3 T C.xr) (position3 T C.g C.xr c 0) (position3 T C.g C.xr c 1)
      (position3 T C.g C.xr c 2) c (fun j => S.om j c))) = none := by
    rw [List.findSome?_eq_none_iff]
    intro c hc
    have hv := mem_ranks3.1 hc
    have hdx : simDx3 T C.xr ≠ 0 := by
      unfold simDx3
      have : 0 < T.gx := by rw [← hX]; exact Nat.mul_pos (by have := hv.2.2.2.2.1; have := hv.2.2.2.2.2; omega) hn
      have : (0 : ℝ) < T.gx := by exact_mod_cast this
      positivity
    have one : ∀ j, ∃ out, penalise3 T C.g C.w (simDx3 T C.xr) (position3 T C.g C.xr c 0) (position3 T C.g C.xr c 1) (position3 T C.g C.xr c 2) c (S.om j c) = .ok out := by
      intro j
      obtain ⟨out, h, -⟩ := penalise3_global (w := C.w) hT hg hwz hwy hwx hdx _ _ _ hv (position3_gridX T C.g C.xr c)
        (fld := S.om j c) (F := fun G => S.om j c (G.1 - c.1 * T.nz + C.g, G.2.1 - c.2.1 * T.ny + C.g, G.2.2 - c.2.2 * T.nx + C.g))
        (fun p _ => by
          unfold globalIx3
          dsimp only
          congr 1
          refine Prod.ext (by simp only; ring) (Prod.ext (by simp only; ring) (by simp only; ring)))
      exact ⟨out, h⟩
    obtain ⟨o0, a0⟩ := one 0
    obtain ⟨o1, a1⟩ := one 1
    obtain ⟨o2, a2⟩ := one 2
    unfold penaliseVec3
    rw [a0, a1, a2]; rfl
  unfold callPen3
  dsimp only
  rw [hnone]

variable [NeZero T.gz] [NeZero T.gy] [NeZero T.gx]

theorem callSolve3_even {C : Cfg3} (hE : EvenTopo3 T) (s : Fin 3 → List Ev × List Ev) (S : Sim3 T) : (callSolve3 C s S).2 = none := by
  have n1 : ((ranks3 T).findSome? fun c => errOf (toPosts3 T C.g (distDims3 T) c)) = none := by
    rw [List.findSome?_eq_none_iff]
    intro c hc
    obtain ⟨⟨l, hl⟩, -⟩ := doubling3_no_error hE C.g (mem_ranks3.1 hc)
    rw [hl]; rfl
  have n2 : ((ranks3 T).findSome? fun c => errOf (fromPosts3 T C.g (distDims3 T) c)) = none := by
    rw [List.findSome?_eq_none_iff]
    intro c hc
    obtain ⟨-, ⟨l, hl⟩⟩ := doubling3_no_error hE C.g (mem_ranks3.1 hc)
    rw [hl]; rfl
  unfold callSolve3
  rw [n1]
  dsimp only
  rw [n2]

theorem callSolve3_odd {C : Cfg3} (hper : T.per = false) (hz : 0 < T.pz) (hy : 0 < T.py) (hx : 0 < T.px) (hE : ¬ EvenTopo3 T)
    (s : Fin 3 → List Ev × List Ev) (S : Sim3 T) : (callSolve3 C s S).2 = some .mpiError := by
  obtain ⟨c, hc, he⟩ := (copyTo3_error_iff hper hz hy hx C.g).2 (by unfold EvenTopo3 at hE; omega)
  have hsome : ∃ e, ((ranks3 T).findSome? fun c => errOf (toPosts3 T C.g (distDims3 T) c)) = some e := by
    cases hf : ((ranks3 T).findSome? fun c => errOf (toPosts3 T C.g (distDims3 T) c)) with
    | some e => exact ⟨e, rfl⟩
    | none =>
      rw [List.findSome?_eq_none_iff] at hf
      have := hf c (mem_ranks3.2 hc)
      rw [he] at this; cases this
  obtain ⟨e, he'⟩ := hsome
  have hmpi : e = .mpiError := by
    obtain ⟨r, -, hr⟩ := List.exists_of_findSome?_eq_some he'
    cases hp : toPosts3 T C.g (distDims3 T) r with
    | ok l => rw [hp] at hr; cases hr
    | error x => rw [hp] at hr; cases hr; exact toPosts3_error hp
  subst hmpi
  unfold callSolve3
  rw [he']

/-- the outcome of a Navier-Stokes step is that of its Poisson solve -/
theorem flowVelocity3_outcome (hT : mkCart3 gz gy gx pz py px false = .ok T) {C : Cfg3} (hg : 1 ≤ C.g)
    (hwz : C.w ≤ T.nz) (hwy : C.w ≤ T.ny) (hwx : C.w ≤ T.nx) (hn : 0 < T.nx) (hxr : 0 < C.xr) (hz : 0 < T.pz) (hy : 0 < T.py) (hx : 0 < T.px)
    [Decidable (EvenTopo3 T)] (K : Kern3) (sch : Scheds3) (fs : Fin 3 → ℝ) (S : Sim3 T) :
    (flowVelocity3 C K sch fs S).2 = if EvenTopo3 T then none else some .mpiError := by
  have hper : T.per = false := (construct3_ok hT).2.2.2.2.2.2.1
  unfold flowVelocity3 Out3.andThen
  rw [callPen3_ok hT hg hwz hwy hwx hn hxr S]
  dsimp only
  by_cases hE : EvenTopo3 T
  · rw [callSolve3_even hE, if_pos hE]
  · rw [callSolve3_odd hper hz hy hx hE, if_neg hE]

/-- C67: a 3D Navier-Stokes simulator (with or without forcing) whose penalty zone fits its blocks completes a time step exactly if every axis has one rank or an
even number of ranks; on every other distribution each step raises an MPI error and the time stands still. -/
theorem timeStep3_iff_even (hT : mkCart3 gz gy gx pz py px false = .ok T) {C : Cfg3} (hNS : isNS C.flowType = true) (hg : 1 ≤ C.g)
    (hwz : C.w ≤ T.nz) (hwy : C.w ≤ T.ny) (hwx : C.w ≤ T.nx) (hn : 0 < T.nx) (hxr : 0 < C.xr) (hz : 0 < T.pz) (hy : 0 < T.py) (hx : 0 < T.px)
    (K : Kern3) (sch : Scheds3) (dt : ℝ) (fs : Fin 3 → ℝ) (S : Sim3 T) :
    (EvenTopo3 T → (timeStep3 C K sch dt (some fs) S).2 = none ∧ (timeStep3 C K sch dt (some fs) S).1.time = S.time + dt) ∧
    (¬ EvenTopo3 T → (timeStep3 C K sch dt (some fs) S).2 = some .mpiError ∧ (timeStep3 C K sch dt (some fs) S).1.time = S.time) := by
  classical
  have key : (timeStep3 C K sch dt (some fs) S).2 = if EvenTopo3 T then none else some .mpiError := by
    have hv := fun S => flowVelocity3_outcome hT hg hwz hwy hwx hn hxr hz hy hx K sch fs S
    unfold timeStep3 flowStep3
    simp only [hNS, if_true]
    by_cases h1 : C.flowType = "navier_stokes"
    · rw [if_pos h1]
      unfold nsStep3 Out3.andThen
      rw [hv]
      split
      · rename_i heq; rw [if_neg (by intro h; rw [if_pos h] at heq; cases heq)]
        split at heq
        · cases heq
        · cases heq; rfl
      · rename_i heq; split at heq
        · rename_i h; rw [if_pos h]
        · cases heq
    · rw [if_neg h1]
      unfold nsForcingStep3 nsStep3
      dsimp only
      have h2 := hv (vorticityStep3 C K sch dt { S with om := (callUpd3 (T := T) C K sch.force dt S.om S.forcing).1, forcing := (callUpd3 (T := T) C K sch.force dt S.om S.forcing).2 })
      generalize flowVelocity3 C K sch fs (vorticityStep3 C K sch dt { S with om := (callUpd3 (T := T) C K sch.force dt S.om S.forcing).1, forcing := (callUpd3 (T := T) C K sch.force dt S.om S.forcing).2 }) = r at h2
      obtain ⟨S', o⟩ := r
      simp only at h2
      by_cases hE : EvenTopo3 T
      · rw [if_pos hE] at h2 ⊢
        subst h2; rfl
      · rw [if_neg hE] at h2 ⊢
        subst h2; rfl
  have ht := timeStep3_time C K sch dt (some fs) S
  constructor
  · intro hE
    rw [if_pos hE] at key
    rw [if_pos key] at ht
    exact ⟨key, ht⟩
  · intro hE
    rw [if_neg hE] at key
    rw [key, if_neg (by simp)] at ht
    exact ⟨key, ht⟩

/-- non-vacuity: the constructor accepts 3×1×1 ranks for a Navier-Stokes simulation that can never step -/
example : simCheck3 ⟨6, 4, 4, 3, 1, 1, "navier_stokes", true, none, false, 2, .int 2⟩ = .ok ⟨6, 4, 4, 3, 1, 1, 2, 4, 4, false⟩ ∧
    ¬ EvenTopo3 ⟨6, 4, 4, 3, 1, 1, 2, 4, 4, false⟩ ∧ EvenTopo3 ⟨6, 4, 4, 2, 1, 2, 3, 4, 2, false⟩ := by
  unfold EvenTopo3
  exact ⟨by decide, by decide, by decide⟩

end Sopht
