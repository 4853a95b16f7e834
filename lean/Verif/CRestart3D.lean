import Verif.VbfRestart
import Verif.RestartStill3D
import Verif.Interactor3DRun

/-!
# Restarting a 3D flow with immersed bodies from a checkpoint (C84)

As `examples/3d_examples/FlowPastFreelyRotatingRodCase/flow_past_freely_rotating_rod_case.py` ("ROD.py") does it: the flow fields (`Verif.Restart3D`) and, for each
interactor, positions and mismatch fields of its forcing grid (`Verif.VbfRestart`) are saved; a new simulator and new interactors load them.
-/

namespace Sopht

set_option linter.unusedSimpArgs false

/-! ## Model -/

/-- Loading the checkpoint of an interactor (ROD.py:222-224, 229-252); `X` is what the position field of the forcing grid held before. The ranks abort if a node lies
outside. `mr` is the number of the master rank. -/
noncomputable def restoreIb3 (T : Cart3) (g : ℕ) (dx : ℝ) (a : Ib3) (mr : ℤ) (file : H5 ℝ C3 ℝ) (X : LagField ℝ) (b : IbSt3) : Except PyErr IbSt3 :=
  match loadForcing (ioGeo3 T g) mr a.N file X b.v with
  | .error e => .error e
  | .ok (X', v) =>
    match a.mapping T dx X' with
    | .error e => .error e
    | .ok _ => .ok { b with v := vbfRemap (a.vbf T dx) X' v }

/-! ## Specification: what a driver does, in order -/

/-- `touch b`: an interaction with body `b`, or the forces on it are computed; `look`: any of the queries, or printing. -/
inductive Act (B : Type) where
  | touch (b : B)
  | advance (b : B)
  | flow
  | ghost
  | look

variable {B : Type} [DecidableEq B]

/-- The calls of a driver on the global grid, in order. -/
noncomputable def acts3 (P : Params3) (K : Kern3) (cfl tol : ℝ) (A : B → Ib3) : Prog3 B → RefC3 B → List (Act B)
  | .stop, _ => []
  | .interact b X U k, r => .touch b :: acts3 P K cfl tol A k (refFull3 P.dx (A b) b X U r)
  | .forces b X U k, r => .touch b ::
      acts3 P K cfl tol A (k (refForceField3 (A b).N (refLag3 P.dx (A b) r.F.u X U (r.hist b)))) (refForces3 P.dx (A b) b X U r)
  | .advance b dt k, r => .advance b :: acts3 P K cfl tol A k
      { r with hist := Function.update r.hist b { r.hist b with P := fun k i => (r.hist b).P k i + dt * (r.hist b).V k i, t := (r.hist b).t + dt } }
  | .flow dt fs k, r => .flow :: acts3 P K cfl tol A k
      { r with F := refForcing3 P K dt fs r.Φ r.F, Φ := fun _ _ => 0, time := r.time + dt, fresh := false }
  | .stableDt pre k, r => .look :: acts3 P K cfl tol A (k (refDt3 P cfl tol r.F (.stable pre))) r
  | .deviation b k, r => .look :: acts3 P K cfl tol A (k (refDeviation 3 (A b).N (r.hist b))) r
  | .maxVort k, r => .look :: acts3 P K cfl tol A (k (sSup {x | ∃ j G, Dom3 P.gz P.gy P.gx G ∧ x = r.F.om j G})) r
  | .divNorm k, r => .look :: acts3 P K cfl tol A (k (refDiv3 P K r.F.om)) r
  | .ghost k, r => .ghost :: acts3 P K cfl tol A k { r with fresh := true }
  | .out x k, r => .look :: acts3 P K cfl tol A k { r with log := r.log ++ [x] }

/-- A good moment for a checkpoint: nothing was done yet, or a step of the flow was the last thing done (queries apart), and every body that was advanced was interacted
with afterwards. -/
structure Rested (l : List (Act B)) : Prop where
  flow : (∀ x ∈ l, x = .look) ∨ ∃ l₁ l₂, l = l₁ ++ .flow :: l₂ ∧ ∀ x ∈ l₂, x = .look
  bodies : ∀ b l₁ l₂, l = l₁ ++ .advance b :: l₂ → .touch b ∈ l₂

/-- No body is advanced before it was interacted with. -/
def TouchFirst (l : List (Act B)) : Prop := ∀ b l₁ l₂, l = l₁ ++ .advance b :: l₂ → .touch b ∈ l₁

/-! ## At the checkpoint -/

/-- no forcing is left, and the ghost cells of the velocity are not up to date -/
theorem rested3_flow (P : Params3) (K : Kern3) (cfl tol : ℝ) (A : B → Ib3) (p : Prog3 B) :
    ∀ r : RefC3 B, (((∀ x ∈ acts3 P K cfl tol A p r, x = .look) ∧ r.Φ = (fun _ _ => 0) ∧ r.fresh = false) ∨
        ∃ l₁ l₂, acts3 P K cfl tol A p r = l₁ ++ .flow :: l₂ ∧ ∀ x ∈ l₂, x = .look) →
      (cRef3 P K cfl tol A p r).Φ = (fun _ _ => 0) ∧ (cRef3 P K cfl tol A p r).fresh = false := by
  have red : ∀ {x : Act B} {l : List (Act B)} {Q : Prop}, (((∀ y ∈ x :: l, y = .look) ∧ Q) ∨ ∃ l₁ l₂, x :: l = l₁ ++ .flow :: l₂ ∧ ∀ y ∈ l₂, y = .look) →
      ((∀ y ∈ l, y = .look) ∧ ((x = .look ∧ Q) ∨ x = .flow)) ∨ ∃ l₁ l₂, l = l₁ ++ .flow :: l₂ ∧ ∀ y ∈ l₂, y = .look := by
    intro x l Q h
    rcases h with ⟨h, q⟩ | h
    · exact Or.inl ⟨fun y hy => h y (List.mem_cons_of_mem _ hy), Or.inl ⟨h x List.mem_cons_self, q⟩⟩
    · obtain ⟨l₁, l₂, e, h⟩ := h
      rcases l₁ with _ | ⟨y, l₁⟩
      · obtain ⟨rfl, rfl⟩ := List.cons.inj e
        exact Or.inl ⟨h, Or.inr rfl⟩
      · obtain ⟨rfl, rfl⟩ := List.cons.inj e
        exact Or.inr ⟨l₁, l₂, rfl, h⟩
  induction p with
  | stop =>
    intro r h
    rcases h with h | ⟨l₁, l₂, e, -⟩
    · exact h.2
    · exact absurd e (by simp [acts3])
  | interact b X U k ih =>
    intro r h
    refine ih _ ?_
    rcases red h with ⟨-, ⟨c, -⟩ | c⟩ | h
    · cases c
    · cases c
    · exact Or.inr h
  | forces b X U k ih =>
    intro r h
    refine ih _ _ ?_
    rcases red h with ⟨-, ⟨c, -⟩ | c⟩ | h
    · cases c
    · cases c
    · exact Or.inr h
  | advance b dt k ih =>
    intro r h
    refine ih _ ?_
    rcases red h with ⟨-, ⟨c, -⟩ | c⟩ | h
    · cases c
    · cases c
    · exact Or.inr h
  | flow dt fs k ih =>
    intro r h
    refine ih _ ?_
    rcases red h with ⟨h, -⟩ | h
    · exact Or.inl ⟨h, rfl, rfl⟩
    · exact Or.inr h
  | stableDt pre k ih =>
    intro r h
    refine ih _ _ ?_
    rcases red h with ⟨h, ⟨-, q⟩ | c⟩ | h
    · exact Or.inl ⟨h, q⟩
    · cases c
    · exact Or.inr h
  | deviation b k ih =>
    intro r h
    refine ih _ _ ?_
    rcases red h with ⟨h, ⟨-, q⟩ | c⟩ | h
    · exact Or.inl ⟨h, q⟩
    · cases c
    · exact Or.inr h
  | maxVort k ih =>
    intro r h
    refine ih _ _ ?_
    rcases red h with ⟨h, ⟨-, q⟩ | c⟩ | h
    · exact Or.inl ⟨h, q⟩
    · cases c
    · exact Or.inr h
  | divNorm k ih =>
    intro r h
    refine ih _ _ ?_
    rcases red h with ⟨h, ⟨-, q⟩ | c⟩ | h
    · exact Or.inl ⟨h, q⟩
    · cases c
    · exact Or.inr h
  | ghost k ih =>
    intro r h
    refine ih _ ?_
    rcases red h with ⟨-, ⟨c, -⟩ | c⟩ | h
    · cases c
    · cases c
    · exact Or.inr h
  | out x k ih =>
    intro r h
    refine ih _ ?_
    rcases red h with ⟨h, ⟨-, q⟩ | c⟩ | h
    · exact Or.inl ⟨h, q⟩
    · cases c
    · exact Or.inr h

theorem inside3_le {gz gy gx k : ℕ} {dx : ℝ} {a : Ib3} {X : LagField ℝ} (h : Inside3 gz gy gx k dx a X) : Inside3 gz gy gx 0 dx a X := by
  intro i hi G hG
  have := h i hi G hG
  unfold Away3 at this ⊢
  push_cast at this ⊢
  omega

theorem inside3_congr {gz gy gx k : ℕ} {dx : ℝ} {a : Ib3} {X Y : LagField ℝ} (h : Inside3 gz gy gx k dx a X) (e : ∀ k < 3, ∀ i < a.N, Y k i = X k i) : Inside3 gz gy gx k dx a Y := by
  intro i hi G hG
  rw [e 0 (by norm_num) i hi, e 1 (by norm_num) i hi, e 2 (by norm_num) i hi] at hG
  exact h i hi G hG

/-- the bodies are inside the domain -/
theorem proper3_inside (P : Params3) (K : Kern3) (cfl tol : ℝ) (A : B → Ib3) (p : Prog3 B) :
    ∀ r : RefC3 B, Proper3 P K cfl tol A p r → (∀ b, Inside3 P.gz P.gy P.gx 0 P.dx (A b) (r.lastX b)) →
      ∀ b, Inside3 P.gz P.gy P.gx 0 P.dx (A b) ((cRef3 P K cfl tol A p r).lastX b) := by
  have upd : ∀ {lastX : B → LagField ℝ} {b : B} {X : LagField ℝ}, (∀ b, Inside3 P.gz P.gy P.gx 0 P.dx (A b) (lastX b)) → Inside3 P.gz P.gy P.gx 0 P.dx (A b) X →
      ∀ b', Inside3 P.gz P.gy P.gx 0 P.dx (A b') (Function.update lastX b X b') := by
    intro lastX b X h hX b'
    by_cases e : b' = b
    · subst e; rw [Function.update_self]; exact hX
    · rw [Function.update_of_ne e]; exact h b'
  induction p with
  | stop => intro r _ h; exact h
  | interact b X U k ih => intro r hp h; exact ih _ hp.2.2 (upd h (inside3_le hp.1))
  | forces b X U k ih => intro r hp h; exact ih _ _ hp.2.2 (upd h hp.1)
  | advance b dt k ih => intro r hp h; exact ih _ hp h
  | flow dt fs k ih => intro r hp h; exact ih _ hp h
  | stableDt pre k ih => intro r hp h; exact ih _ _ hp h
  | deviation b k ih => intro r hp h; exact ih _ _ hp h
  | maxVort k ih => intro r hp h; exact ih _ _ hp h
  | divNorm k ih => intro r hp h; exact ih _ _ hp h
  | ghost k ih => intro r hp h; exact ih _ hp h
  | out x k ih => intro r hp h; exact ih _ hp h

section Saved
variable {T : Cart3} {gz gy gx : ℕ}

theorem lagInteract3_v {C : Cfg3} {a : Ib3} {s : List Ev} {X U : LagField ℝ} {S : Sim3 T} {b : IbSt3} {r : Sim3 T × IbSt3} (h : lagInteract3 C a s X U S b = .ok r) :
    ∃ J, r.2.v = vbfInteract (a.vbf T (simDx3 T C.xr)) X U J b.v := by
  unfold lagInteract3 at h
  dsimp only at h
  split at h
  · cases h
  · cases h
    exact ⟨_, rfl⟩

theorem fullInteract3_v {C : Cfg3} {a : Ib3} {s : List Ev} {X U : LagField ℝ} {S : Sim3 T} {b : IbSt3} {r : Sim3 T × IbSt3} (h : fullInteract3 C a s X U S b = .ok r) :
    ∃ J, r.2.v = vbfInteract (a.vbf T (simDx3 T C.xr)) X U J b.v := by
  unfold fullInteract3 at h
  dsimp only at h
  split at h
  · cases h
  · rename_i S2 b2 hl
    cases h
    obtain ⟨J, hJ⟩ := lagInteract3_v hl
    exact ⟨J, hJ⟩

variable [NeZero T.gz] [NeZero T.gy] [NeZero T.gx]

/-- the position mismatches on the masters are the current ones -/
theorem rested3_saved {C : Cfg3} {K : Kern3} {tol : ℝ} {A : B → Ib3} (hA : ∀ b, (A b).Ok) (hdx : simDx3 T C.xr = (C.params gz gy gx).dx) {o : ℕ → CScheds3}
    (hrun : ∀ (p : Prog3 B) (n : ℕ) (r : RefC3 B) (S : CSt3 T B), CHolds3 gz gy gx C A r S → Proper3 (C.params gz gy gx) K C.cfl tol A p r →
      Tracked3 T (C.params gz gy gx) K C.cfl tol A p r →
      (cRun3 C K tol A o p n S).2 = none ∧ CHolds3 gz gy gx C A (cRef3 (C.params gz gy gx) K C.cfl tol A p r) (cRun3 C K tol A o p n S).1)
    (b : B) (p : Prog3 B) :
    ∀ (n : ℕ) (r : RefC3 B) (S : CSt3 T B), CHolds3 gz gy gx C A r S → Proper3 (C.params gz gy gx) K C.cfl tol A p r → Tracked3 T (C.params gz gy gx) K C.cfl tol A p r →
      ((∀ k < 3, ∀ i < (A b).N, (S.ib b).v.gposM k i = (r.hist b).P k i) ∨ Act.touch b ∈ acts3 (C.params gz gy gx) K C.cfl tol A p r) →
      (∀ l₁ l₂, acts3 (C.params gz gy gx) K C.cfl tol A p r = l₁ ++ .advance b :: l₂ → .touch b ∈ l₂) →
      ∀ k < 3, ∀ i < (A b).N, ((cRun3 C K tol A o p n S).1.ib b).v.gposM k i = ((cRef3 (C.params gz gy gx) K C.cfl tol A p r).hist b).P k i := by
  have tl : ∀ {x : Act B} {l : List (Act B)}, (∀ l₁ l₂, x :: l = l₁ ++ .advance b :: l₂ → .touch b ∈ l₂) → ∀ l₁ l₂, l = l₁ ++ .advance b :: l₂ → .touch b ∈ l₂ :=
    fun {x} {l} h l₁ l₂ e => h (x :: l₁) l₂ (by rw [e]; rfl)
  induction p with
  | stop =>
    intro n r S h _ _ hg _
    rcases hg with hg | hg
    · exact hg
    · cases hg
  | interact b' X U k ih =>
    intro n r S h hp ht hg hl
    obtain ⟨c1, c2⟩ := hrun (.interact b' X U .stop) n r S h ⟨hp.1, hp.2.1, trivial⟩ ⟨ht.1, trivial⟩
    unfold cRun3 at c1 c2
    unfold cRun3 cRef3
    cases hf : fullInteract3 C (A b') (o n).ghost X U S.sim (S.ib b') with
    | error e => rw [hf] at c1; cases c1
    | ok q =>
      rw [hf] at c2
      simp only at c2 ⊢
      refine ih (n + 1) _ _ c2 hp.2.2 ht.2 ?_ (tl hl)
      by_cases e : b = b'
      · subst e
        left
        obtain ⟨J, hJ⟩ := fullInteract3_v hf
        intro k hk i hi
        simp only [Function.update_self, refFull3, refForces3, refLag3]
        rw [hJ, hdx]
        exact (interact_global _ (hA b).ord (h.ib b).stores X U J k hk i hi).1
      · rcases hg with hg | hg
        · left
          simp only [Function.update_of_ne e, refFull3, refForces3]
          exact hg
        · right
          rcases List.mem_cons.1 hg with hg | hg
          · cases hg; exact absurd rfl e
          · exact hg
  | forces b' X U k ih =>
    intro n r S h hp ht hg hl
    obtain ⟨c1, c2⟩ := hrun (.forces b' X U fun _ => .stop) n r S h ⟨hp.1, hp.2.1, trivial⟩ ⟨ht.1, trivial⟩
    obtain ⟨d1, -⟩ := hrun (.forces b' X U k) n r S h hp ht
    unfold cRun3 at c1 c2 d1
    unfold cRun3 cRef3
    cases hf : lagInteract3 C (A b') (o n).ghost X U S.sim (S.ib b') with
    | error e => rw [hf] at c1; cases c1
    | ok q =>
      rw [hf] at c2
      simp only at c2 ⊢
      have c3 : CHolds3 gz gy gx C A (refForces3 (C.params gz gy gx).dx (A b') b' X U r) { S with sim := q.1, ib := Function.update S.ib b' q.2 } := c2
      have hforce : forcesOf3 3 (A b').N q.2.v = refForceField3 (A b').N (refLag3 (C.params gz gy gx).dx (A b') r.F.u X U (r.hist b')) := by
        funext k i
        unfold forcesOf3 refForceField3
        split
        · rename_i hki
          have := (c3.ib b').stores.force k hki.1 i hki.2
          simp only [Function.update_self, refForces3] at this
          exact this
        · rfl
      rw [hforce]
      refine ih _ (n + 1) _ _ c3 hp.2.2 ht.2 ?_ (tl hl)
      by_cases e : b = b'
      · subst e
        left
        obtain ⟨J, hJ⟩ := lagInteract3_v hf
        intro k hk i hi
        simp only [Function.update_self, refForces3, refLag3]
        rw [hJ, hdx]
        exact (interact_global _ (hA b).ord (h.ib b).stores X U J k hk i hi).1
      · rcases hg with hg | hg
        · left
          simp only [Function.update_of_ne e, refForces3]
          exact hg
        · right
          rcases List.mem_cons.1 hg with hg | hg
          · cases hg; exact absurd rfl e
          · exact hg
  | advance b' dt k ih =>
    intro n r S h hp ht hg hl
    obtain ⟨c1, c2⟩ := hrun (.advance b' dt .stop) n r S h trivial trivial
    unfold cRun3 at c2 ⊢
    unfold cRef3
    unfold cRef3 at c2
    refine ih (n + 1) _ _ c2 hp ht ?_ (tl hl)
    by_cases e : b = b'
    · subst e
      exact Or.inr (hl [] _ rfl)
    · rcases hg with hg | hg
      · left
        simp only [Function.update_of_ne e]
        exact hg
      · right
        rcases List.mem_cons.1 hg with hg | hg
        · cases hg
        · exact hg
  | flow dt fs k ih =>
    intro n r S h hp ht hg hl
    obtain ⟨c1, c2⟩ := hrun (.flow dt fs .stop) n r S h trivial trivial
    unfold cRun3 at c1 c2 ⊢
    unfold cRef3
    rcases hf : timeStep3 C K (o n).step dt (some fs) S.sim with ⟨S', _ | e⟩
    · rw [hf] at c2
      refine ih (n + 1) _ _ c2 hp ht (hg.imp_right fun hg => ?_) (tl hl)
      rcases List.mem_cons.1 hg with hg | hg
      · cases hg
      · exact hg
    · rw [hf] at c1; cases c1
  | stableDt pre k ih =>
    intro n r S h hp ht hg hl
    obtain ⟨c1, c2⟩ := hrun (.stableDt pre fun x => .out x .stop) n r S h trivial trivial
    unfold cRun3 at c1 c2 ⊢
    unfold cRef3
    rcases hf : stableDt3 C tol pre S.sim with ⟨S', e | dt⟩
    · rw [hf] at c1; cases c1
    · rw [hf] at c2
      have hl' := c2.log
      simp only [cRun3, cRef3] at hl'
      rw [h.log] at hl'
      have hdt : dt = refDt3 (C.params gz gy gx) C.cfl tol r.F (.stable pre) := by simpa using hl'
      simp only
      rw [hdt]
      have c3 : CHolds3 gz gy gx C A r { S with sim := S' } := ⟨c2.sim, c2.time, c2.force, c2.conf, c2.fresh, c2.ib, h.log⟩
      refine ih _ (n + 1) _ _ c3 hp ht (hg.imp_right fun hg => ?_) (tl hl)
      rcases List.mem_cons.1 hg with hg | hg
      · cases hg
      · exact hg
  | deviation b' k ih =>
    intro n r S h hp ht hg hl
    obtain ⟨c1, c2⟩ := hrun (.deviation b' fun x => .out x .stop) n r S h trivial trivial
    unfold cRun3 at c1 c2 ⊢
    unfold cRef3
    have hl' := c2.log
    simp only [cRun3, cRef3] at hl'
    rw [h.log] at hl'
    have hdt : gridDeviation 3 (ranks3 T) (A b').N (S.ib b').v (A b').m = refDeviation 3 (A b').N (r.hist b') := by simpa using hl'
    rw [hdt]
    refine ih _ (n + 1) _ _ h hp ht (hg.imp_right fun hg => ?_) (tl hl)
    rcases List.mem_cons.1 hg with hg | hg
    · cases hg
    · exact hg
  | maxVort k ih =>
    intro n r S h hp ht hg hl
    obtain ⟨c1, c2⟩ := hrun (.maxVort fun x => .out x .stop) n r S h trivial trivial
    unfold cRun3 at c1 c2 ⊢
    unfold cRef3
    rcases hf : maxVorticity3 C S.sim with e | x
    · rw [hf] at c1; cases c1
    · rw [hf] at c2
      have hl' := c2.log
      simp only [cRun3, cRef3] at hl'
      rw [h.log] at hl'
      have hdt : x = sSup {x | ∃ j G, Dom3 (C.params gz gy gx).gz (C.params gz gy gx).gy (C.params gz gy gx).gx G ∧ x = r.F.om j G} := by simpa using hl'
      simp only
      rw [hdt]
      refine ih _ (n + 1) _ _ h hp ht (hg.imp_right fun hg => ?_) (tl hl)
      rcases List.mem_cons.1 hg with hg | hg
      · cases hg
      · exact hg
  | divNorm k ih =>
    intro n r S h hp ht hg hl
    obtain ⟨c1, c2⟩ := hrun (.divNorm fun x => .out x .stop) n r S h trivial trivial
    unfold cRun3 at c1 c2 ⊢
    unfold cRef3
    rcases hf : divNorm3 C K (o n).div S.sim with ⟨S', e | x⟩
    · rw [hf] at c1; cases c1
    · rw [hf] at c2
      have hl' := c2.log
      simp only [cRun3, cRef3] at hl'
      rw [h.log] at hl'
      have hdt : x = refDiv3 (C.params gz gy gx) K r.F.om := by simpa using hl'
      simp only
      rw [hdt]
      have c3 : CHolds3 gz gy gx C A r { S with sim := S' } := ⟨c2.sim, c2.time, c2.force, c2.conf, c2.fresh, c2.ib, h.log⟩
      refine ih _ (n + 1) _ _ c3 hp ht (hg.imp_right fun hg => ?_) (tl hl)
      rcases List.mem_cons.1 hg with hg | hg
      · cases hg
      · exact hg
  | ghost k ih =>
    intro n r S h hp ht hg hl
    obtain ⟨c1, c2⟩ := hrun (.ghost .stop) n r S h trivial trivial
    unfold cRun3 at c2 ⊢
    unfold cRef3
    refine ih (n + 1) _ _ c2 hp ht (hg.imp_right fun hg => ?_) (tl hl)
    rcases List.mem_cons.1 hg with hg | hg
    · cases hg
    · exact hg
  | out x k ih =>
    intro n r S h hp ht hg hl
    obtain ⟨c1, c2⟩ := hrun (.out x .stop) n r S h trivial trivial
    unfold cRun3 at c2 ⊢
    unfold cRef3
    refine ih (n + 1) _ _ c2 hp ht (hg.imp_right fun hg => ?_) (tl hl)
    rcases List.mem_cons.1 hg with hg | hg
    · cases hg
    · exact hg

end Saved

/-! ## After the checkpoint -/

theorem interp3_dom {gz gy gx k : ℕ} {dx : ℝ} {a : Ib3} {X : LagField ℝ} (h : Inside3 gz gy gx k dx a X) {u u' : C3 → ℝ} (e : ∀ G, Dom3 gz gy gx G → u' G = u G) {i : ℕ}
    (hi : i < a.N) : interp3 dx (a.sh dx) 2 (cosW3 dx) u' (X 0 i, X 1 i, X 2 i) = interp3 dx (a.sh dx) 2 (cosW3 dx) u (X 0 i, X 1 i, X 2 i) := by
  unfold interp3
  apply Finset.sum_congr rfl
  intro G hG
  have hA := h i hi G hG
  rw [e G (by unfold Away3 at hA; unfold Dom3; push_cast at hA; omega)]

theorem refDiv3_agree {P : Params3} {K : Kern3} (hK : ∀ a, CrossLocal3 1 (K.div a)) {F F' : Fields3} (h : AgreeDom3 P.gz P.gy P.gx F' F) :
    refDiv3 P K F'.om = refDiv3 P K F.om := by
  unfold refDiv3
  congr 2
  apply Finset.sum_congr rfl
  intro G hG
  congr 1
  unfold serialZero3
  split
  · rfl
  · rename_i he
    unfold serialAt3
    apply hK
    intro i d hd
    have hD : Dom3 P.gz P.gy P.gx (G.1 + d.1, G.2.1 + d.2.1, G.2.2 + d.2.2) := by
      simp only [cells3, Finset.mem_product, Finset.mem_Ico] at hG
      unfold OnEdge3 at he
      unfold Cross3 at hd
      unfold Dom3
      dsimp only
      simp only [true_and, not_or] at he
      omega
    simp only [contIx3, Bool.false_eq_true, if_false]
    exact (h _ hD i).1

/-- What the restarted run shares with the uninterrupted one. -/
structure SameRun3 (P : Params3) (A : B → Ib3) (seen : B → Prop) (L : List ℝ) (δ : B → ℝ) (r r' : RefC3 B) : Prop where
  F : GoAlike3 P r'.F r.F
  Φ : r'.Φ = r.Φ
  time : r'.time = r.time
  fresh : r'.fresh = r.fresh
  pos : ∀ b, ∀ k < 3, ∀ i < (A b).N, (r'.hist b).P k i = (r.hist b).P k i
  vel : ∀ b, seen b → ∀ k < 3, ∀ i < (A b).N, (r'.hist b).V k i = (r.hist b).V k i
  force : ∀ b, seen b → ∀ k < 3, ∀ i < (A b).N, (r'.hist b).F k i = (r.hist b).F k i
  t : ∀ b, (r'.hist b).t = (r.hist b).t + δ b
  lastX : ∀ b, ∀ k < 3, ∀ i < (A b).N, r'.lastX b k i = r.lastX b k i
  log : r.log = L ++ r'.log

theorem agree3_lag {P : Params3} {A : B → Ib3} {seen : B → Prop} {L : List ℝ} {δ : B → ℝ} {r r' : RefC3 B} (h : SameRun3 P A seen L δ r r') {b : B} {X U : LagField ℝ} {n : ℕ}
    (hin : Inside3 P.gz P.gy P.gx n P.dx (A b) X) :
    (∀ k, ∀ i < (A b).N, (refLag3 P.dx (A b) r'.F.u X U (r'.hist b)).V k i = (refLag3 P.dx (A b) r.F.u X U (r.hist b)).V k i) ∧
    (∀ k < 3, ∀ i < (A b).N, (refLag3 P.dx (A b) r'.F.u X U (r'.hist b)).F k i = (refLag3 P.dx (A b) r.F.u X U (r.hist b)).F k i) := by
  have hm : ∀ k, ∀ i < (A b).N, mismatch3 P.dx (A b) r'.F.u X U k i = mismatch3 P.dx (A b) r.F.u X U k i := by
    intro k i hi
    unfold mismatch3
    rw [interp3_dom hin (fun G hG => (h.F.dom G hG (axis3 k)).2) hi]
  refine ⟨hm, ?_⟩
  intro k hk i hi
  simp only [refLag3]
  rw [hm k i hi, h.pos b k hk i hi]

theorem agree3_forces {P : Params3} {A : B → Ib3} {seen : B → Prop} {L : List ℝ} {δ : B → ℝ} {r r' : RefC3 B} (h : SameRun3 P A seen L δ r r') {b : B} {X U : LagField ℝ} {n : ℕ}
    (hin : Inside3 P.gz P.gy P.gx n P.dx (A b) X) :
    SameRun3 P A (fun b' => seen b' ∨ b' = b) L δ (refForces3 P.dx (A b) b X U r) (refForces3 P.dx (A b) b X U r') := by
  obtain ⟨hV, hF⟩ := agree3_lag h (U := U) hin
  refine ⟨h.F, h.Φ, h.time, by simp only [refForces3]; rw [h.fresh], ?_, ?_, ?_, ?_, ?_, h.log⟩
  · intro b' k hk i hi
    by_cases e : b' = b
    · subst e; simp only [refForces3, Function.update_self, refLag3]; exact h.pos b' k hk i hi
    · simp only [refForces3, Function.update_of_ne e]; exact h.pos b' k hk i hi
  · intro b' hs k hk i hi
    by_cases e : b' = b
    · subst e; simp only [refForces3, Function.update_self]; exact hV k i hi
    · simp only [refForces3, Function.update_of_ne e]; exact h.vel b' (hs.resolve_right e) k hk i hi
  · intro b' hs k hk i hi
    by_cases e : b' = b
    · subst e; simp only [refForces3, Function.update_self]; exact hF k hk i hi
    · simp only [refForces3, Function.update_of_ne e]; exact h.force b' (hs.resolve_right e) k hk i hi
  · intro b'
    by_cases e : b' = b
    · subst e; simp only [refForces3, Function.update_self, refLag3]; exact h.t b'
    · simp only [refForces3, Function.update_of_ne e]; exact h.t b'
  · intro b' k hk i hi
    by_cases e : b' = b
    · subst e; simp only [refForces3, Function.update_self]
    · simp only [refForces3, Function.update_of_ne e]; exact h.lastX b' k hk i hi

theorem mapping3_congr {T : Cart3} {dx : ℝ} {a : Ib3} {X Y : LagField ℝ} (e : ∀ k < 3, ∀ i < a.N, Y k i = X k i) : a.mapping T dx Y = a.mapping T dx X := by
  unfold Ib3.mapping
  congr 1
  unfold points3
  apply List.map_congr_left
  intro i hi
  have hi := List.mem_range.1 hi
  rw [e 0 (by norm_num) i hi, e 1 (by norm_num) i hi, e 2 (by norm_num) i hi]

omit [DecidableEq B] in
theorem refDeviation_congr {d N : ℕ} {h h' : NodeHist ℝ} (e : ∀ k < d, ∀ i < N, h'.P k i = h.P k i) : refDeviation d N h' = refDeviation d N h := by
  unfold refDeviation
  congr 3
  apply List.map_congr_left
  intro i hi
  congr 1
  apply List.map_congr_left
  intro k hk
  rw [e k (List.mem_range.1 hk) i (List.mem_range.1 hi)]

/-- a driver that touches bodies before advancing them does not tell the restarted run from the uninterrupted one -/
theorem agree3_run {P : Params3} {K : Kern3} (hK : K.Local) (hKd : ∀ a, CrossLocal3 1 (K.div a)) (cfl tol : ℝ) (A : B → Ib3) (T' : Cart3) (L : List ℝ)
    (δ : B → ℝ) (p : Prog3 B) :
    ∀ (seen : B → Prop) (r r' : RefC3 B), SameRun3 P A seen L δ r r' → Proper3 P K cfl tol A p r → Tracked3 T' P K cfl tol A p r →
      (∀ b l₁ l₂, acts3 P K cfl tol A p r = l₁ ++ .advance b :: l₂ → seen b ∨ .touch b ∈ l₁) →
      Proper3 P K cfl tol A p r' ∧ Tracked3 T' P K cfl tol A p r' ∧
        SameRun3 P A (fun b => seen b ∨ .touch b ∈ acts3 P K cfl tol A p r) L δ (cRef3 P K cfl tol A p r) (cRef3 P K cfl tol A p r') := by
  have look : ∀ {seen : B → Prop} {l : List (Act B)} {x : Act B} {r r' : RefC3 B}, (∀ b, x ≠ .touch b) → SameRun3 P A (fun b => seen b ∨ .touch b ∈ l) L δ r r' →
      SameRun3 P A (fun b => seen b ∨ .touch b ∈ x :: l) L δ r r' := by
    intro seen l x r r' hx h
    have e : ∀ b, (seen b ∨ .touch b ∈ x :: l) → (seen b ∨ .touch b ∈ l) := by
      intro b hb
      refine hb.imp_right fun hb => ?_
      rcases List.mem_cons.1 hb with hb | hb
      · exact absurd hb.symm (hx b)
      · exact hb
    exact ⟨h.F, h.Φ, h.time, h.fresh, h.pos, fun b hb => h.vel b (e b hb), fun b hb => h.force b (e b hb), h.t, h.lastX, h.log⟩
  have touch : ∀ {seen : B → Prop} {l : List (Act B)} {b0 : B} {r r' : RefC3 B}, SameRun3 P A (fun b => (seen b ∨ b = b0) ∨ .touch b ∈ l) L δ r r' →
      SameRun3 P A (fun b => seen b ∨ .touch b ∈ Act.touch b0 :: l) L δ r r' := by
    intro seen l b0 r r' h
    have e : ∀ b, (seen b ∨ .touch b ∈ Act.touch b0 :: l) → ((seen b ∨ b = b0) ∨ .touch b ∈ l) := by
      intro b hb
      rcases hb with hb | hb
      · exact Or.inl (Or.inl hb)
      · rcases List.mem_cons.1 hb with hb | hb
        · cases hb; exact Or.inl (Or.inr rfl)
        · exact Or.inr hb
    exact ⟨h.F, h.Φ, h.time, h.fresh, h.pos, fun b hb => h.vel b (e b hb), fun b hb => h.force b (e b hb), h.t, h.lastX, h.log⟩
  have tl : ∀ {seen : B → Prop} {l : List (Act B)} {x : Act B}, (∀ b, x ≠ .touch b) → (∀ b l₁ l₂, x :: l = l₁ ++ .advance b :: l₂ → seen b ∨ .touch b ∈ l₁) →
      ∀ b l₁ l₂, l = l₁ ++ .advance b :: l₂ → seen b ∨ .touch b ∈ l₁ := by
    intro seen l x hx h b l₁ l₂ e
    refine (h b (x :: l₁) l₂ (by rw [e]; rfl)).imp_right fun hb => ?_
    rcases List.mem_cons.1 hb with hb | hb
    · exact absurd hb.symm (hx b)
    · exact hb
  have ttl : ∀ {seen : B → Prop} {l : List (Act B)} {b0 : B}, (∀ b l₁ l₂, .touch b0 :: l = l₁ ++ .advance b :: l₂ → seen b ∨ .touch b ∈ l₁) →
      ∀ b l₁ l₂, l = l₁ ++ .advance b :: l₂ → (seen b ∨ b = b0) ∨ .touch b ∈ l₁ := by
    intro seen l b0 h b l₁ l₂ e
    rcases h b (.touch b0 :: l₁) l₂ (by rw [e]; rfl) with hb | hb
    · exact Or.inl (Or.inl hb)
    · rcases List.mem_cons.1 hb with hb | hb
      · cases hb; exact Or.inl (Or.inr rfl)
      · exact Or.inr hb
  have hno : ∀ {b : B} {X X' Y : LagField ℝ}, (∀ k < 3, ∀ i < (A b).N, X' k i = X k i) → Noticed3 T' P.dx (A b) X Y → Noticed3 T' P.dx (A b) X' Y := by
    intro b X X' Y e h l l' h1 h2
    rw [mapping3_congr e] at h1
    exact h l l' h1 h2
  induction p with
  | stop =>
    intro seen r r' h _ _ _
    exact ⟨trivial, trivial, ⟨h.F, h.Φ, h.time, h.fresh, h.pos, fun b hb => h.vel b (hb.resolve_right (by simp [acts3])),
      fun b hb => h.force b (hb.resolve_right (by simp [acts3])), h.t, h.lastX, h.log⟩⟩
  | interact b X U k ih =>
    intro seen r r' h hp ht hr
    have hag := agree3_forces h (U := U) hp.1
    obtain ⟨-, hF⟩ := agree3_lag h (U := U) hp.1
    have hΦ : (refFull3 P.dx (A b) b X U r').Φ = (refFull3 P.dx (A b) b X U r).Φ := by
      simp only [refFull3]
      funext j G
      unfold refSpread3
      rw [h.Φ]
      congr 2
      apply List.map_congr_left
      intro i hi
      rw [hF j.1 j.2 i (List.mem_range.1 hi)]
    obtain ⟨i1, i2, i3⟩ := ih _ (refFull3 P.dx (A b) b X U r) (refFull3 P.dx (A b) b X U r')
      ⟨hag.F, hΦ, hag.time, hag.fresh, hag.pos, hag.vel, hag.force, hag.t, hag.lastX, hag.log⟩ hp.2.2 ht.2 (ttl hr)
    exact ⟨⟨hp.1, by rw [h.fresh]; exact hp.2.1, i1⟩, ⟨hno (h.lastX b) ht.1, i2⟩, touch i3⟩
  | forces b X U k ih =>
    intro seen r r' h hp ht hr
    have hag := agree3_forces h (U := U) hp.1
    obtain ⟨-, hF⟩ := agree3_lag h (U := U) hp.1
    have hff : refForceField3 (A b).N (refLag3 P.dx (A b) r'.F.u X U (r'.hist b)) = refForceField3 (A b).N (refLag3 P.dx (A b) r.F.u X U (r.hist b)) := by
      funext k i
      unfold refForceField3
      split
      · rename_i hki; exact hF k hki.1 i hki.2
      · rfl
    obtain ⟨i1, i2, i3⟩ := ih (refForceField3 (A b).N (refLag3 P.dx (A b) r.F.u X U (r.hist b))) _ (refForces3 P.dx (A b) b X U r) (refForces3 P.dx (A b) b X U r')
      hag hp.2.2 ht.2 (ttl hr)
    unfold Proper3 Tracked3
    rw [cRef3, cRef3, hff]
    exact ⟨⟨hp.1, by rw [h.fresh]; exact hp.2.1, i1⟩, ⟨hno (h.lastX b) ht.1, i2⟩, touch i3⟩
  | advance b dt k ih =>
    intro seen r r' h hp ht hr
    have hs : seen b := (hr b [] _ rfl).resolve_right (by simp)
    obtain ⟨i1, i2, i3⟩ := ih seen
      { r with hist := Function.update r.hist b { r.hist b with P := fun k i => (r.hist b).P k i + dt * (r.hist b).V k i, t := (r.hist b).t + dt } }
      { r' with hist := Function.update r'.hist b { r'.hist b with P := fun k i => (r'.hist b).P k i + dt * (r'.hist b).V k i, t := (r'.hist b).t + dt } }
      (by
        refine ⟨h.F, h.Φ, h.time, h.fresh, ?_, ?_, ?_, ?_, h.lastX, h.log⟩
        · intro b' k hk i hi
          by_cases e : b' = b
          · subst e
            simp only [Function.update_self]
            rw [h.pos b' k hk i hi, h.vel b' hs k hk i hi]
          · simp only [Function.update_of_ne e]; exact h.pos b' k hk i hi
        · intro b' hs' k hk i hi
          by_cases e : b' = b
          · subst e; simp only [Function.update_self]; exact h.vel b' hs k hk i hi
          · simp only [Function.update_of_ne e]; exact h.vel b' hs' k hk i hi
        · intro b' hs' k hk i hi
          by_cases e : b' = b
          · subst e; simp only [Function.update_self]; exact h.force b' hs k hk i hi
          · simp only [Function.update_of_ne e]; exact h.force b' hs' k hk i hi
        · intro b'
          by_cases e : b' = b
          · subst e; simp only [Function.update_self]; rw [h.t b']; ring
          · simp only [Function.update_of_ne e]; exact h.t b') hp ht (tl (by intro b h; cases h) hr)
    exact ⟨i1, i2, look (by intro b h; cases h) i3⟩
  | flow dt fs k ih =>
    intro seen r r' h hp ht hr
    have hF : GoAlike3 P (refForcing3 P K dt fs r'.Φ r'.F) (refForcing3 P K dt fs r.Φ r.F) := by
      rw [h.Φ]
      exact refForcing3_alike hK dt fs _ h.F
    obtain ⟨i1, i2, i3⟩ := ih seen { r with F := refForcing3 P K dt fs r.Φ r.F, Φ := fun _ _ => 0, time := r.time + dt, fresh := false }
      { r' with F := refForcing3 P K dt fs r'.Φ r'.F, Φ := fun _ _ => 0, time := r'.time + dt, fresh := false }
      ⟨hF, rfl, by simp only; rw [h.time], rfl, h.pos, h.vel, h.force, h.t, h.lastX, h.log⟩ hp ht (tl (by intro b h; cases h) hr)
    exact ⟨i1, i2, look (by intro b h; cases h) i3⟩
  | stableDt pre k ih =>
    intro seen r r' h hp ht hr
    obtain ⟨i1, i2, i3⟩ := ih _ seen r r' h hp ht (tl (by intro b h; cases h) hr)
    unfold Proper3 Tracked3
    rw [cRef3, cRef3, refDt3_agree h.F.dom]
    exact ⟨i1, i2, look (by intro b h; cases h) i3⟩
  | deviation b k ih =>
    intro seen r r' h hp ht hr
    obtain ⟨i1, i2, i3⟩ := ih _ seen r r' h hp ht (tl (by intro b h; cases h) hr)
    unfold Proper3 Tracked3
    rw [cRef3, cRef3, refDeviation_congr (h.pos b)]
    exact ⟨i1, i2, look (by intro b h; cases h) i3⟩
  | maxVort k ih =>
    intro seen r r' h hp ht hr
    have hset : {x | ∃ j G, Dom3 P.gz P.gy P.gx G ∧ x = r'.F.om j G} = {x | ∃ j G, Dom3 P.gz P.gy P.gx G ∧ x = r.F.om j G} := by
      ext x
      constructor
      · rintro ⟨j, G, hG, rfl⟩; exact ⟨j, G, hG, (h.F.dom G hG j).1⟩
      · rintro ⟨j, G, hG, rfl⟩; exact ⟨j, G, hG, (h.F.dom G hG j).1.symm⟩
    obtain ⟨i1, i2, i3⟩ := ih _ seen r r' h hp ht (tl (by intro b h; cases h) hr)
    unfold Proper3 Tracked3
    rw [cRef3, cRef3, hset]
    exact ⟨i1, i2, look (by intro b h; cases h) i3⟩
  | divNorm k ih =>
    intro seen r r' h hp ht hr
    obtain ⟨i1, i2, i3⟩ := ih _ seen r r' h hp ht (tl (by intro b h; cases h) hr)
    unfold Proper3 Tracked3
    rw [cRef3, cRef3, refDiv3_agree hKd h.F.dom]
    exact ⟨i1, i2, look (by intro b h; cases h) i3⟩
  | ghost k ih =>
    intro seen r r' h hp ht hr
    obtain ⟨i1, i2, i3⟩ := ih seen { r with fresh := true } { r' with fresh := true } ⟨h.F, h.Φ, h.time, rfl, h.pos, h.vel, h.force, h.t, h.lastX, h.log⟩ hp ht
      (tl (by intro b h; cases h) hr)
    exact ⟨i1, i2, look (by intro b h; cases h) i3⟩
  | out x k ih =>
    intro seen r r' h hp ht hr
    obtain ⟨i1, i2, i3⟩ := ih seen { r with log := r.log ++ [x] } { r' with log := r'.log ++ [x] }
      ⟨h.F, h.Φ, h.time, h.fresh, h.pos, h.vel, h.force, h.t, h.lastX, by simp only; rw [h.log, List.append_assoc]⟩ hp ht (tl (by intro b h; cases h) hr)
    exact ⟨i1, i2, look (by intro b h; cases h) i3⟩

theorem cRef3_still {P : Params3} (hf : P.freeStream = false) (K : Kern3) (cfl tol : ℝ) (A : B → Ib3) (p : Prog3 B) :
    ∀ r : RefC3 B, StillOut3 P.gz P.gy P.gx r.F.u → StillOut3 P.gz P.gy P.gx (cRef3 P K cfl tol A p r).F.u := by
  induction p with
  | stop => intro r h; exact h
  | interact b X U k ih => intro r h; exact ih _ h
  | forces b X U k ih => intro r h; exact ih _ _ h
  | advance b dt k ih => intro r h; exact ih _ h
  | flow dt fs k ih => intro r h; exact ih _ (refVel3_still P hf K fs _)
  | stableDt pre k ih => intro r h; exact ih _ _ h
  | deviation b k ih => intro r h; exact ih _ _ h
  | maxVort k ih => intro r h; exact ih _ _ h
  | divNorm k ih => intro r h; exact ih _ _ h
  | ghost k ih => intro r h; exact ih _ h
  | out x k ih => intro r h; exact ih _ h

/-! ## C84 -/

section Main
variable {T T' : Cart3}

theorem loadSim3_forcing {ft : String} {g : ℕ} {origin dx : List ℚ} {gs : List ℕ} {file : H5 ℝ C3 ℝ} {S S2 : Sim3 T} (h : loadSim3 ft g origin dx gs file S = .ok S2) :
    S2.forcing = S.forcing := by
  unfold loadSim3 at h
  split at h
  · cases h
  · split at h
    · cases h
    · cases h; rfl

/-- an interactor that loaded a checkpoint -/
theorem restoreIb3_holds {g : ℕ} {dx : ℝ} {a : Ib3} (ha : a.Ok) (hN : a.N ≠ 3) (mr mr' : ℤ) {order : String → List C3} {v : Vbf C3 ℝ} {Xs X' X0 : LagField ℝ} {t t0 : ℝ}
    {b : IbSt3} (hb : IbHolds3 T' dx a (nodeInit t0) X0 b) {addr : List C3} (hm : a.mapping T' dx Xs = .ok addr) (hl : addr.length = a.N) (hv : ∀ c ∈ addr, Valid3 T' c) :
    ∃ file b2, saveForcing (ioGeo3 T g) order mr a.N Xs v t = .ok file ∧ restoreIb3 T' g dx a mr' file X' b = .ok b2 ∧
      IbHolds3 T' dx a ⟨v.gposM, v.gvelM, fun _ _ => 0, t0⟩ Xs b2 := by
  obtain ⟨file, f1, f2⟩ := forcing_roundtrip (I' := C3) (ioGeo3 T g) (ioGeo3 T' g) rfl order mr mr' (N := a.N) hN Xs X' v b.v t
  refine ⟨file, { b with v := vbfRemap (a.vbf T' dx) Xs { b.v with gposM := v.gposM, gvelM := v.gvelM } }, f1, ?_, ?_⟩
  · unfold restoreIb3
    rw [f2]
    dsimp only
    rw [hm]
  · have had : (a.vbf T' dx).addrOf Xs = addr := by
      change okOr [] (a.mapping T' dx Xs) = addr
      rw [hm]; rfl
    have hs := remap_stores (a.vbf T' dx) ha.ord (N := a.N) (v := { b.v with gposM := v.gposM, gvelM := v.gvelM }) (P := v.gposM) (V := v.gvelM) (F := fun _ _ => 0)
      (fun _ _ _ _ => ⟨rfl, rfl⟩) (fun k hk i hi => hb.stores.force k hk i hi) Xs (by
        rw [had]
        exact ⟨hl, fun r hr => mem_ranks3.2 (hv r hr)⟩)
    refine ⟨?_, ?_, hb.clean⟩
    · have ht : b.v.time = t0 := hb.stores.time
      rw [← ht]
      exact hs
    · change a.mapping T' dx Xs = .ok ((a.vbf T' dx).addrOf Xs)
      rw [had]; exact hm

variable [NeZero T.gz] [NeZero T.gy] [NeZero T.gx] [NeZero T'.gz] [NeZero T'.gy] [NeZero T'.gx]

/-- C84, C122: flow with immersed bodies; penalty zone of at least 3 cells plus the order of the filter, or no free stream and the velocity of both simulators set up as 0
beyond the sides; number of nodes of every body different from 3. A driver `p₁` runs and a
checkpoint is taken at a good moment (`Rested`): flow fields, and for every body positions of its nodes and mismatch fields. A newly constructed simulator and interactors, on
any decomposition of the same grid with any master ranks, set up in any way, load the files. Nothing raises, and a driver `p₂` that interacts with a body before advancing
it goes on as if there had been no interruption: same time, same output, same fields in every cell, same forces on every node of every body interacted with; the clocks of
the interactors advance by the same amount (they are not restored). -/
theorem crestart3 {a a' : SimArgs3} (hsame : a' = { a with pz := a'.pz, py := a'.py, px := a'.px }) {xr : ℝ} (hxr : 0 < xr) {nu cfl : ℝ} (hnu : 0 ≤ nu) (hcfl : 0 ≤ cfl)
    {u u' : Fin 3 → ℝ → ℝ → ℝ → ℝ}
    (hW : Wide3 (a.pars xr nu) ∨ a.freeStream = false ∧ (StillOut3 a.gz a.gy a.gx fun j => atCentre3 (xr / a.gx) (u j)) ∧
      StillOut3 a.gz a.gy a.gx fun j => atCentre3 (xr / a.gx) (u' j)) {tol : ℝ} (htol : 0 < tol) {K : Kern3} (hK : K.Local) (hKd : ∀ a, CrossLocal3 1 (K.div a)) (hK0 : ∀ r, K.upd r (fun _ _ => 0) = 0)
    {A A' : B → Ib3} (hA : ∀ b, A' b = { A b with m := (A' b).m, ord := (A' b).ord, junk := (A' b).junk }) (hN : ∀ b, (A b).N ≠ 3)
    {X0 X0' : B → LagField ℝ} {t0 t0' : B → ℝ} {time time' : ℝ} {sc sc' : ℝ → ℝ → ℝ → ℝ} {om om' : Fin 3 → ℝ → ℝ → ℝ → ℝ}
    {S : CSt3 T B} (h : Setup3 a xr A X0 t0 time sc om u S) {S' : CSt3 T' B} (h' : Setup3 a' xr A' X0' t0' time' sc' om' u' S')
    {o₁ o₂ o' : ℕ → CScheds3} (ho₁ : ∀ n, (o₁ n).Done T a.g) (ho₂ : ∀ n, (o₂ n).Done T a.g) (ho' : ∀ n, (o' n).Done T' a.g) (p₁ : Prog3 B)
    (hp₁ : Proper3 (a.pars xr nu) K cfl tol A p₁ (refStart3 (xr / a.gx) X0 t0 time sc om u))
    (ht₁ : Tracked3 T (a.pars xr nu) K cfl tol A p₁ (refStart3 (xr / a.gx) X0 t0 time sc om u))
    (hrest : Rested (acts3 (a.pars xr nu) K cfl tol A p₁ (refStart3 (xr / a.gx) X0 t0 time sc om u)))
    {r₁ : RefC3 B} (hr₁ : r₁ = cRef3 (a.pars xr nu) K cfl tol A p₁ (refStart3 (xr / a.gx) X0 t0 time sc om u))
    (origin dx : List ℚ) {order : String → List C3} (hord : ∀ s c, c ∈ order s ↔ Valid3 T c) (orderL : String → List C3) (mr mr' : B → ℤ)
    {X : B → LagField ℝ} (hX : ∀ b, ∀ k < 3, ∀ i < (A b).N, X b k i = r₁.lastX b k i) (X' : B → LagField ℝ) (p₂ : Prog3 B)
    (hp₂ : Proper3 (a.pars xr nu) K cfl tol A p₂ r₁) (ht₂ : Tracked3 T (a.pars xr nu) K cfl tol A p₂ r₁) (ht₂' : Tracked3 T' (a.pars xr nu) K cfl tol A p₂ r₁)
    (htouch : TouchFirst (acts3 (a.pars xr nu) K cfl tol A p₂ r₁)) (n n' : ℕ) :
    let S₁ := (cRun3 (simCfg3 a xr nu cfl) K tol A o₁ p₁ 0 S).1
    let out := cRun3 (simCfg3 a xr nu cfl) K tol A o₂ p₂ n S₁
    ∃ (file : H5 ℝ C3 ℝ) (sim₂ : Sim3 T') (files : B → H5 ℝ C3 ℝ) (ib₂ : B → IbSt3), (cRun3 (simCfg3 a xr nu cfl) K tol A o₁ p₁ 0 S).2 = none ∧
      saveSim3 a.flowType a.g origin dx [a.gz, a.gy, a.gx] order S₁.sim = .ok file ∧
      loadSim3 a.flowType a.g origin dx [a.gz, a.gy, a.gx] file S'.sim = .ok sim₂ ∧
      (∀ b, saveForcing (ioGeo3 T a.g) orderL (mr b) (A b).N (X b) (S₁.ib b).v S₁.sim.time = .ok (files b) ∧
        restoreIb3 T' a.g (simDx3 T' xr) (A' b) (mr' b) (files b) (X' b) (S'.ib b) = .ok (ib₂ b)) ∧
      let out' := cRun3 (simCfg3 a' xr nu cfl) K tol A' o' p₂ n' ⟨sim₂, ib₂, []⟩
      out.2 = none ∧ out'.2 = none ∧ out'.1.sim.time = out.1.sim.time ∧ out.1.log = S₁.log ++ out'.1.log ∧
      (∀ c q c' q', Valid3 T c → Inner3 T a.g q → Valid3 T' c' → Inner3 T' a.g q' → globalIx3 T a.g c q = globalIx3 T' a.g c' q' →
        ∀ j, out'.1.sim.om j c' q' = out.1.sim.om j c q ∧ out'.1.sim.vel j c' q' = out.1.sim.vel j c q ∧ out'.1.sim.forcing j c' q' = out.1.sim.forcing j c q) ∧
      (∀ b, .touch b ∈ acts3 (a.pars xr nu) K cfl tol A p₂ r₁ → ∀ k < 3, ∀ i < (A b).N, (out'.1.ib b).v.gforce k i = (out.1.ib b).v.gforce k i) ∧
      ∀ b, (out'.1.ib b).v.time - t0' b = (out.1.ib b).v.time - (S₁.ib b).v.time := by
  intro S₁ out
  obtain ⟨hT, -⟩ := simCheck3_cart h.fit.built
  obtain ⟨hT', -⟩ := simCheck3_cart h'.fit.built
  obtain ⟨e0, e1, e2, -⟩ := construct3_ok hT
  obtain ⟨e0', e1', e2', -⟩ := construct3_ok hT'
  have eg : a'.gz = a.gz ∧ a'.gy = a.gy ∧ a'.gx = a.gx ∧ a'.g = a.g ∧ a'.flowType = a.flowType := by rw [hsame]; exact ⟨rfl, rfl, rfl, rfl, rfl⟩
  have eP : a'.pars xr nu = a.pars xr nu := by rw [hsame]; rfl
  have hT'' : mkCart3 a.gz a.gy a.gx a'.pz a'.py a'.px false = .ok T' := by rw [← eg.1, ← eg.2.1, ← eg.2.2.1]; exact hT'
  have hns : isNS a.flowType = true := by rw [h.flowType]; rfl
  have hns' : isNS a'.flowType = true := by rw [h'.flowType]; rfl
  have hgood := h.fit.good xr nu cfl hns
  have hgood' := h'.fit.good xr nu cfl hns'
  have hdx' : simDx3 T xr = xr / a.gx := by unfold simDx3; rw [e2]
  have hdx'' : simDx3 T' xr = xr / a.gx := by unfold simDx3; rw [e2', eg.2.2.1]
  have hgx0 : T.gx ≠ 0 := NeZero.ne _
  have hdx : 0 < xr / (a.gx : ℝ) := div_pos hxr (by rw [← e2]; exact_mod_cast Nat.pos_of_ne_zero hgx0)
  have hnz := hgood'.nz
  have hny := hgood'.ny
  have hnx := hgood'.nx
  -- first run
  obtain ⟨a1, a2, a3⟩ := coupled3_holds hxr hnu hcfl htol hK hKd hK0 h ho₁ p₁ hp₁ ht₁
  rw [← hr₁] at a2
  obtain ⟨c0, c1, -⟩ := coupled3_holds hxr hnu hcfl htol hK hKd hK0 h ho₁ .stop trivial trivial
  have hstart : CHolds3 a.gz a.gy a.gx (simCfg3 a xr nu cfl) A (refStart3 (xr / a.gx) X0 t0 time sc om u) S := c1
  -- the new objects
  obtain ⟨d0, d1, d2⟩ := coupled3_holds hxr hnu hcfl htol hK hKd hK0 h' (o := o') (by rw [eg.2.2.2.1]; exact ho') .stop trivial trivial
  have hnew : CHolds3 a'.gz a'.gy a'.gx (simCfg3 a' xr nu cfl) A' (refStart3 (xr / a'.gx) X0' t0' time' sc' om' u') S' := d1
  -- the checkpoint
  have hflow := rested3_flow (a.pars xr nu) K cfl tol A p₁ (refStart3 (xr / a.gx) X0 t0 time sc om u) (hrest.flow.imp_left fun hl => ⟨hl, rfl, rfl⟩)
  rw [← hr₁] at hflow
  have hin := proper3_inside (a.pars xr nu) K cfl tol A p₁ (refStart3 (xr / a.gx) X0 t0 time sc om u) hp₁ h.inside
  rw [← hr₁] at hin
  have hpos : ∀ b, ∀ k < 3, ∀ i < (A b).N, (S₁.ib b).v.gposM k i = (r₁.hist b).P k i := by
    intro b
    rw [hr₁]
    refine rested3_saved (gz := a.gz) (gy := a.gy) (gx := a.gx) (C := simCfg3 a xr nu cfl) (K := K) (tol := tol) (fun b => (a3 b).1) (params3_dx hT (simCfg3 a xr nu cfl))
      (o := o₁)
      (fun p n r S => cRun3_holds hT hgood hxr h.flowType hcfl hnu htol hK hKd hK0 (fun b => (a3 b).1) (fun b => (a3 b).2) ho₁ p n) b p₁ 0 _ S hstart hp₁ ht₁ (Or.inl ?_)
      (hrest.bodies b)
    intro k hk i hi
    have hib := h.ib b
    unfold ibInit3 at hib
    simp only [bind, Except.bind] at hib
    split at hib
    · cases hib
    · split at hib
      · cases hib
      · split at hib
        · cases hib
        · rw [← Except.ok.inj hib]; rfl
  have hinX : ∀ b, Inside3 a.gz a.gy a.gx 0 (xr / a.gx) (A b) (X b) := fun b => inside3_congr (hin b) (hX b)
  have hib : ∀ b, ∃ file b2, saveForcing (ioGeo3 T a.g) orderL (mr b) (A b).N (X b) (S₁.ib b).v S₁.sim.time = .ok file ∧
      restoreIb3 T' a.g (simDx3 T' xr) (A' b) (mr' b) file (X' b) (S'.ib b) = .ok b2 ∧
      IbHolds3 T' (xr / a.gx) (A' b) ⟨(S₁.ib b).v.gposM, (S₁.ib b).v.gvelM, fun _ _ => 0, t0' b⟩ (X b) b2 := by
    intro b
    have hNA : (A' b).N = (A b).N := by rw [hA b]
    have hin' : Inside3 a.gz a.gy a.gx 0 (xr / a.gx) (A' b) (X b) := by rw [hA b]; exact hinX b
    obtain ⟨addr, m1, m2, m3, -⟩ := owned_of_inside3 hT'' (by omega) (by omega) (by omega) hdx hin'
    have hh := hnew.ib b
    change IbHolds3 T' (xr / a'.gx) (A' b) (nodeInit (t0' b)) (X0' b) (S'.ib b) at hh
    rw [eg.2.2.1] at hh
    have := restoreIb3_holds (T := T) (g := a.g) (d2 b).1 (by rw [hNA]; exact hN b) (mr b) (mr' b) (order := orderL) (v := (S₁.ib b).v) (X' := X' b) (t := S₁.sim.time) hh
      m1 m2 m3
    rw [hNA] at this
    rw [hdx'']
    exact this
  choose files ib₂ b1 b2 b3 using hib
  obtain ⟨file, sim₂, f1, f2, f3, f4⟩ := loaded3_holds hT hT'' a.flowType origin dx hord (C := simCfg3 a xr nu cfl) (C' := simCfg3 a' xr nu cfl) eg.2.2.2.1 a2.sim hnew.sim
  have hforcing := loadSim3_forcing f2
  refine ⟨file, sim₂, files, ib₂, a1, f1, f2, fun b => ⟨b1 b, b2 b⟩, ?_⟩
  intro out'
  have n4 : a.flowType ≠ "passive_scalar" := by intro e; rw [e] at hns; cases hns
  -- the restarted run on the global grid
  let r' : RefC3 B := ⟨overlay3 a.flowType a.gz a.gy a.gx r₁.F (fieldsFrom3 (xr / a'.gx) sc' om' u'), fun _ _ => 0, r₁.time,
    fun b => ⟨(S₁.ib b).v.gposM, (S₁.ib b).v.gvelM, fun _ _ => 0, t0' b⟩, X, [], false⟩
  have hres : CHolds3 a'.gz a'.gy a'.gx (simCfg3 a' xr nu cfl) A' r' ⟨sim₂, ib₂, []⟩ := by
    refine ⟨f4, f3.trans a2.time, ?_, fun _ _ _ => rfl, (by intro hf; cases hf), ?_, rfl⟩
    · change ForceClean3 T' a'.g (fun _ _ => 0) sim₂.forcing
      rw [hforcing]
      exact hnew.force
    · intro b
      change IbHolds3 T' (xr / a'.gx) (A' b) _ _ _
      rw [eg.2.2.1]
      exact b3 b
  have hside : Wide3 (a.pars xr nu) ∨ (a.pars xr nu).freeStream = false ∧ ((a.pars xr nu).w ≤ (a.pars xr nu).gz ∧ (a.pars xr nu).w ≤ (a.pars xr nu).gy ∧
      (a.pars xr nu).w ≤ (a.pars xr nu).gx) ∧ StillOut3 (a.pars xr nu).gz (a.pars xr nu).gy (a.pars xr nu).gx r'.F.u ∧
      StillOut3 (a.pars xr nu).gz (a.pars xr nu).gy (a.pars xr nu).gx r₁.F.u := by
    refine hW.imp_right fun ⟨hf, hu, hu'⟩ => ⟨hf, h.fit.zone hns, overlay3_still ?_, ?_⟩
    · rw [eg.2.2.1]; exact hu'
    · rw [hr₁]; exact cRef3_still hf K cfl tol A p₁ _ hu
  have hag : SameRun3 (a.pars xr nu) A (fun _ => False) r₁.log (fun b => t0' b - (r₁.hist b).t) r₁ r' :=
    ⟨⟨overlay3_agree n4 _ _ _ _ _, hside⟩, hflow.1.symm, rfl, hflow.2.symm, hpos, fun _ hf => hf.elim, fun _ hf => hf.elim, fun b => by change t0' b = _; ring, hX, by simp [r']⟩
  obtain ⟨g1, g2, g3⟩ := agree3_run hK hKd cfl tol A T' r₁.log (fun b => t0' b - (r₁.hist b).t) p₂ (fun _ => False) r₁ r' hag hp₂ ht₂'
    (fun b l₁ l₂ e => Or.inr (htouch b l₁ l₂ e))
  obtain ⟨s1, s2, s3⟩ := same_bodies3 hA (a.pars xr nu) K cfl tol T' p₂ r'
  obtain ⟨x1, x2⟩ := cRun3_holds hT hgood hxr h.flowType hcfl hnu htol hK hKd hK0 (fun b => (a3 b).1) (fun b => (a3 b).2) ho₂ p₂ n a2 hp₂ ht₂
  obtain ⟨y1, y2⟩ := cRun3_holds hT' hgood' hxr h'.flowType hcfl hnu htol hK hKd hK0 (fun b => (d2 b).1) (fun b => (d2 b).2) (o := o')
    (by change ∀ n, (o' n).Done T' a'.g; rw [eg.2.2.2.1]; exact ho') p₂ n' hres
    (by change Proper3 (a'.pars xr nu) K cfl tol A' p₂ r'; rw [eP]; exact s2.2 g1) (by change Tracked3 T' (a'.pars xr nu) K cfl tol A' p₂ r'; rw [eP]; exact s3.2 g2)
  have y3 : CHolds3 a'.gz a'.gy a'.gx (simCfg3 a' xr nu cfl) A' (cRef3 (a.pars xr nu) K cfl tol A p₂ r') out'.1 := by
    rw [← s1, ← eP]; exact y2
  have x3 : CHolds3 a.gz a.gy a.gx (simCfg3 a xr nu cfl) A (cRef3 (a.pars xr nu) K cfl tol A p₂ r₁) out.1 := x2
  refine ⟨x1, y1, ?_, ?_, ?_, ?_, ?_⟩
  · rw [x3.time, y3.time, g3.time]
  · rw [x3.log, y3.log, g3.log]
    congr 1
    exact a2.log.symm
  · intro c q c' q' hc hq hc' hq' hG j
    have hD : Dom3 a.gz a.gy a.gx (globalIx3 T a.g c q) := (dom3_iff hT _).2 (inner_inDomain3 hT hc hq)
    obtain ⟨k1, k2⟩ := g3.F.dom _ hD j
    have hq'' : Inner3 T' (simCfg3 a' xr nu cfl).g q' := by change Inner3 T' a'.g q'; rw [eg.2.2.2.1]; exact hq'
    have hG' : globalIx3 T' (simCfg3 a' xr nu cfl).g c' q' = globalIx3 T a.g c q := by change globalIx3 T' a'.g c' q' = _; rw [eg.2.2.2.1]; exact hG.symm
    have u1 := x3.sim.om j c q hc (inArr_of_inner3 hq) (Or.inl hq)
    have u2 := x3.sim.u j c q hc (inArr_of_inner3 hq) (Or.inl hq)
    have u3 := (x3.force j c q hc).1 hq
    have v1 := y3.sim.om j c' q' hc' (inArr_of_inner3 hq'') (Or.inl hq'')
    have v2 := y3.sim.u j c' q' hc' (inArr_of_inner3 hq'') (Or.inl hq'')
    have v3 := (y3.force j c' q' hc').1 hq''
    rw [hG'] at v1 v2 v3
    exact ⟨(v1.trans k1).trans u1.symm, (v2.trans k2).trans u2.symm, (v3.trans (by rw [g3.Φ]; rfl)).trans u3.symm⟩
  · intro b hb k hk i hi
    have hNA : (A' b).N = (A b).N := by rw [hA b]
    rw [(x3.ib b).stores.force k hk i hi]
    exact ((y3.ib b).stores.force k hk i (by rw [hNA]; exact hi)).trans (g3.force b (Or.inr hb) k hk i hi)
  · intro b
    rw [(x3.ib b).stores.time, (y3.ib b).stores.time, g3.t b, (a2.ib b).stores.time]
    ring

end Main

/-! ## The hypotheses can be met -/

/-- One iteration as in the example: the forces on the body, its time step, interaction, the time step of the flow, printing. -/
noncomputable def exLoop3 : Prog3 Unit :=
  .stableDt 0.5 fun dt => .forces () exPos3 (fun _ _ => 0) fun f => .advance () dt <| .interact () exPos3 (fun k _ => f k 0) <| .flow dt (fun _ => 1) <|
    .maxVort fun x => .out x .stop

/-- The driver is rested at the end and interacts before it advances. -/
example (P : Params3) (K : Kern3) (cfl tol : ℝ) (r : RefC3 Unit) :
    Rested (acts3 P K cfl tol (fun _ => exBody3) exLoop3 r) ∧ TouchFirst (acts3 P K cfl tol (fun _ => exBody3) exLoop3 r) := by
  have e : acts3 P K cfl tol (fun _ => exBody3) exLoop3 r = ([.look, .touch (), .advance (), .touch (), .flow, .look, .look] : List (Act Unit)) := rfl
  have key : ∀ b l₁ l₂, ([.look, .touch (), .advance (), .touch (), .flow, .look, .look] : List (Act Unit)) = l₁ ++ .advance b :: l₂ → l₁ = [.look, .touch ()] ∧
      l₂ = [.touch (), .flow, .look, .look] := by
    intro b l₁ l₂ h
    rcases l₁ with _ | ⟨x1, _ | ⟨x2, _ | ⟨x3, _ | ⟨x4, _ | ⟨x5, _ | ⟨x6, _ | ⟨x7, l₁⟩⟩⟩⟩⟩⟩⟩ <;> simp at h
    obtain ⟨rfl, rfl, h⟩ := h
    exact ⟨rfl, h.symm⟩
  rw [e]
  refine ⟨⟨Or.inr ⟨[.look, .touch (), .advance (), .touch ()], [.look, .look], rfl, by simp⟩, ?_⟩, ?_⟩
  · intro b l₁ l₂ h
    obtain ⟨-, rfl⟩ := key b l₁ l₂ h
    simp
  · intro b l₁ l₂ h
    obtain ⟨rfl, -⟩ := key b l₁ l₂ h
    simp

/-- It meets the other hypotheses too, before and after the checkpoint. -/
example (P : Params3) (hP : P.gz = 8 ∧ P.gy = 16 ∧ P.gx = 8 ∧ P.dx = 1) (K : Kern3) (cfl tol : ℝ) (T : Cart3) (r : RefC3 Unit) (hr : r.lastX = fun _ => exPos3) :
    Proper3 P K cfl tol (fun _ => exBody3) exLoop3 r ∧ Tracked3 T P K cfl tol (fun _ => exBody3) exLoop3 r ∧
      (cRef3 P K cfl tol (fun _ => exBody3) exLoop3 r).lastX = (fun _ => exPos3) ∧ exBody3.N ≠ 3 := by
  obtain ⟨h0, h1, h2, h3⟩ := hP
  refine ⟨?_, ?_, ?_, by decide⟩
  · unfold exLoop3
    simp only [Proper3, h0, h1, h2, h3]
    exact ⟨inside3_le exBody3_inside, Or.inl rfl, exBody3_inside, Or.inl rfl, trivial⟩
  · refine tracked3_still P K cfl tol _ (fun _ => exPos3) _ ?_ r hr
    unfold exLoop3
    simp only [Still3]
    simp
  · funext _
    simp [exLoop3, cRef3, refFull3, refForces3]

/-- Simulators on two ranks and on one, with a penalty zone wide enough. -/
example (xr nu : ℝ) :
    Fit3 ⟨8, 16, 8, 1, 1, 2, "navier_stokes_with_forcing", false, none, false, 2, .int 3⟩ ⟨8, 16, 8, 1, 1, 2, 8, 16, 4, false⟩ ∧
    Fit3 ⟨8, 16, 8, 1, 1, 1, "navier_stokes_with_forcing", false, none, false, 2, .int 3⟩ ⟨8, 16, 8, 1, 1, 1, 8, 16, 8, false⟩ ∧
    Wide3 (SimArgs3.pars ⟨8, 16, 8, 1, 1, 2, "navier_stokes_with_forcing", false, none, false, 2, .int 3⟩ xr nu) := by
  refine ⟨⟨by decide, (by intro h; cases h), fun _ => ⟨by decide, by decide, ⟨3, rfl, by decide, by decide, by decide, by decide⟩, by unfold EvenTopo3; decide, ?_⟩⟩,
    ⟨by decide, (by intro h; cases h), fun _ => ⟨by decide, by decide, ⟨3, rfl, by decide, by decide, by decide, by decide⟩, by unfold EvenTopo3; decide, ?_⟩⟩, ?_⟩
  · intro o ty hf; cases hf
  · intro o ty hf; cases hf
  · constructor <;> norm_num [SimArgs3.pars, filterInUse, filterNums, fltOrder, widthOf] <;> decide

/-- The same with the default penalty zone of 2 cells, on both pairs of ranks: the zone is too narrow, but there is no free stream; the velocity is set up as a rotation about
the z axis inside the domain and 0 beyond its sides, that of the new simulator as 0. -/
example (xr nu : ℝ) (hxr : 0 < xr) :
    Fit3 ⟨8, 16, 8, 1, 1, 2, "navier_stokes_with_forcing", false, none, false, 2, .int 2⟩ ⟨8, 16, 8, 1, 1, 2, 8, 16, 4, false⟩ ∧
    Fit3 ⟨8, 16, 8, 1, 1, 1, "navier_stokes_with_forcing", false, none, false, 2, .int 2⟩ ⟨8, 16, 8, 1, 1, 1, 8, 16, 8, false⟩ ∧
    ¬ Wide3 (SimArgs3.pars ⟨8, 16, 8, 1, 1, 2, "navier_stokes_with_forcing", false, none, false, 2, .int 2⟩ xr nu) ∧
    (StillOut3 8 16 8 fun j => atCentre3 (xr / 8) ((fun j x y z => if 0 < x ∧ x < xr ∧ 0 < y ∧ y < 2 * xr ∧ 0 < z ∧ z < xr then ![-(y - xr), x - xr / 2, 0] j else 0 :
      Fin 3 → ℝ → ℝ → ℝ → ℝ) j)) ∧
    StillOut3 8 16 8 fun j => atCentre3 (xr / 8) ((fun _ _ _ _ => 0 : Fin 3 → ℝ → ℝ → ℝ → ℝ) j) := by
  refine ⟨⟨by decide, (by intro h; cases h), fun _ => ⟨by decide, by decide, ⟨2, rfl, by decide, by decide, by decide, by decide⟩, by unfold EvenTopo3; decide, ?_⟩⟩,
    ⟨by decide, (by intro h; cases h), fun _ => ⟨by decide, by decide, ⟨2, rfl, by decide, by decide, by decide, by decide⟩, by unfold EvenTopo3; decide, ?_⟩⟩, ?_, ?_,
    fun _ _ _ => rfl⟩
  · intro o ty hf; cases hf
  · intro o ty hf; cases hf
  · intro h
    have h1 : 0 + 3 ≤ 2 := h.w
    omega
  · intro j G hG
    unfold atCentre3
    dsimp only
    rw [if_neg]
    rintro ⟨x0, x1, y0, y1, z0, z1⟩
    apply hG
    have hd : 0 < xr / 8 := by positivity
    have lo : ∀ a : ℤ, 0 < ((a : ℝ) + 1 / 2) * (xr / 8) → 0 ≤ a := by
      intro a ha
      by_contra hn
      have h1 : (a : ℝ) ≤ -1 := by exact_mod_cast (by omega : a ≤ -1)
      have := (pos_iff_pos_of_mul_pos ha).2 hd
      linarith
    have hi : ∀ (a : ℤ) (n : ℕ), ((a : ℝ) + 1 / 2) * (xr / 8) < n * (xr / 8) → a < n := by
      intro a n ha
      have h1 := lt_of_mul_lt_mul_right ha hd.le
      have h2 : (a : ℝ) < (n : ℤ) := by push_cast; linarith
      exact_mod_cast h2
    exact ⟨lo _ z0, hi _ 8 (by push_cast; linarith), lo _ y0, hi _ 16 (by push_cast; linarith), lo _ x0, hi _ 8 (by push_cast; linarith)⟩

end Sopht
