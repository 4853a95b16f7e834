import Verif.CRestart3D
import Verif.Restart2D
import Verif.Interactor2DRun

/-!
# Restarting a 2D flow with immersed bodies from a checkpoint (C84)

See `CRestart3D`; the calls are those of ROD.py, with a 2D simulator (`Verif.Restart2D`) and 2D bodies: flow fields and, for each interactor, positions and mismatch
fields of its forcing grid (`Verif.VbfRestart`) are saved; a new simulator and new interactors load them.
-/

namespace Sopht

set_option linter.unusedSimpArgs false

/-! ## Model -/

/-- Loading the checkpoint of an interactor (ROD.py:222-224, 229-252); `X` is what the position field of the forcing grid held before. The ranks abort if a node lies
outside. `mr` is the number of the master rank. -/
noncomputable def restoreIb2 (T : Cart2) (g : ℕ) (dx : ℝ) (a : Ib2) (mr : ℤ) (file : H5 ℝ C2 ℝ) (X : LagField ℝ) (b : IbSt2) : Except PyErr IbSt2 :=
  match loadForcing (ioGeo2 T g) mr a.N file X b.v with
  | .error e => .error e
  | .ok (X', v) =>
    match a.mapping T dx X' with
    | .error e => .error e
    | .ok _ => .ok { b with v := vbfRemap (a.vbf T dx) X' v }

/-! ## Specification: what a driver does, in order -/

variable {B : Type} [DecidableEq B]

/-- The calls of a driver on the global grid, in order. -/
noncomputable def acts2 (P : Params2) (K : Kern2) (cfl tol : ℝ) (A : B → Ib2) : Prog2 B → RefC2 B → List (Act B)
  | .stop, _ => []
  | .interact b X U k, r => .touch b :: acts2 P K cfl tol A k (refFull2 P.dx (A b) b X U r)
  | .forces b X U k, r => .touch b ::
      acts2 P K cfl tol A (k (refForceField (A b).N (refLag2 P.dx (A b) r.F.u X U (r.hist b)))) (refForces2 P.dx (A b) b X U r)
  | .advance b dt k, r => .advance b :: acts2 P K cfl tol A k
      { r with hist := Function.update r.hist b { r.hist b with P := fun k i => (r.hist b).P k i + dt * (r.hist b).V k i, t := (r.hist b).t + dt } }
  | .flow dt fs k, r => .flow :: acts2 P K cfl tol A k
      { r with F := refForcing2 P K dt fs r.Φ r.F, Φ := fun _ _ => 0, time := r.time + dt, fresh := false }
  | .stableDt pre k, r => .look :: acts2 P K cfl tol A (k (refDt2 P cfl tol r.F (.stable pre))) r
  | .deviation b k, r => .look :: acts2 P K cfl tol A (k (refDeviation 2 (A b).N (r.hist b))) r
  | .maxVort k, r => .look :: acts2 P K cfl tol A (k (sSup {x | ∃ G, Dom2 P.gy P.gx G ∧ x = r.F.om G})) r
  | .ghost k, r => .ghost :: acts2 P K cfl tol A k { r with fresh := true }
  | .out x k, r => .look :: acts2 P K cfl tol A k { r with log := r.log ++ [x] }

/-! ## At the checkpoint -/

/-- no forcing is left, and the ghost cells of the velocity are not up to date -/
theorem rested2_flow (P : Params2) (K : Kern2) (cfl tol : ℝ) (A : B → Ib2) (p : Prog2 B) :
    ∀ r : RefC2 B, (((∀ x ∈ acts2 P K cfl tol A p r, x = .look) ∧ r.Φ = (fun _ _ => 0) ∧ r.fresh = false) ∨
        ∃ l₁ l₂, acts2 P K cfl tol A p r = l₁ ++ .flow :: l₂ ∧ ∀ x ∈ l₂, x = .look) →
      (cRef2 P K cfl tol A p r).Φ = (fun _ _ => 0) ∧ (cRef2 P K cfl tol A p r).fresh = false := by
  have red : ∀ {x : Act B} {l : List (Act B)} {Q : Prop}, (((∀ y ∈ x :: l, y = .look) ∧ Q) ∨ ∃ l₁ l₂, x :: l = l₁ ++ .flow :: l₂ ∧ ∀ y ∈ l₂, y = .look) →
      ((∀ y ∈ l, y = .look) ∧ ((x = .look ∧ Q) ∨ x = .flow)) ∨ ∃ l₁ l₂, l = l₁ ++ .flow :: l₂ ∧ ∀ y ∈ l₂, y = .look := by
    intro x l Q h
    rcases h with ⟨h, q⟩ | h
    · exact Or.inl ⟨fun y hy => h y (List.mem_cons_of_mem _ hy), Or.inl ⟨h x List.mem_cons_self, q⟩⟩
    · obtain ⟨l₁, l₂, e, h⟩ := h
      rcases l₁ with _ | ⟨y, l₁⟩
      · obtain ⟨rfl, rfl⟩ := List.cons.inj e
        exact Or.inl ⟨h, Or.inr rfl⟩
      · obtain ⟨rfl, rfl⟩ := List.cons.inj e
        exact Or.inr ⟨l₁, l₂, rfl, h⟩
  induction p with
  | stop =>
    intro r h
    rcases h with h | ⟨l₁, l₂, e, -⟩
    · exact h.2
    · exact absurd e (by simp [acts2])
  | interact b X U k ih =>
    intro r h
    refine ih _ ?_
    rcases red h with ⟨-, ⟨c, -⟩ | c⟩ | h
    · cases c
    · cases c
    · exact Or.inr h
  | forces b X U k ih =>
    intro r h
    refine ih _ _ ?_
    rcases red h with ⟨-, ⟨c, -⟩ | c⟩ | h
    · cases c
    · cases c
    · exact Or.inr h
  | advance b dt k ih =>
    intro r h
    refine ih _ ?_
    rcases red h with ⟨-, ⟨c, -⟩ | c⟩ | h
    · cases c
    · cases c
    · exact Or.inr h
  | flow dt fs k ih =>
    intro r h
    refine ih _ ?_
    rcases red h with ⟨h, -⟩ | h
    · exact Or.inl ⟨h, rfl, rfl⟩
    · exact Or.inr h
  | stableDt pre k ih =>
    intro r h
    refine ih _ _ ?_
    rcases red h with ⟨h, ⟨-, q⟩ | c⟩ | h
    · exact Or.inl ⟨h, q⟩
    · cases c
    · exact Or.inr h
  | deviation b k ih =>
    intro r h
    refine ih _ _ ?_
    rcases red h with ⟨h, ⟨-, q⟩ | c⟩ | h
    · exact Or.inl ⟨h, q⟩
    · cases c
    · exact Or.inr h
  | maxVort k ih =>
    intro r h
    refine ih _ _ ?_
    rcases red h with ⟨h, ⟨-, q⟩ | c⟩ | h
    · exact Or.inl ⟨h, q⟩
    · cases c
    · exact Or.inr h
  | ghost k ih =>
    intro r h
    refine ih _ ?_
    rcases red h with ⟨-, ⟨c, -⟩ | c⟩ | h
    · cases c
    · cases c
    · exact Or.inr h
  | out x k ih =>
    intro r h
    refine ih _ ?_
    rcases red h with ⟨h, ⟨-, q⟩ | c⟩ | h
    · exact Or.inl ⟨h, q⟩
    · cases c
    · exact Or.inr h

theorem inside2_le {gy gx k : ℕ} {dx : ℝ} {a : Ib2} {X : LagField ℝ} (h : Inside2 gy gx k dx a X) : Inside2 gy gx 0 dx a X := by
  intro i hi G hG
  have := h i hi G hG
  unfold Away2 at this ⊢
  push_cast at this ⊢
  omega

theorem inside2_congr {gy gx k : ℕ} {dx : ℝ} {a : Ib2} {X Y : LagField ℝ} (h : Inside2 gy gx k dx a X) (e : ∀ k < 2, ∀ i < a.N, Y k i = X k i) : Inside2 gy gx k dx a Y := by
  intro i hi G hG
  rw [e 0 (by norm_num) i hi, e 1 (by norm_num) i hi] at hG
  exact h i hi G hG

/-- the bodies are inside the domain -/
theorem proper2_inside (P : Params2) (K : Kern2) (cfl tol : ℝ) (A : B → Ib2) (p : Prog2 B) :
    ∀ r : RefC2 B, Proper2 P K cfl tol A p r → (∀ b, Inside2 P.gy P.gx 0 P.dx (A b) (r.lastX b)) →
      ∀ b, Inside2 P.gy P.gx 0 P.dx (A b) ((cRef2 P K cfl tol A p r).lastX b) := by
  have upd : ∀ {lastX : B → LagField ℝ} {b : B} {X : LagField ℝ}, (∀ b, Inside2 P.gy P.gx 0 P.dx (A b) (lastX b)) → Inside2 P.gy P.gx 0 P.dx (A b) X →
      ∀ b', Inside2 P.gy P.gx 0 P.dx (A b') (Function.update lastX b X b') := by
    intro lastX b X h hX b'
    by_cases e : b' = b
    · subst e; rw [Function.update_self]; exact hX
    · rw [Function.update_of_ne e]; exact h b'
  induction p with
  | stop => intro r _ h; exact h
  | interact b X U k ih => intro r hp h; exact ih _ hp.2.2 (upd h (inside2_le hp.1))
  | forces b X U k ih => intro r hp h; exact ih _ _ hp.2.2 (upd h hp.1)
  | advance b dt k ih => intro r hp h; exact ih _ hp h
  | flow dt fs k ih => intro r hp h; exact ih _ hp h
  | stableDt pre k ih => intro r hp h; exact ih _ _ hp h
  | deviation b k ih => intro r hp h; exact ih _ _ hp h
  | maxVort k ih => intro r hp h; exact ih _ _ hp h
  | ghost k ih => intro r hp h; exact ih _ hp h
  | out x k ih => intro r hp h; exact ih _ hp h

section Saved
variable {T : Cart2} {gy gx : ℕ}

theorem lagInteract2_v {C : Cfg2} {a : Ib2} {s : List Ev} {X U : LagField ℝ} {S : Sim2 T} {b : IbSt2} {r : Sim2 T × IbSt2} (h : lagInteract2 C a s X U S b = .ok r) :
    ∃ J, r.2.v = vbfInteract (a.vbf T (simDx2 T C.xr)) X U J b.v := by
  unfold lagInteract2 at h
  dsimp only at h
  split at h
  · cases h
  · cases h
    exact ⟨_, rfl⟩

theorem fullInteract2_v {C : Cfg2} {a : Ib2} {s : List Ev} {X U : LagField ℝ} {S : Sim2 T} {b : IbSt2} {r : Sim2 T × IbSt2} (h : fullInteract2 C a s X U S b = .ok r) :
    ∃ J, r.2.v = vbfInteract (a.vbf T (simDx2 T C.xr)) X U J b.v := by
  unfold fullInteract2 at h
  dsimp only at h
  split at h
  · cases h
  · rename_i S2 b2 hl
    cases h
    obtain ⟨J, hJ⟩ := lagInteract2_v hl
    exact ⟨J, hJ⟩

variable [NeZero T.gy] [NeZero T.gx]

/-- the position mismatches on the masters are the current ones -/
theorem rested2_saved {C : Cfg2} {K : Kern2} {tol : ℝ} {A : B → Ib2} (hA : ∀ b, (A b).Ok) (hdx : simDx2 T C.xr = (C.params gy gx).dx) {o : ℕ → CScheds2}
    (hrun : ∀ (p : Prog2 B) (n : ℕ) (r : RefC2 B) (S : CSt2 T B), CHolds2 gy gx C A r S → Proper2 (C.params gy gx) K C.cfl tol A p r →
      Tracked2 T (C.params gy gx) K C.cfl tol A p r →
      (cRun2 C K tol A o p n S).2 = none ∧ CHolds2 gy gx C A (cRef2 (C.params gy gx) K C.cfl tol A p r) (cRun2 C K tol A o p n S).1)
    (b : B) (p : Prog2 B) :
    ∀ (n : ℕ) (r : RefC2 B) (S : CSt2 T B), CHolds2 gy gx C A r S → Proper2 (C.params gy gx) K C.cfl tol A p r → Tracked2 T (C.params gy gx) K C.cfl tol A p r →
      ((∀ k < 2, ∀ i < (A b).N, (S.ib b).v.gposM k i = (r.hist b).P k i) ∨ Act.touch b ∈ acts2 (C.params gy gx) K C.cfl tol A p r) →
      (∀ l₁ l₂, acts2 (C.params gy gx) K C.cfl tol A p r = l₁ ++ .advance b :: l₂ → .touch b ∈ l₂) →
      ∀ k < 2, ∀ i < (A b).N, ((cRun2 C K tol A o p n S).1.ib b).v.gposM k i = ((cRef2 (C.params gy gx) K C.cfl tol A p r).hist b).P k i := by
  have tl : ∀ {x : Act B} {l : List (Act B)}, (∀ l₁ l₂, x :: l = l₁ ++ .advance b :: l₂ → .touch b ∈ l₂) → ∀ l₁ l₂, l = l₁ ++ .advance b :: l₂ → .touch b ∈ l₂ :=
    fun {x} {l} h l₁ l₂ e => h (x :: l₁) l₂ (by rw [e]; rfl)
  induction p with
  | stop =>
    intro n r S h _ _ hg _
    rcases hg with hg | hg
    · exact hg
    · cases hg
  | interact b' X U k ih =>
    intro n r S h hp ht hg hl
    obtain ⟨c1, c2⟩ := hrun (.interact b' X U .stop) n r S h ⟨hp.1, hp.2.1, trivial⟩ ⟨ht.1, trivial⟩
    unfold cRun2 at c1 c2
    unfold cRun2 cRef2
    cases hf : fullInteract2 C (A b') (o n).ghost X U S.sim (S.ib b') with
    | error e => rw [hf] at c1; cases c1
    | ok q =>
      rw [hf] at c2
      simp only at c2 ⊢
      refine ih (n + 1) _ _ c2 hp.2.2 ht.2 ?_ (tl hl)
      by_cases e : b = b'
      · subst e
        left
        obtain ⟨J, hJ⟩ := fullInteract2_v hf
        intro k hk i hi
        simp only [Function.update_self, refFull2, refForces2, refLag2]
        rw [hJ, hdx]
        exact (interact_global _ (hA b).ord (h.ib b).stores X U J k hk i hi).1
      · rcases hg with hg | hg
        · left
          simp only [Function.update_of_ne e, refFull2, refForces2]
          exact hg
        · right
          rcases List.mem_cons.1 hg with hg | hg
          · cases hg; exact absurd rfl e
          · exact hg
  | forces b' X U k ih =>
    intro n r S h hp ht hg hl
    obtain ⟨c1, c2⟩ := hrun (.forces b' X U fun _ => .stop) n r S h ⟨hp.1, hp.2.1, trivial⟩ ⟨ht.1, trivial⟩
    obtain ⟨d1, -⟩ := hrun (.forces b' X U k) n r S h hp ht
    unfold cRun2 at c1 c2 d1
    unfold cRun2 cRef2
    cases hf : lagInteract2 C (A b') (o n).ghost X U S.sim (S.ib b') with
    | error e => rw [hf] at c1; cases c1
    | ok q =>
      rw [hf] at c2
      simp only at c2 ⊢
      have c2 : CHolds2 gy gx C A (refForces2 (C.params gy gx).dx (A b') b' X U r) { S with sim := q.1, ib := Function.update S.ib b' q.2 } := c2
      have hforce : forcesOf 2 (A b').N q.2.v = refForceField (A b').N (refLag2 (C.params gy gx).dx (A b') r.F.u X U (r.hist b')) := by
        funext k i
        unfold forcesOf refForceField
        split
        · rename_i hki
          have := (c2.ib b').stores.force k hki.1 i hki.2
          simp only [Function.update_self, refForces2] at this
          exact this
        · rfl
      rw [hforce]
      refine ih _ (n + 1) _ _ c2 hp.2.2 ht.2 ?_ (tl hl)
      by_cases e : b = b'
      · subst e
        left
        obtain ⟨J, hJ⟩ := lagInteract2_v hf
        intro k hk i hi
        simp only [Function.update_self, refForces2, refLag2]
        rw [hJ, hdx]
        exact (interact_global _ (hA b).ord (h.ib b).stores X U J k hk i hi).1
      · rcases hg with hg | hg
        · left
          simp only [Function.update_of_ne e, refForces2]
          exact hg
        · right
          rcases List.mem_cons.1 hg with hg | hg
          · cases hg; exact absurd rfl e
          · exact hg
  | advance b' dt k ih =>
    intro n r S h hp ht hg hl
    obtain ⟨c1, c2⟩ := hrun (.advance b' dt .stop) n r S h trivial trivial
    unfold cRun2 at c2 ⊢
    unfold cRef2
    unfold cRef2 at c2
    refine ih (n + 1) _ _ c2 hp ht ?_ (tl hl)
    by_cases e : b = b'
    · subst e
      exact Or.inr (hl [] _ rfl)
    · rcases hg with hg | hg
      · left
        simp only [Function.update_of_ne e]
        exact hg
      · right
        rcases List.mem_cons.1 hg with hg | hg
        · cases hg
        · exact hg
  | flow dt fs k ih =>
    intro n r S h hp ht hg hl
    obtain ⟨c1, c2⟩ := hrun (.flow dt fs .stop) n r S h trivial trivial
    unfold cRun2 at c1 c2 ⊢
    unfold cRef2
    rcases hf : timeStep2 C K (o n).step dt fs S.sim with ⟨S', _ | e⟩
    · rw [hf] at c2
      refine ih (n + 1) _ _ c2 hp ht (hg.imp_right fun hg => ?_) (tl hl)
      rcases List.mem_cons.1 hg with hg | hg
      · cases hg
      · exact hg
    · rw [hf] at c1; cases c1
  | stableDt pre k ih =>
    intro n r S h hp ht hg hl
    obtain ⟨c1, c2⟩ := hrun (.stableDt pre fun x => .out x .stop) n r S h trivial trivial
    unfold cRun2 at c1 c2 ⊢
    unfold cRef2
    rcases hf : stableDt2 C tol pre S.sim with ⟨S', e | dt⟩
    · rw [hf] at c1; cases c1
    · rw [hf] at c2
      have hl' := c2.log
      simp only [cRun2, cRef2] at hl'
      rw [h.log] at hl'
      have hdt : dt = refDt2 (C.params gy gx) C.cfl tol r.F (.stable pre) := by simpa using hl'
      simp only
      rw [hdt]
      have c2 : CHolds2 gy gx C A r { S with sim := S' } := ⟨c2.sim, c2.time, c2.force, c2.conf, c2.fresh, c2.ib, h.log⟩
      refine ih _ (n + 1) _ _ c2 hp ht (hg.imp_right fun hg => ?_) (tl hl)
      rcases List.mem_cons.1 hg with hg | hg
      · cases hg
      · exact hg
  | deviation b' k ih =>
    intro n r S h hp ht hg hl
    obtain ⟨c1, c2⟩ := hrun (.deviation b' fun x => .out x .stop) n r S h trivial trivial
    unfold cRun2 at c1 c2 ⊢
    unfold cRef2
    have hl' := c2.log
    simp only [cRun2, cRef2] at hl'
    rw [h.log] at hl'
    have hdt : gridDeviation 2 (ranks2 T) (A b').N (S.ib b').v (A b').m = refDeviation 2 (A b').N (r.hist b') := by simpa using hl'
    rw [hdt]
    refine ih _ (n + 1) _ _ h hp ht (hg.imp_right fun hg => ?_) (tl hl)
    rcases List.mem_cons.1 hg with hg | hg
    · cases hg
    · exact hg
  | maxVort k ih =>
    intro n r S h hp ht hg hl
    obtain ⟨c1, c2⟩ := hrun (.maxVort fun x => .out x .stop) n r S h trivial trivial
    unfold cRun2 at c1 c2 ⊢
    unfold cRef2
    rcases hf : maxVorticity2 C S.sim with e | x
    · rw [hf] at c1; cases c1
    · rw [hf] at c2
      have hl' := c2.log
      simp only [cRun2, cRef2] at hl'
      rw [h.log] at hl'
      have hdt : x = sSup {x | ∃ G, Dom2 (C.params gy gx).gy (C.params gy gx).gx G ∧ x = r.F.om G} := by simpa using hl'
      simp only
      rw [hdt]
      refine ih _ (n + 1) _ _ h hp ht (hg.imp_right fun hg => ?_) (tl hl)
      rcases List.mem_cons.1 hg with hg | hg
      · cases hg
      · exact hg
  | ghost k ih =>
    intro n r S h hp ht hg hl
    obtain ⟨c1, c2⟩ := hrun (.ghost .stop) n r S h trivial trivial
    unfold cRun2 at c2 ⊢
    unfold cRef2
    refine ih (n + 1) _ _ c2 hp ht (hg.imp_right fun hg => ?_) (tl hl)
    rcases List.mem_cons.1 hg with hg | hg
    · cases hg
    · exact hg
  | out x k ih =>
    intro n r S h hp ht hg hl
    obtain ⟨c1, c2⟩ := hrun (.out x .stop) n r S h trivial trivial
    unfold cRun2 at c2 ⊢
    unfold cRef2
    refine ih (n + 1) _ _ c2 hp ht (hg.imp_right fun hg => ?_) (tl hl)
    rcases List.mem_cons.1 hg with hg | hg
    · cases hg
    · exact hg

end Saved

/-! ## After the checkpoint -/

theorem interp2_dom {gy gx k : ℕ} {dx : ℝ} {a : Ib2} {X : LagField ℝ} (h : Inside2 gy gx k dx a X) {u u' : C2 → ℝ} (e : ∀ G, Dom2 gy gx G → u' G = u G) {i : ℕ}
    (hi : i < a.N) : interp2 dx (a.sh dx) 2 (cosW2 dx) u' (X 0 i, X 1 i) = interp2 dx (a.sh dx) 2 (cosW2 dx) u (X 0 i, X 1 i) := by
  unfold interp2
  apply Finset.sum_congr rfl
  intro G hG
  have hA := h i hi G hG
  rw [e G (by unfold Away2 at hA; unfold Dom2; push_cast at hA; omega)]

/-- What the restarted run shares with the uninterrupted one. -/
structure SameRun2 (P : Params2) (A : B → Ib2) (seen : B → Prop) (L : List ℝ) (δ : B → ℝ) (r r' : RefC2 B) : Prop where
  F : AgreeDom2 P.gy P.gx r'.F r.F
  Φ : r'.Φ = r.Φ
  time : r'.time = r.time
  fresh : r'.fresh = r.fresh
  pos : ∀ b, ∀ k < 2, ∀ i < (A b).N, (r'.hist b).P k i = (r.hist b).P k i
  vel : ∀ b, seen b → ∀ k < 2, ∀ i < (A b).N, (r'.hist b).V k i = (r.hist b).V k i
  force : ∀ b, seen b → ∀ k < 2, ∀ i < (A b).N, (r'.hist b).F k i = (r.hist b).F k i
  t : ∀ b, (r'.hist b).t = (r.hist b).t + δ b
  lastX : ∀ b, ∀ k < 2, ∀ i < (A b).N, r'.lastX b k i = r.lastX b k i
  log : r.log = L ++ r'.log

theorem agree2_lag {P : Params2} {A : B → Ib2} {seen : B → Prop} {L : List ℝ} {δ : B → ℝ} {r r' : RefC2 B} (h : SameRun2 P A seen L δ r r') {b : B} {X U : LagField ℝ} {n : ℕ}
    (hin : Inside2 P.gy P.gx n P.dx (A b) X) :
    (∀ k, ∀ i < (A b).N, (refLag2 P.dx (A b) r'.F.u X U (r'.hist b)).V k i = (refLag2 P.dx (A b) r.F.u X U (r.hist b)).V k i) ∧
    (∀ k < 2, ∀ i < (A b).N, (refLag2 P.dx (A b) r'.F.u X U (r'.hist b)).F k i = (refLag2 P.dx (A b) r.F.u X U (r.hist b)).F k i) := by
  have hm : ∀ k, ∀ i < (A b).N, mismatch2 P.dx (A b) r'.F.u X U k i = mismatch2 P.dx (A b) r.F.u X U k i := by
    intro k i hi
    unfold mismatch2
    rw [interp2_dom hin (fun G hG => (h.F G hG).2 (comp2 k)) hi]
  refine ⟨hm, ?_⟩
  intro k hk i hi
  simp only [refLag2]
  rw [hm k i hi, h.pos b k hk i hi]

theorem agree2_forces {P : Params2} {A : B → Ib2} {seen : B → Prop} {L : List ℝ} {δ : B → ℝ} {r r' : RefC2 B} (h : SameRun2 P A seen L δ r r') {b : B} {X U : LagField ℝ} {n : ℕ}
    (hin : Inside2 P.gy P.gx n P.dx (A b) X) :
    SameRun2 P A (fun b' => seen b' ∨ b' = b) L δ (refForces2 P.dx (A b) b X U r) (refForces2 P.dx (A b) b X U r') := by
  obtain ⟨hV, hF⟩ := agree2_lag h (U := U) hin
  refine ⟨h.F, h.Φ, h.time, by simp only [refForces2]; rw [h.fresh], ?_, ?_, ?_, ?_, ?_, h.log⟩
  · intro b' k hk i hi
    by_cases e : b' = b
    · subst e; simp only [refForces2, Function.update_self, refLag2]; exact h.pos b' k hk i hi
    · simp only [refForces2, Function.update_of_ne e]; exact h.pos b' k hk i hi
  · intro b' hs k hk i hi
    by_cases e : b' = b
    · subst e; simp only [refForces2, Function.update_self]; exact hV k i hi
    · simp only [refForces2, Function.update_of_ne e]; exact h.vel b' (hs.resolve_right e) k hk i hi
  · intro b' hs k hk i hi
    by_cases e : b' = b
    · subst e; simp only [refForces2, Function.update_self]; exact hF k hk i hi
    · simp only [refForces2, Function.update_of_ne e]; exact h.force b' (hs.resolve_right e) k hk i hi
  · intro b'
    by_cases e : b' = b
    · subst e; simp only [refForces2, Function.update_self, refLag2]; exact h.t b'
    · simp only [refForces2, Function.update_of_ne e]; exact h.t b'
  · intro b' k hk i hi
    by_cases e : b' = b
    · subst e; simp only [refForces2, Function.update_self]
    · simp only [refForces2, Function.update_of_ne e]; exact h.lastX b' k hk i hi

theorem mapping2_congr {T : Cart2} {dx : ℝ} {a : Ib2} {X Y : LagField ℝ} (e : ∀ k < 2, ∀ i < a.N, Y k i = X k i) : a.mapping T dx Y = a.mapping T dx X := by
  unfold Ib2.mapping
  congr 1
  unfold points2
  apply List.map_congr_left
  intro i hi
  have hi := List.mem_range.1 hi
  rw [e 0 (by norm_num) i hi, e 1 (by norm_num) i hi]

/-- a driver that touches bodies before advancing them does not tell the restarted run from the uninterrupted one -/
theorem agree2_run {P : Params2} (hw : 4 ≤ P.w) (hy : P.w + 3 ≤ P.gy) (hx : P.w + 3 ≤ P.gx) {K : Kern2} (hK : K.Local) (cfl tol : ℝ) (A : B → Ib2) (T' : Cart2) (L : List ℝ)
    (δ : B → ℝ) (p : Prog2 B) :
    ∀ (seen : B → Prop) (r r' : RefC2 B), SameRun2 P A seen L δ r r' → Proper2 P K cfl tol A p r → Tracked2 T' P K cfl tol A p r →
      (∀ b l₁ l₂, acts2 P K cfl tol A p r = l₁ ++ .advance b :: l₂ → seen b ∨ .touch b ∈ l₁) →
      Proper2 P K cfl tol A p r' ∧ Tracked2 T' P K cfl tol A p r' ∧
        SameRun2 P A (fun b => seen b ∨ .touch b ∈ acts2 P K cfl tol A p r) L δ (cRef2 P K cfl tol A p r) (cRef2 P K cfl tol A p r') := by
  have look : ∀ {seen : B → Prop} {l : List (Act B)} {x : Act B} {r r' : RefC2 B}, (∀ b, x ≠ .touch b) → SameRun2 P A (fun b => seen b ∨ .touch b ∈ l) L δ r r' →
      SameRun2 P A (fun b => seen b ∨ .touch b ∈ x :: l) L δ r r' := by
    intro seen l x r r' hx h
    have e : ∀ b, (seen b ∨ .touch b ∈ x :: l) → (seen b ∨ .touch b ∈ l) := by
      intro b hb
      refine hb.imp_right fun hb => ?_
      rcases List.mem_cons.1 hb with hb | hb
      · exact absurd hb.symm (hx b)
      · exact hb
    exact ⟨h.F, h.Φ, h.time, h.fresh, h.pos, fun b hb => h.vel b (e b hb), fun b hb => h.force b (e b hb), h.t, h.lastX, h.log⟩
  have touch : ∀ {seen : B → Prop} {l : List (Act B)} {b0 : B} {r r' : RefC2 B}, SameRun2 P A (fun b => (seen b ∨ b = b0) ∨ .touch b ∈ l) L δ r r' →
      SameRun2 P A (fun b => seen b ∨ .touch b ∈ Act.touch b0 :: l) L δ r r' := by
    intro seen l b0 r r' h
    have e : ∀ b, (seen b ∨ .touch b ∈ Act.touch b0 :: l) → ((seen b ∨ b = b0) ∨ .touch b ∈ l) := by
      intro b hb
      rcases hb with hb | hb
      · exact Or.inl (Or.inl hb)
      · rcases List.mem_cons.1 hb with hb | hb
        · cases hb; exact Or.inl (Or.inr rfl)
        · exact Or.inr hb
    exact ⟨h.F, h.Φ, h.time, h.fresh, h.pos, fun b hb => h.vel b (e b hb), fun b hb => h.force b (e b hb), h.t, h.lastX, h.log⟩
  have tl : ∀ {seen : B → Prop} {l : List (Act B)} {x : Act B}, (∀ b, x ≠ .touch b) → (∀ b l₁ l₂, x :: l = l₁ ++ .advance b :: l₂ → seen b ∨ .touch b ∈ l₁) →
      ∀ b l₁ l₂, l = l₁ ++ .advance b :: l₂ → seen b ∨ .touch b ∈ l₁ := by
    intro seen l x hx h b l₁ l₂ e
    refine (h b (x :: l₁) l₂ (by rw [e]; rfl)).imp_right fun hb => ?_
    rcases List.mem_cons.1 hb with hb | hb
    · exact absurd hb.symm (hx b)
    · exact hb
  have ttl : ∀ {seen : B → Prop} {l : List (Act B)} {b0 : B}, (∀ b l₁ l₂, .touch b0 :: l = l₁ ++ .advance b :: l₂ → seen b ∨ .touch b ∈ l₁) →
      ∀ b l₁ l₂, l = l₁ ++ .advance b :: l₂ → (seen b ∨ b = b0) ∨ .touch b ∈ l₁ := by
    intro seen l b0 h b l₁ l₂ e
    rcases h b (.touch b0 :: l₁) l₂ (by rw [e]; rfl) with hb | hb
    · exact Or.inl (Or.inl hb)
    · rcases List.mem_cons.1 hb with hb | hb
      · cases hb; exact Or.inl (Or.inr rfl)
      · exact Or.inr hb
  have hno : ∀ {b : B} {X X' Y : LagField ℝ}, (∀ k < 2, ∀ i < (A b).N, X' k i = X k i) → Noticed2 T' P.dx (A b) X Y → Noticed2 T' P.dx (A b) X' Y := by
    intro b X X' Y e h l l' h1 h2
    rw [mapping2_congr e] at h1
    exact h l l' h1 h2
  induction p with
  | stop =>
    intro seen r r' h _ _ _
    exact ⟨trivial, trivial, ⟨h.F, h.Φ, h.time, h.fresh, h.pos, fun b hb => h.vel b (hb.resolve_right (by simp [acts2])),
      fun b hb => h.force b (hb.resolve_right (by simp [acts2])), h.t, h.lastX, h.log⟩⟩
  | interact b X U k ih =>
    intro seen r r' h hp ht hr
    have hag := agree2_forces h (U := U) hp.1
    obtain ⟨-, hF⟩ := agree2_lag h (U := U) hp.1
    have hΦ : (refFull2 P.dx (A b) b X U r').Φ = (refFull2 P.dx (A b) b X U r).Φ := by
      simp only [refFull2]
      funext j G
      unfold refSpread2
      rw [h.Φ]
      congr 2
      apply List.map_congr_left
      intro i hi
      rw [hF j.1 j.2 i (List.mem_range.1 hi)]
    obtain ⟨i1, i2, i3⟩ := ih _ (refFull2 P.dx (A b) b X U r) (refFull2 P.dx (A b) b X U r')
      ⟨hag.F, hΦ, hag.time, hag.fresh, hag.pos, hag.vel, hag.force, hag.t, hag.lastX, hag.log⟩ hp.2.2 ht.2 (ttl hr)
    exact ⟨⟨hp.1, by rw [h.fresh]; exact hp.2.1, i1⟩, ⟨hno (h.lastX b) ht.1, i2⟩, touch i3⟩
  | forces b X U k ih =>
    intro seen r r' h hp ht hr
    have hag := agree2_forces h (U := U) hp.1
    obtain ⟨-, hF⟩ := agree2_lag h (U := U) hp.1
    have hff : refForceField (A b).N (refLag2 P.dx (A b) r'.F.u X U (r'.hist b)) = refForceField (A b).N (refLag2 P.dx (A b) r.F.u X U (r.hist b)) := by
      funext k i
      unfold refForceField
      split
      · rename_i hki; exact hF k hki.1 i hki.2
      · rfl
    obtain ⟨i1, i2, i3⟩ := ih (refForceField (A b).N (refLag2 P.dx (A b) r.F.u X U (r.hist b))) _ (refForces2 P.dx (A b) b X U r) (refForces2 P.dx (A b) b X U r')
      hag hp.2.2 ht.2 (ttl hr)
    unfold Proper2 Tracked2
    rw [cRef2, cRef2, hff]
    exact ⟨⟨hp.1, by rw [h.fresh]; exact hp.2.1, i1⟩, ⟨hno (h.lastX b) ht.1, i2⟩, touch i3⟩
  | advance b dt k ih =>
    intro seen r r' h hp ht hr
    have hs : seen b := (hr b [] _ rfl).resolve_right (by simp)
    obtain ⟨i1, i2, i3⟩ := ih seen
      { r with hist := Function.update r.hist b { r.hist b with P := fun k i => (r.hist b).P k i + dt * (r.hist b).V k i, t := (r.hist b).t + dt } }
      { r' with hist := Function.update r'.hist b { r'.hist b with P := fun k i => (r'.hist b).P k i + dt * (r'.hist b).V k i, t := (r'.hist b).t + dt } }
      (by
        refine ⟨h.F, h.Φ, h.time, h.fresh, ?_, ?_, ?_, ?_, h.lastX, h.log⟩
        · intro b' k hk i hi
          by_cases e : b' = b
          · subst e
            simp only [Function.update_self]
            rw [h.pos b' k hk i hi, h.vel b' hs k hk i hi]
          · simp only [Function.update_of_ne e]; exact h.pos b' k hk i hi
        · intro b' hs' k hk i hi
          by_cases e : b' = b
          · subst e; simp only [Function.update_self]; exact h.vel b' hs k hk i hi
          · simp only [Function.update_of_ne e]; exact h.vel b' hs' k hk i hi
        · intro b' hs' k hk i hi
          by_cases e : b' = b
          · subst e; simp only [Function.update_self]; exact h.force b' hs k hk i hi
          · simp only [Function.update_of_ne e]; exact h.force b' hs' k hk i hi
        · intro b'
          by_cases e : b' = b
          · subst e; simp only [Function.update_self]; rw [h.t b']; ring
          · simp only [Function.update_of_ne e]; exact h.t b') hp ht (tl (by intro b h; cases h) hr)
    exact ⟨i1, i2, look (by intro b h; cases h) i3⟩
  | flow dt fs k ih =>
    intro seen r r' h hp ht hr
    have hF : AgreeDom2 P.gy P.gx (refForcing2 P K dt fs r'.Φ r'.F) (refForcing2 P K dt fs r.Φ r.F) := by
      unfold refForcing2
      rw [refNS2_agree hw hy hx hK dt fs (F := { r'.F with om := refForce2 P K dt r'.Φ r'.F.om }) (F' := { r.F with om := refForce2 P K dt r.Φ r.F.om })]
      · exact fun G _ => ⟨rfl, fun _ => rfl⟩
      · intro G hG
        refine ⟨?_, (h.F G hG).2⟩
        dsimp only
        unfold refForce2
        rw [(h.F G hG).1, h.Φ]
    obtain ⟨i1, i2, i3⟩ := ih seen { r with F := refForcing2 P K dt fs r.Φ r.F, Φ := fun _ _ => 0, time := r.time + dt, fresh := false }
      { r' with F := refForcing2 P K dt fs r'.Φ r'.F, Φ := fun _ _ => 0, time := r'.time + dt, fresh := false }
      ⟨hF, rfl, by simp only; rw [h.time], rfl, h.pos, h.vel, h.force, h.t, h.lastX, h.log⟩ hp ht (tl (by intro b h; cases h) hr)
    exact ⟨i1, i2, look (by intro b h; cases h) i3⟩
  | stableDt pre k ih =>
    intro seen r r' h hp ht hr
    obtain ⟨i1, i2, i3⟩ := ih _ seen r r' h hp ht (tl (by intro b h; cases h) hr)
    unfold Proper2 Tracked2
    rw [cRef2, cRef2, refDt2_agree h.F]
    exact ⟨i1, i2, look (by intro b h; cases h) i3⟩
  | deviation b k ih =>
    intro seen r r' h hp ht hr
    obtain ⟨i1, i2, i3⟩ := ih _ seen r r' h hp ht (tl (by intro b h; cases h) hr)
    unfold Proper2 Tracked2
    rw [cRef2, cRef2, refDeviation_congr (h.pos b)]
    exact ⟨i1, i2, look (by intro b h; cases h) i3⟩
  | maxVort k ih =>
    intro seen r r' h hp ht hr
    have hset : {x | ∃ G, Dom2 P.gy P.gx G ∧ x = r'.F.om G} = {x | ∃ G, Dom2 P.gy P.gx G ∧ x = r.F.om G} := by
      ext x
      constructor
      · rintro ⟨G, hG, rfl⟩; exact ⟨G, hG, (h.F G hG).1⟩
      · rintro ⟨G, hG, rfl⟩; exact ⟨G, hG, (h.F G hG).1.symm⟩
    obtain ⟨i1, i2, i3⟩ := ih _ seen r r' h hp ht (tl (by intro b h; cases h) hr)
    unfold Proper2 Tracked2
    rw [cRef2, cRef2, hset]
    exact ⟨i1, i2, look (by intro b h; cases h) i3⟩
  | ghost k ih =>
    intro seen r r' h hp ht hr
    obtain ⟨i1, i2, i3⟩ := ih seen { r with fresh := true } { r' with fresh := true } ⟨h.F, h.Φ, h.time, rfl, h.pos, h.vel, h.force, h.t, h.lastX, h.log⟩ hp ht
      (tl (by intro b h; cases h) hr)
    exact ⟨i1, i2, look (by intro b h; cases h) i3⟩
  | out x k ih =>
    intro seen r r' h hp ht hr
    obtain ⟨i1, i2, i3⟩ := ih seen { r with log := r.log ++ [x] } { r' with log := r'.log ++ [x] }
      ⟨h.F, h.Φ, h.time, h.fresh, h.pos, h.vel, h.force, h.t, h.lastX, by simp only; rw [h.log, List.append_assoc]⟩ hp ht (tl (by intro b h; cases h) hr)
    exact ⟨i1, i2, look (by intro b h; cases h) i3⟩

/-! ## C84 -/

section Main
variable {T T' : Cart2}

theorem loadSim2_forcing {g : ℕ} {origin dx : List ℚ} {gs : List ℕ} {file : H5 ℝ C2 ℝ} {S S2 : Sim2 T} (h : loadSim2 g origin dx gs file S = .ok S2) :
    S2.forcing = S.forcing := by
  unfold loadSim2 at h
  split at h
  · cases h
  · split at h
    · cases h
    · cases h; rfl

/-- an interactor that loaded a checkpoint -/
theorem restoreIb2_holds {g : ℕ} {dx : ℝ} {a : Ib2} (ha : a.Ok) (hN : a.N ≠ 2) (mr mr' : ℤ) {order : String → List C2} {v : Vbf C2 ℝ} {Xs X' X0 : LagField ℝ} {t t0 : ℝ}
    {b : IbSt2} (hb : IbHolds2 T' dx a (nodeInit t0) X0 b) {addr : List C2} (hm : a.mapping T' dx Xs = .ok addr) (hl : addr.length = a.N) (hv : ∀ c ∈ addr, Valid2 T' c) :
    ∃ file b2, saveForcing (ioGeo2 T g) order mr a.N Xs v t = .ok file ∧ restoreIb2 T' g dx a mr' file X' b = .ok b2 ∧
      IbHolds2 T' dx a ⟨v.gposM, v.gvelM, fun _ _ => 0, t0⟩ Xs b2 := by
  obtain ⟨file, f1, f2⟩ := forcing_roundtrip (I' := C2) (ioGeo2 T g) (ioGeo2 T' g) rfl order mr mr' (N := a.N) hN Xs X' v b.v t
  refine ⟨file, { b with v := vbfRemap (a.vbf T' dx) Xs { b.v with gposM := v.gposM, gvelM := v.gvelM } }, f1, ?_, ?_⟩
  · unfold restoreIb2
    rw [f2]
    dsimp only
    rw [hm]
  · have had : (a.vbf T' dx).addrOf Xs = addr := by
      change okOr [] (a.mapping T' dx Xs) = addr
      rw [hm]; rfl
    have hs := remap_stores (a.vbf T' dx) ha.ord (N := a.N) (v := { b.v with gposM := v.gposM, gvelM := v.gvelM }) (P := v.gposM) (V := v.gvelM) (F := fun _ _ => 0)
      (fun _ _ _ _ => ⟨rfl, rfl⟩) (fun k hk i hi => hb.stores.force k hk i hi) Xs (by
        rw [had]
        exact ⟨hl, fun r hr => mem_ranks2.2 (hv r hr)⟩)
    refine ⟨?_, ?_, hb.clean⟩
    · have ht : b.v.time = t0 := hb.stores.time
      rw [← ht]
      exact hs
    · change a.mapping T' dx Xs = .ok ((a.vbf T' dx).addrOf Xs)
      rw [had]; exact hm

variable [NeZero T.gy] [NeZero T.gx] [NeZero T'.gy] [NeZero T'.gx]

/-- C84: flow with immersed bodies; penalty zone of at least 4 cells, number of nodes of every body different from 2. A driver `p₁` runs and a
checkpoint is taken at a good moment (`Rested`): flow fields, and for every body positions of its nodes and mismatch fields. A newly constructed simulator and interactors, on
any decomposition of the same grid with any master ranks, set up in any way, load the files. Nothing raises, and a driver `p₂` that interacts with a body before advancing
it goes on as if there had been no interruption: same time, same output, same fields in every cell, same forces on every node of every body interacted with; the clocks of
the interactors advance by the same amount (they are not restored). -/
theorem crestart2 {a a' : SimArgs2} (hsame : a' = { a with py := a'.py, px := a'.px }) {xr : ℝ} (hxr : 0 < xr) {nu cfl : ℝ} (hcfl : 0 ≤ cfl)
    (hw : 4 ≤ widthOf a.width) (hwy : widthOf a.width + 3 ≤ a.gy) (hwx : widthOf a.width + 3 ≤ a.gx) {tol : ℝ} (htol : 0 < tol) {K : Kern2} (hK : K.Local)
    (hK0 : ∀ r, K.upd r (fun _ _ => 0) = 0)
    {A A' : B → Ib2} (hA : ∀ b, A' b = { A b with m := (A' b).m, ord := (A' b).ord, junk := (A' b).junk }) (hN : ∀ b, (A b).N ≠ 2)
    {X0 X0' : B → LagField ℝ} {t0 t0' : B → ℝ} {time time' : ℝ} {om om' : ℝ → ℝ → ℝ} {u u' : Fin 2 → ℝ → ℝ → ℝ}
    {S : CSt2 T B} (h : Setup2 a xr nu cfl A X0 t0 time om u S) {S' : CSt2 T' B} (h' : Setup2 a' xr nu cfl A' X0' t0' time' om' u' S')
    {o₁ o₂ o' : ℕ → CScheds2} (ho₁ : ∀ n, (o₁ n).Done T (simCfg2 a T xr nu cfl).d) (ho₂ : ∀ n, (o₂ n).Done T (simCfg2 a T xr nu cfl).d)
    (ho' : ∀ n, (o' n).Done T' (simCfg2 a' T' xr nu cfl).d) (p₁ : Prog2 B) {P : Params2} (hP : P = ⟨a.gy, a.gx, xr, nu, widthOf a.width, a.freeStream⟩)
    (hp₁ : Proper2 P K cfl tol A p₁ (refStart2 (xr / a.gx) X0 t0 time om u)) (ht₁ : Tracked2 T P K cfl tol A p₁ (refStart2 (xr / a.gx) X0 t0 time om u))
    (hrest : Rested (acts2 P K cfl tol A p₁ (refStart2 (xr / a.gx) X0 t0 time om u)))
    {r₁ : RefC2 B} (hr₁ : r₁ = cRef2 P K cfl tol A p₁ (refStart2 (xr / a.gx) X0 t0 time om u))
    (origin dx : List ℚ) {order : String → List C2} (hord : ∀ s c, c ∈ order s ↔ Valid2 T c) (orderL : String → List C2) (mr mr' : B → ℤ)
    {X : B → LagField ℝ} (hX : ∀ b, ∀ k < 2, ∀ i < (A b).N, X b k i = r₁.lastX b k i) (X' : B → LagField ℝ) (p₂ : Prog2 B)
    (hp₂ : Proper2 P K cfl tol A p₂ r₁) (ht₂ : Tracked2 T P K cfl tol A p₂ r₁) (ht₂' : Tracked2 T' P K cfl tol A p₂ r₁)
    (htouch : TouchFirst (acts2 P K cfl tol A p₂ r₁)) (n n' : ℕ) :
    let S₁ := (cRun2 (simCfg2 a T xr nu cfl) K tol A o₁ p₁ 0 S).1
    let out := cRun2 (simCfg2 a T xr nu cfl) K tol A o₂ p₂ n S₁
    ∃ (file : H5 ℝ C2 ℝ) (sim₂ : Sim2 T') (files : B → H5 ℝ C2 ℝ) (ib₂ : B → IbSt2), (cRun2 (simCfg2 a T xr nu cfl) K tol A o₁ p₁ 0 S).2 = none ∧
      saveSim2 2 origin dx [a.gy, a.gx] order S₁.sim = .ok file ∧
      loadSim2 2 origin dx [a.gy, a.gx] file S'.sim = .ok sim₂ ∧
      (∀ b, saveForcing (ioGeo2 T 2) orderL (mr b) (A b).N (X b) (S₁.ib b).v S₁.sim.time = .ok (files b) ∧
        restoreIb2 T' 2 (simDx2 T' xr) (A' b) (mr' b) (files b) (X' b) (S'.ib b) = .ok (ib₂ b)) ∧
      let out' := cRun2 (simCfg2 a' T' xr nu cfl) K tol A' o' p₂ n' ⟨sim₂, ib₂, []⟩
      out.2 = none ∧ out'.2 = none ∧ out'.1.sim.time = out.1.sim.time ∧ out.1.log = S₁.log ++ out'.1.log ∧
      (∀ c q c' q', Valid2 T c → Inner2 T ((2 : ℕ) : ℤ) q → Valid2 T' c' → Inner2 T' ((2 : ℕ) : ℤ) q' → globalIx2 T ((2 : ℕ) : ℤ) c q = globalIx2 T' ((2 : ℕ) : ℤ) c' q' →
        out'.1.sim.prim c' q' = out.1.sim.prim c q ∧ ∀ j, out'.1.sim.vel j c' q' = out.1.sim.vel j c q ∧ out'.1.sim.forcing j c' q' = out.1.sim.forcing j c q) ∧
      (∀ b, .touch b ∈ acts2 P K cfl tol A p₂ r₁ → ∀ k < 2, ∀ i < (A b).N, (out'.1.ib b).v.gforce k i = (out.1.ib b).v.gforce k i) ∧
      ∀ b, (out'.1.ib b).v.time - t0' b = (out.1.ib b).v.time - (S₁.ib b).v.time := by
  intro S₁ out
  obtain ⟨hT, -⟩ := simCheck2_cart' h.fit.built
  obtain ⟨hT', -⟩ := simCheck2_cart' h'.fit.built
  obtain ⟨e1, e2, -⟩ := construct2_ok hT
  obtain ⟨e1', e2', -⟩ := construct2_ok hT'
  have eg : a'.gy = a.gy ∧ a'.gx = a.gx := by rw [hsame]; exact ⟨rfl, rfl⟩
  have eP : (⟨a'.gy, a'.gx, xr, nu, widthOf a'.width, a'.freeStream⟩ : Params2) = P := by rw [hP, hsame]
  have hT'' : mkCart2 a.gy a.gx a'.py a'.px false = .ok T' := by rw [← eg.1, ← eg.2]; exact hT'
  have hgood := h.fit.good hxr nu cfl
  have hgood' := h'.fit.good hxr nu cfl
  obtain ⟨gn, hd⟩ := h.fit.dbl xr nu cfl (by change a.flowType ≠ _; rw [h.flowType]; simp)
  obtain ⟨gn', hd'⟩ := h'.fit.dbl xr nu cfl (by change a'.flowType ≠ _; rw [h'.flowType]; simp)
  have hdx'' : simDx2 T' xr = xr / a.gx := by unfold simDx2; rw [e2', eg.2]
  have hgx0 : T.gx ≠ 0 := NeZero.ne _
  have hdx : 0 < xr / (a.gx : ℝ) := div_pos hxr (by rw [← e2]; exact_mod_cast Nat.pos_of_ne_zero hgx0)
  have hny := h'.fit.ny
  have hnx := h'.fit.nx
  have hPc : (simCfg2 a T xr nu cfl).params a.gy a.gx = P := by rw [hP]; rfl
  have hPc' : (simCfg2 a' T' xr nu cfl).params a'.gy a'.gx = P := by rw [← eP]; rfl
  have hPdx : P.dx = xr / a.gx := by rw [hP]; rfl
  have hPw : 4 ≤ P.w := by rw [hP]; exact hw
  have hPy : P.w + 3 ≤ P.gy := by rw [hP]; exact hwy
  have hPx : P.w + 3 ≤ P.gx := by rw [hP]; exact hwx
  have hPgy : P.gy = a.gy := by rw [hP]
  have hPgx : P.gx = a.gx := by rw [hP]
  -- first run
  obtain ⟨a1, a2, hok⟩ := coupled2_holds hxr hcfl htol hK hK0 h ho₁ p₁ (by rw [← hP]; exact hp₁) (by rw [← hP]; exact ht₁)
  rw [← hP, ← hr₁] at a2
  obtain ⟨c0, c1, -⟩ := coupled2_holds hxr hcfl htol hK hK0 h ho₁ .stop trivial trivial
  have hstart : CHolds2 a.gy a.gx (simCfg2 a T xr nu cfl) A (refStart2 (xr / a.gx) X0 t0 time om u) S := c1
  -- the new objects
  obtain ⟨d0, d1, hok'⟩ := coupled2_holds hxr hcfl htol hK hK0 h' (o := o') ho' .stop trivial trivial
  have hnew : CHolds2 a'.gy a'.gx (simCfg2 a' T' xr nu cfl) A' (refStart2 (xr / a'.gx) X0' t0' time' om' u') S' := d1
  -- the checkpoint
  have hflow := rested2_flow P K cfl tol A p₁ (refStart2 (xr / a.gx) X0 t0 time om u) (hrest.flow.imp_left fun hl => ⟨hl, rfl, rfl⟩)
  rw [← hr₁] at hflow
  have hin := proper2_inside P K cfl tol A p₁ (refStart2 (xr / a.gx) X0 t0 time om u) hp₁ (by rw [hPgy, hPgx, hPdx]; exact h.inside)
  rw [← hr₁, hPgy, hPgx, hPdx] at hin
  have hpos : ∀ b, ∀ k < 2, ∀ i < (A b).N, (S₁.ib b).v.gposM k i = (r₁.hist b).P k i := by
    intro b
    have := rested2_saved (gy := a.gy) (gx := a.gx) (C := simCfg2 a T xr nu cfl) (K := K) (tol := tol) hok (params_dx hT (simCfg2 a T xr nu cfl))
      (o := o₁)
      (fun p n r S => cRun2_holds hT hgood hd h.flowType hcfl htol hK hK0 hok ho₁ p n) b p₁ 0 _ S hstart (by rw [hPc]; exact hp₁) (by rw [hPc]; exact ht₁) (Or.inl ?_)
      (by rw [hPc]; exact hrest.bodies b)
    · rw [hPc] at this
      rw [hr₁]
      exact this
    intro k hk i hi
    have hib := h.ib b
    unfold ibInit2 at hib
    simp only [bind, Except.bind] at hib
    split at hib
    · cases hib
    · split at hib
      · cases hib
      · split at hib
        · cases hib
        · rw [← Except.ok.inj hib]; rfl
  have hinX : ∀ b, Inside2 a.gy a.gx 0 (xr / a.gx) (A b) (X b) := fun b => inside2_congr (hin b) (hX b)
  have hib : ∀ b, ∃ file b2, saveForcing (ioGeo2 T 2) orderL (mr b) (A b).N (X b) (S₁.ib b).v S₁.sim.time = .ok file ∧
      restoreIb2 T' 2 (simDx2 T' xr) (A' b) (mr' b) file (X' b) (S'.ib b) = .ok b2 ∧
      IbHolds2 T' (xr / a.gx) (A' b) ⟨(S₁.ib b).v.gposM, (S₁.ib b).v.gvelM, fun _ _ => 0, t0' b⟩ (X b) b2 := by
    intro b
    have hNA : (A' b).N = (A b).N := by rw [hA b]
    have hin' : Inside2 a.gy a.gx 0 (xr / a.gx) (A' b) (X b) := by rw [hA b]; exact hinX b
    obtain ⟨addr, m1, m2, m3, -⟩ := owned_of_inside2 hT'' (by omega) (by omega) hdx hin'
    have hh := hnew.ib b
    change IbHolds2 T' (xr / a'.gx) (A' b) (nodeInit (t0' b)) (X0' b) (S'.ib b) at hh
    rw [eg.2] at hh
    have := restoreIb2_holds (T := T) (g := 2) (hok' b) (by rw [hNA]; exact hN b) (mr b) (mr' b) (order := orderL) (v := (S₁.ib b).v) (X' := X' b) (t := S₁.sim.time) hh
      m1 m2 m3
    rw [hNA] at this
    rw [hdx'']
    exact this
  choose files ib₂ b1 b2 b3 using hib
  obtain ⟨file, sim₂, f1, f2, f3, f4⟩ := loaded2_holds hT hT'' origin dx hord (C := simCfg2 a T xr nu cfl) (C' := simCfg2 a' T' xr nu cfl) a2.sim hnew.sim
  have hforcing := loadSim2_forcing f2
  refine ⟨file, sim₂, files, ib₂, a1, f1, f2, fun b => ⟨b1 b, b2 b⟩, ?_⟩
  intro out'
  -- the restarted run on the global grid
  let r' : RefC2 B := ⟨overlay2 a.gy a.gx r₁.F (fieldsFrom2 (xr / a'.gx) om' u'), fun _ _ => 0, r₁.time,
    fun b => ⟨(S₁.ib b).v.gposM, (S₁.ib b).v.gvelM, fun _ _ => 0, t0' b⟩, X, [], false⟩
  have hres : CHolds2 a'.gy a'.gx (simCfg2 a' T' xr nu cfl) A' r' ⟨sim₂, ib₂, []⟩ := by
    refine ⟨f4, f3.trans a2.time, ?_, fun _ _ _ => rfl, (by intro hf; cases hf), ?_, rfl⟩
    · change ForceClean2 T' (fun _ _ => 0) sim₂.forcing
      rw [hforcing]
      exact hnew.force
    · intro b
      change IbHolds2 T' (xr / a'.gx) (A' b) _ _ _
      rw [eg.2]
      exact b3 b
  have hag : SameRun2 P A (fun _ => False) r₁.log (fun b => t0' b - (r₁.hist b).t) r₁ r' := by
    refine ⟨?_, hflow.1.symm, rfl, hflow.2.symm, hpos, fun _ hf => hf.elim, fun _ hf => hf.elim, fun b => by change t0' b = _; ring, hX, by simp [r']⟩
    rw [hPgy, hPgx]
    exact overlay2_agree a.gy a.gx _ _
  obtain ⟨g1, g2, g3⟩ := agree2_run hPw hPy hPx hK cfl tol A T' r₁.log (fun b => t0' b - (r₁.hist b).t) p₂ (fun _ => False) r₁ r' hag hp₂ ht₂'
    (fun b l₁ l₂ e => Or.inr (htouch b l₁ l₂ e))
  obtain ⟨s1, s2, s3⟩ := same_bodies2 hA P K cfl tol T' p₂ r'
  obtain ⟨x1, x2⟩ := cRun2_holds hT hgood hd h.flowType hcfl htol hK hK0 hok ho₂ p₂ n a2 (by rw [hPc]; exact hp₂) (by rw [hPc]; exact ht₂)
  obtain ⟨y1, y2⟩ := cRun2_holds hT' hgood' hd' h'.flowType hcfl htol hK hK0 hok' (o := o')
    ho' p₂ n' hres (by rw [hPc']; exact s2.2 g1) (by rw [hPc']; exact s3.2 g2)
  have y3 : CHolds2 a'.gy a'.gx (simCfg2 a' T' xr nu cfl) A' (cRef2 P K cfl tol A p₂ r') out'.1 := by
    rw [← s1]; rw [hPc'] at y2; exact y2
  have x3 : CHolds2 a.gy a.gx (simCfg2 a T xr nu cfl) A (cRef2 P K cfl tol A p₂ r₁) out.1 := by
    rw [hPc] at x2; exact x2
  refine ⟨x1, y1, ?_, ?_, ?_, ?_, ?_⟩
  · rw [x3.time, y3.time, g3.time]
  · rw [x3.log, y3.log, g3.log]
    congr 1
    exact a2.log.symm
  · intro c q c' q' hc hq hc' hq' hG
    have hD : Dom2 P.gy P.gx (globalIx2 T ((2 : ℕ) : ℤ) c q) := by rw [hPgy, hPgx]; exact (dom2_iff hT _).2 (inner_inDomain2 hT hc hq)
    obtain ⟨k1, k2⟩ := g3.F _ hD
    have u1 := x3.sim.om c q hc (inArr_of_inner2 hq) (Or.inl hq)
    have v1 := y3.sim.om c' q' hc' (inArr_of_inner2 hq') (Or.inl hq')
    rw [← hG] at v1
    refine ⟨(v1.trans k1).trans u1.symm, fun j => ?_⟩
    have u2 := x3.sim.u j c q hc (inArr_of_inner2 hq) (Or.inl hq)
    have u3 := (x3.force j c q hc).1 hq
    have v2 := y3.sim.u j c' q' hc' (inArr_of_inner2 hq') (Or.inl hq')
    have v3 := (y3.force j c' q' hc').1 hq'
    rw [← hG] at v2 v3
    exact ⟨(v2.trans (k2 j)).trans u2.symm, (v3.trans (by rw [g3.Φ])).trans u3.symm⟩
  · intro b hb k hk i hi
    have hNA : (A' b).N = (A b).N := by rw [hA b]
    rw [(x3.ib b).stores.force k hk i hi]
    exact ((y3.ib b).stores.force k hk i (by rw [hNA]; exact hi)).trans (g3.force b (Or.inr hb) k hk i hi)
  · intro b
    rw [(x3.ib b).stores.time, (y3.ib b).stores.time, g3.t b, (a2.ib b).stores.time]
    ring

end Main

/-! ## The hypotheses can be met -/

/-- A body with three nodes, two of them at the same place. -/
def exTrio2 : Ib2 := { exBody2 with N := 3 }

theorem exTrio2_inside : Inside2 16 8 1 1 exTrio2 exPos2 := by
  intro i hi G hG
  rcases (by change i < 3 at hi; omega : i < 2 ∨ i = 2) with hi | rfl
  · exact exBody2_inside i hi G hG
  · exact exBody2_inside 1 (by change 1 < 2; norm_num) G hG

/-- One iteration as in the example: the forces on the body, its time step, interaction, the time step of the flow, printing. -/
noncomputable def exLoop2 : Prog2 Unit :=
  .stableDt 0.5 fun dt => .forces () exPos2 (fun _ _ => 0) fun f => .advance () dt <| .interact () exPos2 (fun k _ => f k 0) <| .flow dt (fun _ => 1) <|
    .maxVort fun x => .out x .stop

/-- The driver is rested at the end and interacts before it advances. -/
example (P : Params2) (K : Kern2) (cfl tol : ℝ) (r : RefC2 Unit) :
    Rested (acts2 P K cfl tol (fun _ => exTrio2) exLoop2 r) ∧ TouchFirst (acts2 P K cfl tol (fun _ => exTrio2) exLoop2 r) := by
  have e : acts2 P K cfl tol (fun _ => exTrio2) exLoop2 r = ([.look, .touch (), .advance (), .touch (), .flow, .look, .look] : List (Act Unit)) := rfl
  have key : ∀ b l₁ l₂, ([.look, .touch (), .advance (), .touch (), .flow, .look, .look] : List (Act Unit)) = l₁ ++ .advance b :: l₂ → l₁ = [.look, .touch ()] ∧
      l₂ = [.touch (), .flow, .look, .look] := by
    intro b l₁ l₂ h
    rcases l₁ with _ | ⟨x1, _ | ⟨x2, _ | ⟨x3, _ | ⟨x4, _ | ⟨x5, _ | ⟨x6, _ | ⟨x7, l₁⟩⟩⟩⟩⟩⟩⟩ <;> simp at h
    obtain ⟨rfl, rfl, h⟩ := h
    exact ⟨rfl, h.symm⟩
  rw [e]
  refine ⟨⟨Or.inr ⟨[.look, .touch (), .advance (), .touch ()], [.look, .look], rfl, by simp⟩, ?_⟩, ?_⟩
  · intro b l₁ l₂ h
    obtain ⟨-, rfl⟩ := key b l₁ l₂ h
    simp
  · intro b l₁ l₂ h
    obtain ⟨rfl, -⟩ := key b l₁ l₂ h
    simp

/-- It meets the other hypotheses too, before and after the checkpoint. -/
example (P : Params2) (hP : P.gy = 16 ∧ P.gx = 8 ∧ P.dx = 1) (K : Kern2) (cfl tol : ℝ) (T : Cart2) (r : RefC2 Unit) (hr : r.lastX = fun _ => exPos2) :
    Proper2 P K cfl tol (fun _ => exTrio2) exLoop2 r ∧ Tracked2 T P K cfl tol (fun _ => exTrio2) exLoop2 r ∧
      (cRef2 P K cfl tol (fun _ => exTrio2) exLoop2 r).lastX = (fun _ => exPos2) ∧ exTrio2.N ≠ 2 := by
  obtain ⟨h1, h2, h3⟩ := hP
  refine ⟨?_, ?_, ?_, by decide⟩
  · unfold exLoop2
    simp only [Proper2, h1, h2, h3]
    exact ⟨inside2_le exTrio2_inside, Or.inl rfl, exTrio2_inside, Or.inl rfl, trivial⟩
  · refine tracked2_still P K cfl tol _ (fun _ => exPos2) _ ?_ r hr
    unfold exLoop2
    simp only [Still2]
    simp
  · funext _
    simp [exLoop2, cRef2, refFull2, refForces2]

/-- Simulators on two ranks and on one, with a penalty zone wide enough. -/
example : Fit2 ⟨16, 8, 1, 2, "navier_stokes_with_forcing", true, 2, .int 4⟩ ⟨16, 8, 1, 2, 16, 4, false⟩ ∧
    Fit2 ⟨16, 8, 1, 1, "navier_stokes_with_forcing", true, 2, .int 4⟩ ⟨16, 8, 1, 1, 16, 8, false⟩ ∧
    4 ≤ widthOf (.int 4) ∧ widthOf (.int 4) + 3 ≤ 16 ∧ widthOf (.int 4) + 3 ≤ 8 := by
  refine ⟨⟨by decide, ?_, rfl, by decide, by decide, by decide, by decide⟩, ⟨by decide, ?_, rfl, by decide, by decide, by decide, by decide⟩, by decide, by decide, by decide⟩ <;>
    exact ⟨by decide, fun _ => ⟨by decide, 4, rfl⟩⟩

end Sopht
