import Verif.AsyncIb3D
import Verif.AsyncIb2DProps

/-! # Flow and immersed bodies in 3D, run by ranks at their own speed (C87) -/

namespace Sopht

set_option linter.unusedSimpArgs false

variable {T : Cart3} {B : Type} {b : Bool} {C : Cfg3} {K : Kern3}

/-! ## The pieces of one call -/

theorem ghostPiece3_exec {S : Sim3 T} {dt : ℝ} {w w' : C3 → Rk3 T} (hR : Rep3 S dt w) (h : ExecSeq b (ghostPiece3 C) w w') :
    ∃ s : List Ev, Complete (multiMsgs3 T C.g C.full ([0, 1, 2] : List (Fin 3))) s ∧ Rep3 { S with vel := ghostVel3 T C.g C.full s S.vel } dt w' := by
  obtain ⟨w1, h1, w2, h2, rfl⟩ := h
  obtain ⟨s1, s, hc, hin, -⟩ := exchLayer_exec (ranks3_nodup T) partF3 _ ((ghost3_all_matched T C.g C.full).vec ([0, 1, 2] : List (Fin 3))) (by intro c s; rfl) h1
  have hl := (locLayer_exec h2).1
  refine ⟨s, hc, ?_⟩
  have hA : ∀ (e : List Ev), ∀ c ∈ ranks3 T, runNet (allMsgs (ranks3 T) (vecPosts ([0, 1, 2] : List (Fin 3)) (posts3 T C.g C.full)))
      (fun r i => (w r).vel i.1 (i.2)) e c = runNet (multiMsgs3 T C.g C.full ([0, 1, 2] : List (Fin 3))) (fun r i => asFam S.vel r i) e c := by
    intro e
    refine runNet_congr _ (fun r hr => ?_) e
    funext i
    exact congrFun (hR.vel r hr i.1) i.2
  have hw : ∀ c ∈ ranks3 T, w' c = _ := fun c hc => (hl c hc).trans (by rw [hin c hc])
  constructor <;> intro c hc <;> rw [hw c hc] <;> dsimp only [partF3] <;> rest3 hR, c, hc
  intro j
  rw [hA s c hc]
  rfl

/-- The state after reset and ghost exchange. -/
noncomputable def preState3 (C : Cfg3) (a : Ib3) (full : Bool) (s : List Ev) (S : Sim3 T) : Sim3 T :=
  { S with
    vel := if a.auto then ghostVel3 T C.g C.full s S.vel else S.vel
    forcing := if full && a.reset then fun _ _ _ => 0 else S.forcing }

theorem prePiece3_exec {S : Sim3 T} {dt : ℝ} {w w' : C3 → Rk3 T} {a : Ib3} {full : Bool} (hR : Rep3 S dt w) (h : ExecSeq b (prePiece3 C a full) w w') :
    ∃ s : List Ev, Complete (multiMsgs3 T C.g C.full ([0, 1, 2] : List (Fin 3))) s ∧ Rep3 (preState3 C a full s S) dt w' := by
  unfold prePiece3 at h
  obtain ⟨w1, h1, h2⟩ := execSeq_append h
  have k1 : ∃ s : List Ev, Complete (multiMsgs3 T C.g C.full ([0, 1, 2] : List (Fin 3))) s ∧ Rep3 { S with vel := if a.auto then ghostVel3 T C.g C.full s S.vel else S.vel } dt w1 := by
    split at h1
    · rename_i ha
      obtain ⟨s, hs, r⟩ := ghostPiece3_exec hR h1
      exact ⟨s, hs, by rw [if_pos ha]; exact r⟩
    · rename_i ha
      obtain ⟨s, hs⟩ := complete_schedule_exists (multiMsgs3 T C.g C.full ([0, 1, 2] : List (Fin 3)))
      have h1 : w1 = w := h1
      subst h1
      exact ⟨s, hs, by rw [if_neg ha]; exact hR⟩
  obtain ⟨s, hs, r1⟩ := k1
  refine ⟨s, hs, ?_⟩
  split at h2
  · rename_i hf
    obtain ⟨w2, h2, rfl⟩ := h2
    have hl := (locLayer_exec h2).1
    unfold preState3
    rw [if_pos hf]
    constructor <;> intro c hc <;> rw [hl c hc] <;> dsimp only <;> rest3 r1, c, hc
    intro j; rfl
  · rename_i hf
    have h2 : w' = w1 := h2
    subst h2
    unfold preState3
    rw [if_neg hf]
    exact r1

theorem ghostPiece3_pieces (C : Cfg3) : ∀ L ∈ ghostPiece3 (T := T) C, Piece (ranks3 T) L := by
  intro L hL
  simp only [ghostPiece3, List.mem_cons, List.not_mem_nil, or_false] at hL
  rcases hL with rfl | rfl
  · exact exchLayer_piece _ _ ((ghost3_all_matched T C.g C.full).vec _) _
  · exact locLayer_piece _ _

theorem prePiece3_pieces (C : Cfg3) (a : Ib3) (full : Bool) : ∀ L ∈ prePiece3 (T := T) C a full, Piece (ranks3 T) L := by
  intro L hL
  unfold prePiece3 at hL
  rcases List.mem_append.1 hL with hL | hL
  · split at hL
    · exact ghostPiece3_pieces C L hL
    · cases hL
  · split at hL
    · rw [List.mem_singleton.1 hL]; exact locLayer_piece _ _
    · cases hL

theorem divPiece3_pieces (C : Cfg3) (K : Kern3) : ∀ L ∈ divPiece3 (T := T) C K, Piece (ranks3 T) L := by
  intro L hL
  simp only [divPiece3, List.mem_cons, List.not_mem_nil, or_false] at hL
  rcases hL with rfl | rfl
  · exact exchLayer_piece _ _ ((ghost3_all_matched T C.g C.full).vec _) _
  · exact locLayer_piece _ _

theorem divPiece3_exec (hns : isNS C.flowType = true) {S : Sim3 T} {dt : ℝ} {w w' : C3 → Rk3 T} (hR : Rep3 S dt w) (h : ExecSeq b (divPiece3 C K) w w') :
    ∃ sch : Sched3, Complete (multiMsgs3 T C.g C.full ([0, 1, 2] : List (Fin 3))) sch.2 ∧ Rep3 (divNorm3 C K sch S).1 dt w' := by
  obtain ⟨w1, h1, w2, h2, rfl⟩ := h
  obtain ⟨s1, s, hc, hin, -⟩ := exchLayer_exec (ranks3_nodup T) partF3 _ ((ghost3_all_matched T C.g C.full).vec ([0, 1, 2] : List (Fin 3))) (by intro c s; rfl) h1
  have hl := (locLayer_exec h2).1
  refine ⟨(s1, s), hc, ?_⟩
  have hA : ∀ (e : List Ev), ∀ c ∈ ranks3 T, runNet (allMsgs (ranks3 T) (vecPosts ([0, 1, 2] : List (Fin 3)) (posts3 T C.g C.full)))
      (fun r i => (w r).om i.1 i.2) e c = runNet (multiMsgs3 T C.g C.full ([0, 1, 2] : List (Fin 3))) (asFam S.om) e c := by
    intro e
    refine runNet_congr _ (fun r hr => ?_) e
    funext i
    exact congrFun (hR.om r hr i.1) i.2
  have hw : ∀ c ∈ ranks3 T, w' c = _ := fun c hc => (hl c hc).trans (by rw [hin c hc])
  unfold divNorm3
  rw [if_pos hns]
  constructor <;> intro c hc <;> rw [hw c hc] <;> dsimp only [partF3] <;> rest3 hR, c, hc
  · intro j
    rw [hA s c hc]
    rfl
  · rw [hA s c hc, hA (s1 c) c hc, hR.buf c hc]
    rfl

section
variable [NeZero T.gz] [NeZero T.gy] [NeZero T.gx] {gz gy gx pz py px : ℕ}

theorem stepPiece3_pieces (hE : isNS C.flowType = true → EvenTopo3 T) (tol dt : ℝ) (fs : Fin 3 → ℝ) : ∀ L ∈ stepPiece3 (T := T) C K tol dt fs, Piece (ranks3 T) L := by
  intro L hL
  refine simPieces3_pieces (K := K) hE tol [⟨.fixed dt, fs, fun _ _ _ => 0⟩] L ?_
  unfold stepPiece3 at hL
  unfold simPieces3 iterPiece3
  simp only [List.flatMap_cons, List.flatMap_nil, List.append_nil, List.mem_append, List.mem_singleton] at hL ⊢
  rcases hL with (h | h) | h
  · exact Or.inl h
  · exact Or.inr (Or.inr (Or.inl h))
  · exact Or.inr (Or.inr (Or.inr h))

theorem stablePiece3_pieces (hE : isNS C.flowType = true → EvenTopo3 T) (K : Kern3) (tol pre : ℝ) : ∀ L ∈ dtPiece3 (T := T) C tol (.stable pre), Piece (ranks3 T) L := by
  intro L hL
  refine simPieces3_pieces (K := K) hE tol [⟨.stable pre, fun _ => 0, fun _ _ _ => 0⟩] L ?_
  unfold simPieces3 iterPiece3
  simp only [List.flatMap_cons, List.flatMap_nil, List.append_nil, List.mem_append]
  exact Or.inl hL

end

/-! ## What all ranks hold together -/

/-- The ranks hold the state `S`; `dt` is the variable of the driver, `pr` the rank whose output counts. -/
structure CRep3 (C : Cfg3) (A : B → Ib3) (pr : C3) (S : CSt3 T B) (dt : ℝ) (w : C3 → RkC3 T B) : Prop where
  sim : Rep3 S.sim dt fun c => (w c).sim
  ib : ∀ b, HoldsVbf ((A b).vbf T (simDx3 T C.xr)) (S.ib b).v fun c => ((w c).ib b).rk.v
  bz : ∀ b, ∀ c ∈ ranks3 T, ((w c).ib b).bz = (S.ib b).bz c
  by' : ∀ b, ∀ c ∈ ranks3 T, ((w c).ib b).by' = (S.ib b).by' c
  bx : ∀ b, ∀ c ∈ ranks3 T, ((w c).ib b).bx = (S.ib b).bx c
  time : ∀ b, ∀ c ∈ ranks3 T, ((w c).ib b).time = (S.ib b).v.time
  log : (w pr).log = S.log

variable [DecidableEq B] {A : B → Ib3} {pr : C3} {S : CSt3 T B} {dt dt' : ℝ} {w w' : C3 → RkC3 T B}

omit [DecidableEq B] in
/-- only the simulator changed -/
theorem CRep3.setSim (h : CRep3 C A pr S dt w) (he : ∀ r, w' r = simPart3.put (w r) (simPart3.get (w' r))) {s' : Sim3 T} (hR : Rep3 s' dt' fun c => (w' c).sim) :
    CRep3 C A pr { S with sim := s' } dt' w' := by
  have hib : ∀ r, (w' r).ib = (w r).ib := fun r => by rw [he r]; rfl
  have hlog : ∀ r, (w' r).log = (w r).log := fun r => by rw [he r]; rfl
  refine ⟨hR, ?_, ?_, ?_, ?_, ?_, ?_⟩
  · intro b
    simp only [hib]
    exact h.ib b
  · intro b c hc; rw [hib]; exact h.bz b c hc
  · intro b c hc; rw [hib]; exact h.by' b c hc
  · intro b c hc; rw [hib]; exact h.bx b c hc
  · intro b c hc; rw [hib]; exact h.time b c hc
  · rw [hlog]; exact h.log

/-- only the forcing object of one body changed -/
theorem CRep3.setRk (h : CRep3 C A pr S dt w) {b : B} (he : ∀ r, w' r = (rkPart3 b).put (w r) ((rkPart3 b).get (w' r))) {v' : Vbf C3 ℝ}
    (hv : HoldsVbf ((A b).vbf T (simDx3 T C.xr)) v' fun c => ((w' c).ib b).rk.v) (ht : v'.time = (S.ib b).v.time) :
    CRep3 C A pr { S with ib := Function.update S.ib b { S.ib b with v := v' } } dt w' := by
  have hsim : ∀ r, (w' r).sim = (w r).sim := fun r => by rw [he r]; rfl
  have hlog : ∀ r, (w' r).log = (w r).log := fun r => by rw [he r]; rfl
  have hib : ∀ r, (w' r).ib = Function.update (w r).ib b { (w r).ib b with rk := ((w' r).ib b).rk } := fun r => by
    conv_lhs => rw [he r]
    rfl
  have hne : ∀ r b', b' ≠ b → (w' r).ib b' = (w r).ib b' := fun r b' hb => by rw [hib r, Function.update_of_ne hb]
  have heq : ∀ r, (w' r).ib b = { (w r).ib b with rk := ((w' r).ib b).rk } := fun r => by
    have := congrFun (hib r) b
    rwa [Function.update_self] at this
  refine ⟨by simp only [hsim]; exact h.sim, ?_, ?_, ?_, ?_, ?_, ?_⟩
  · intro b'
    by_cases e : b' = b
    · subst e; simp only [Function.update_self]; exact hv
    · simp only [Function.update_of_ne e, hne _ _ e]; exact h.ib b'
  · intro b' c hc
    by_cases e : b' = b
    · subst e; simp only [Function.update_self]; rw [heq]; exact h.bz _ c hc
    · simp only [Function.update_of_ne e, hne _ _ e]; exact h.bz b' c hc
  · intro b' c hc
    by_cases e : b' = b
    · subst e; simp only [Function.update_self]; rw [heq]; exact h.by' _ c hc
    · simp only [Function.update_of_ne e, hne _ _ e]; exact h.by' b' c hc
  · intro b' c hc
    by_cases e : b' = b
    · subst e; simp only [Function.update_self]; rw [heq]; exact h.bx _ c hc
    · simp only [Function.update_of_ne e, hne _ _ e]; exact h.bx b' c hc
  · intro b' c hc
    by_cases e : b' = b
    · subst e; simp only [Function.update_self]; rw [heq, ht]; exact h.time _ c hc
    · simp only [Function.update_of_ne e, hne _ _ e]; exact h.time b' c hc
  · rw [hlog]; exact h.log

/-! ## Spreading -/

/-- the pieces of `spreadProg3` -/
noncomputable def spreadPieces3 (C : Cfg3) (a : Ib3) (b : B) : List (C3 → List (CIns3 T B)) :=
  locLayer (ranks3 T) (spreadLoc3 C a b) ::
  (((gsItems3 T C.g).map itemLayer).map (liftPiece (gsPart3 b 0) Pkt.embArr) ++ (((gsItems3 T C.g).map itemLayer).map (liftPiece (gsPart3 b 1) Pkt.embArr) ++ ((gsItems3 T C.g).map itemLayer).map (liftPiece (gsPart3 b 2) Pkt.embArr)))

theorem spreadPieces3_pieces (hper : T.per = false) (C : Cfg3) (a : Ib3) (b : B) : ∀ L ∈ (spreadPieces3 C a b : List (C3 → List (CIns3 T B))), Piece (ranks3 T) L := by
  have hitems : ∀ P ∈ (gsItems3 T C.g).map itemLayer, Piece (ranks3 T) P := by
    intro P hP
    obtain ⟨x, hx, rfl⟩ := List.mem_map.1 hP
    exact itemLayer_piece ((gsItems3_parts hper C.g).plain x hx)
  intro L hL
  unfold spreadPieces3 at hL
  rcases List.mem_cons.1 hL with rfl | hL
  · exact locLayer_piece _ _
  · rcases List.mem_append.1 hL with hL | hL
    · exact liftPieces_pieces _ _ hitems L hL
    · rcases List.mem_append.1 hL with hL | hL <;> exact liftPieces_pieces _ _ hitems L hL

theorem spread3_prog (hper : T.per = false) (C : Cfg3) (a : Ib3) (b : B) {r : C3} (hr : r ∈ ranks3 T) :
    layersProg (spreadPieces3 C a b) r = (spreadProg3 C a b r : List (CIns3 T B)) := by
  unfold spreadPieces3 spreadProg3
  have : ∀ (P : C3 → List (CIns3 T B)) Ps, layersProg (P :: Ps) r = P r ++ layersProg Ps r := fun P Ps => rfl
  rw [this, layersProg_append, layersProg_append, layersProg_lift, layersProg_lift, layersProg_lift, layersProg_items, (gsItems3_parts hper C.g).prog r hr]
  unfold locLayer
  rw [if_pos hr]
  rfl

/-- one ghost sum of all ranks -/
theorem gsLift3_exec (hper : T.per = false) {g : ℕ} {b0 : B} {k : Fin 3} {w w' : C3 → RkC3 T B} {v : C3 → GS3 ℝ} (hv : ∀ r ∈ ranks3 T, (gsPart3 b0 k).get (w r) = v r)
    (h : ExecSeq b (((gsItems3 T g).map itemLayer).map (liftPiece (gsPart3 b0 k) (Pkt.embArr : Emb (C3 → ℝ) (Pkt C3 C3 ℝ)))) w w') :
    (∀ r ∈ ranks3 T, (gsPart3 b0 k).get (w' r) = ghostSum3 T g v r) ∧ ∀ r, w' r = (gsPart3 b0 k).put (w r) ((gsPart3 b0 k).get (w' r)) := by
  obtain ⟨h1, h2⟩ := liftPieces_exec h
  refine ⟨fun r hr => ?_, h2⟩
  have := items_exec (gsItems3_parts hper g).plain h1
  rw [congrFun this r]
  exact gsItems3_exec hper g _ hv r hr

theorem spread3_exec (hper : T.per = false) {b0 : B} (h : CRep3 C A pr S dt w) (hx : ExecSeq b (spreadPieces3 C (A b0) b0) w w') :
    CRep3 C A pr
      { S with
        sim := { S.sim with
          forcing := (spreadForces3 T C.g (simDx3 T C.xr) (A b0) (S.ib b0) S.sim.forcing).2 }
        ib := Function.update S.ib b0 (spreadForces3 T C.g (simDx3 T C.xr) (A b0) (S.ib b0) S.sim.forcing).1 } dt w' := by
  obtain ⟨w1, h1, h2⟩ := hx
  obtain ⟨w2, h2, h3⟩ := execSeq_append h2
  obtain ⟨w3, h3, h4⟩ := execSeq_append h3
  obtain ⟨l1, l1'⟩ := locLayer_exec h1
  -- after the local part
  let F : Fin 3 → World C3 C3 ℝ := fun k r => spread3 T C.g (A b0).w (simDx3 T C.xr) ((A b0).sh (simDx3 T C.xr)) (cosW3 (simDx3 T C.xr)) r (S.sim.forcing k r) (rankNodes3 (S.ib b0).v r k.1)
  have f1 : ∀ c ∈ ranks3 T, ∀ k, (w1 c).sim.forcing k = F k c := by
    intro c hc k
    rw [l1 c hc]
    unfold spreadLoc3
    dsimp only [F]
    have e1 := (h.ib b0).cnt c hc
    have e2 := (h.ib b0).lpos c hc
    have e3 := (h.ib b0).force c hc
    try dsimp only at e1 e2 e3
    have e4 := h.sim.forcing c hc k
    try dsimp only at e4
    rw [e1, e2, e3, e4]
    rfl
  have i1 : ∀ c, (w1 c).ib = (w c).ib := by
    intro c
    by_cases hc : c ∈ ranks3 T
    · rw [l1 c hc]; rfl
    · rw [l1' c hc]
  -- the three ghost sums
  let v0 : C3 → GS3 ℝ := fun c => ⟨F 0 c, (S.ib b0).bz c, (S.ib b0).by' c, (S.ib b0).bx c⟩
  let v1 : C3 → GS3 ℝ := fun c => ⟨F 1 c, (ghostSum3 T C.g v0 c).bz, (ghostSum3 T C.g v0 c).by', (ghostSum3 T C.g v0 c).bx⟩
  let v2 : C3 → GS3 ℝ := fun c => ⟨F 2 c, (ghostSum3 T C.g v1 c).bz, (ghostSum3 T C.g v1 c).by', (ghostSum3 T C.g v1 c).bx⟩
  obtain ⟨g1, p1⟩ := gsLift3_exec hper (v := v0) (by
    intro r hr
    change (⟨(w1 r).sim.forcing 0, ((w1 r).ib b0).bz, ((w1 r).ib b0).by', ((w1 r).ib b0).bx⟩ : GS3 ℝ) = _
    rw [f1 r hr, i1, h.bz b0 r hr, h.by' b0 r hr, h.bx b0 r hr]) h2
  have f2 : ∀ c ∈ ranks3 T, (w2 c).sim.forcing 0 = (ghostSum3 T C.g v0 c).A ∧ ((w2 c).ib b0).bz = (ghostSum3 T C.g v0 c).bz ∧
      ((w2 c).ib b0).by' = (ghostSum3 T C.g v0 c).by' ∧ ((w2 c).ib b0).bx = (ghostSum3 T C.g v0 c).bx := by
    intro c hc
    have := g1 c hc
    exact ⟨congrArg GS3.A this, congrArg GS3.bz this, congrArg GS3.by' this, congrArg GS3.bx this⟩
  have f2' : ∀ c ∈ ranks3 T, ∀ k, k ≠ 0 → (w2 c).sim.forcing k = F k c := by
    intro c hc k hk
    rw [p1 c]
    simp only [gsPart3]
    rw [Function.update_of_ne hk]
    exact f1 c hc k
  obtain ⟨g2, p2⟩ := gsLift3_exec hper (v := v1) (by
    intro r hr
    change (⟨(w2 r).sim.forcing 1, ((w2 r).ib b0).bz, ((w2 r).ib b0).by', ((w2 r).ib b0).bx⟩ : GS3 ℝ) = _
    rw [f2' r hr 1 (by decide), (f2 r hr).2.1, (f2 r hr).2.2.1, (f2 r hr).2.2.2]) h3
  have f3 : ∀ c ∈ ranks3 T, (w3 c).sim.forcing 1 = (ghostSum3 T C.g v1 c).A ∧ ((w3 c).ib b0).bz = (ghostSum3 T C.g v1 c).bz ∧
      ((w3 c).ib b0).by' = (ghostSum3 T C.g v1 c).by' ∧ ((w3 c).ib b0).bx = (ghostSum3 T C.g v1 c).bx := by
    intro c hc
    have := g2 c hc
    exact ⟨congrArg GS3.A this, congrArg GS3.bz this, congrArg GS3.by' this, congrArg GS3.bx this⟩
  have f3' : ∀ c, ∀ k, k ≠ 1 → (w3 c).sim.forcing k = (w2 c).sim.forcing k := by
    intro c k hk
    rw [p2 c]
    simp only [gsPart3]
    rw [Function.update_of_ne hk]
  obtain ⟨g3, p3⟩ := gsLift3_exec hper (v := v2) (by
    intro r hr
    change (⟨(w3 r).sim.forcing 2, ((w3 r).ib b0).bz, ((w3 r).ib b0).by', ((w3 r).ib b0).bx⟩ : GS3 ℝ) = _
    rw [f3' r 2 (by decide), f2' r hr 2 (by decide), (f3 r hr).2.1, (f3 r hr).2.2.1, (f3 r hr).2.2.2]) h4
  have f4' : ∀ c, ∀ k, k ≠ 2 → (w' c).sim.forcing k = (w3 c).sim.forcing k := by
    intro c k hk
    rw [p3 c]
    simp only [gsPart3]
    rw [Function.update_of_ne hk]
  have q1 : ∀ c, ∃ x y z u, w2 c = { w1 c with
        sim := { (w1 c).sim with
          forcing := x }
        ib := Function.update (w1 c).ib b0 { (w1 c).ib b0 with bz := y, by' := z, bx := u } } := fun c => ⟨_, _, _, _, p1 c⟩
  have q2 : ∀ c, ∃ x y z u, w3 c = { w2 c with
        sim := { (w2 c).sim with
          forcing := x }
        ib := Function.update (w2 c).ib b0 { (w2 c).ib b0 with bz := y, by' := z, bx := u } } := fun c => ⟨_, _, _, _, p2 c⟩
  have q3 : ∀ c, ∃ x y z u, w' c = { w3 c with
        sim := { (w3 c).sim with
          forcing := x }
        ib := Function.update (w3 c).ib b0 { (w3 c).ib b0 with bz := y, by' := z, bx := u } } := fun c => ⟨_, _, _, _, p3 c⟩
  have q : ∀ c, ∃ x y z u, w' c = { w c with
        sim := { (w c).sim with
          forcing := x }
        ib := Function.update (w c).ib b0 { (w c).ib b0 with bz := y, by' := z, bx := u } } := by
    intro c
    obtain ⟨x, y, z, u, e⟩ := q1 c
    obtain ⟨x', y', z', u', e'⟩ := q2 c
    obtain ⟨x'', y'', z'', u'', e''⟩ := q3 c
    refine ⟨x'', y'', z'', u'', ?_⟩
    rw [e'', e', e]
    by_cases hc : c ∈ ranks3 T
    · rw [l1 c hc]; simp [spreadLoc3]
    · rw [l1' c hc]; simp
  have f4 : ∀ c ∈ ranks3 T, ∀ k, (w' c).sim.forcing k = (spreadForces3 T C.g (simDx3 T C.xr) (A b0) (S.ib b0) S.sim.forcing).2 k c := by
    intro c hc k
    fin_cases k
    · exact ((f4' c 0 (by decide)).trans (f3' c 0 (by decide))).trans (f2 c hc).1
    · exact (f4' c 1 (by decide)).trans (f3 c hc).1
    · exact congrArg GS3.A (g3 c hc)
  have r3 : ∀ c ∈ ranks3 T, ((w' c).ib b0).bz = (spreadForces3 T C.g (simDx3 T C.xr) (A b0) (S.ib b0) S.sim.forcing).1.bz c ∧
      ((w' c).ib b0).by' = (spreadForces3 T C.g (simDx3 T C.xr) (A b0) (S.ib b0) S.sim.forcing).1.by' c ∧
      ((w' c).ib b0).bx = (spreadForces3 T C.g (simDx3 T C.xr) (A b0) (S.ib b0) S.sim.forcing).1.bx c := by
    intro c hc
    exact ⟨congrArg GS3.bz (g3 c hc), congrArg GS3.by' (g3 c hc), congrArg GS3.bx (g3 c hc)⟩
  have vsame : (spreadForces3 T C.g (simDx3 T C.xr) (A b0) (S.ib b0) S.sim.forcing).1.v = (S.ib b0).v := rfl
  have rkt : ∀ c b', ((w' c).ib b').rk = ((w c).ib b').rk ∧ ((w' c).ib b').time = ((w c).ib b').time ∧ (b' ≠ b0 → (w' c).ib b' = (w c).ib b') := by
    intro c b'
    obtain ⟨x, y, z, u, e⟩ := q c
    rw [e]
    by_cases hb : b' = b0
    · subst hb; simp
    · simp [Function.update_of_ne hb]
  generalize spreadForces3 T C.g (simDx3 T C.xr) (A b0) (S.ib b0) S.sim.forcing = res at f4 r3 vsame ⊢
  refine ⟨?_, ?_, ?_, ?_, ?_, ?_, ?_⟩
  · constructor <;> intro c hc <;> obtain ⟨x, y, z, u, e⟩ := q c
    case forcing => exact f4 c hc
    all_goals rw [e]; dsimp only; rest3 h.sim, c, hc
  · intro b'
    have := h.ib b'
    simp only [(rkt _ b').1]
    by_cases hb : b' = b0
    · subst hb; simp only [Function.update_self, vsame]; exact this
    · simp only [Function.update_of_ne hb]; exact this
  · intro b' c hc
    by_cases hb : b' = b0
    · subst hb; simp only [Function.update_self]; exact (r3 c hc).1
    · rw [(rkt c b').2.2 hb]; simp only [Function.update_of_ne hb]; exact h.bz b' c hc
  · intro b' c hc
    by_cases hb : b' = b0
    · subst hb; simp only [Function.update_self]; exact (r3 c hc).2.1
    · rw [(rkt c b').2.2 hb]; simp only [Function.update_of_ne hb]; exact h.by' b' c hc
  · intro b' c hc
    by_cases hb : b' = b0
    · subst hb; simp only [Function.update_self]; exact (r3 c hc).2.2
    · rw [(rkt c b').2.2 hb]; simp only [Function.update_of_ne hb]; exact h.bx b' c hc
  · intro b' c hc
    rw [(rkt c b').2.1]
    by_cases hb : b' = b0
    · subst hb; simp only [Function.update_self, vsame]; exact h.time _ c hc
    · simp only [Function.update_of_ne hb]; exact h.time b' c hc
  · obtain ⟨x, y, z, u, e⟩ := q pr
    rw [e]; exact h.log

/-! ## The other calls -/

omit [DecidableEq B] in
/-- nothing changed but packets and numbers -/
theorem CRep3.same (h : CRep3 C A pr S dt w) (he : ∀ r, (w' r).sim = (w r).sim ∧ (w' r).ib = (w r).ib ∧ (w' r).log = (w r).log) : CRep3 C A pr S dt w' := by
  refine ⟨?_, ?_, ?_, ?_, ?_, ?_, ?_⟩
  · simp only [(he _).1]; exact h.sim
  · intro b; simp only [(he _).2.1]; exact h.ib b
  · intro b c hc; rw [(he _).2.1]; exact h.bz b c hc
  · intro b c hc; rw [(he _).2.1]; exact h.by' b c hc
  · intro b c hc; rw [(he _).2.1]; exact h.bx b c hc
  · intro b c hc; rw [(he _).2.1]; exact h.time b c hc
  · rw [(he _).2.2]; exact h.log

omit [DecidableEq B] in
theorem devPiece3_pieces (a : Ib3) (b : B) : ∀ L ∈ devPiece3 (T := T) a b, Piece (ranks3 T) L := by
  intro L hL
  simp only [devPiece3, List.mem_cons, List.not_mem_nil, or_false] at hL
  rcases hL with rfl | rfl | rfl | rfl
  · exact collLayer_piece (ranks3_nodup T) _ _ _ _ (by intro c d s m; rfl)
  · exact locLayer_piece _ _
  · exact collLayer_piece (ranks3_nodup T) _ _ _ _ (by intro c d s m; rfl)
  · exact locLayer_piece _ _

omit [DecidableEq B] in
theorem maxPiece3_pieces (C : Cfg3) : ∀ L ∈ maxPiece3 (T := T) (B := B) C, Piece (ranks3 T) L := by
  intro L hL
  simp only [maxPiece3, List.mem_cons, List.not_mem_nil, or_false] at hL
  rcases hL with rfl | rfl
  · exact collLayer_piece (ranks3_nodup T) _ _ _ _ (by intro c d s m; rfl)
  · exact locLayer_piece _ _

omit [DecidableEq B] in
theorem dev3_exec {b0 : B} (hm : Valid3 T (A b0).m) (h : CRep3 C A pr S dt w) (hx : ExecSeq b (devPiece3 (A b0) b0) w w') :
    CRep3 C A pr S dt w' ∧ ∀ c ∈ ranks3 T, (w' c).val = gridDeviation 3 (ranks3 T) (A b0).N (S.ib b0).v (A b0).m := by
  obtain ⟨w1, h1, w2, h2, w3, h3, w4, h4, rfl⟩ := hx
  obtain ⟨i1, o1⟩ := collLayer_exec (ranks3_nodup T) qPart3 _ _ _ (by intro c d s m; rfl) h1
  obtain ⟨i2, o2⟩ := locLayer_exec h2
  obtain ⟨i3, o3⟩ := collLayer_exec (ranks3_nodup T) qPart3 _ _ _ (by intro c d s m; rfl) h3
  obtain ⟨i4, o4⟩ := locLayer_exec h4
  have s1 : ∀ c, (w1 c).sim = (w c).sim ∧ (w1 c).ib = (w c).ib ∧ (w1 c).log = (w c).log := by
    intro c
    by_cases hc : c ∈ ranks3 T
    · rw [i1 c hc]; exact ⟨rfl, rfl, rfl⟩
    · rw [o1 c hc]; exact ⟨rfl, rfl, rfl⟩
  have s2 : ∀ c, (w2 c).sim = (w1 c).sim ∧ (w2 c).ib = (w1 c).ib ∧ (w2 c).log = (w1 c).log := by
    intro c
    by_cases hc : c ∈ ranks3 T
    · rw [i2 c hc]; split <;> exact ⟨rfl, rfl, rfl⟩
    · rw [o2 c hc]; exact ⟨rfl, rfl, rfl⟩
  have s3 : ∀ c, (w3 c).sim = (w2 c).sim ∧ (w3 c).ib = (w2 c).ib ∧ (w3 c).log = (w2 c).log := by
    intro c
    by_cases hc : c ∈ ranks3 T
    · rw [i3 c hc]; exact ⟨rfl, rfl, rfl⟩
    · rw [o3 c hc]; exact ⟨rfl, rfl, rfl⟩
  have s4 : ∀ c, (w' c).sim = (w3 c).sim ∧ (w' c).ib = (w3 c).ib ∧ (w' c).log = (w3 c).log := by
    intro c
    by_cases hc : c ∈ ranks3 T
    · rw [i4 c hc]; exact ⟨rfl, rfl, rfl⟩
    · rw [o4 c hc]; exact ⟨rfl, rfl, rfl⟩
  refine ⟨((((h.same s1).same s2).same s3).same s4), ?_⟩
  have hmr : (A b0).m ∈ ranks3 T := mem_ranks3.2 hm
  have v1 : ∀ q ∈ ranks3 T, packet0 ((w1 (A b0).m).mb q) = frobNorm 3 ((S.ib b0).v.cnt q) ((S.ib b0).v.posM q) ^ 2 := by
    intro q hq
    rw [i1 _ hmr]
    dsimp only [qPart3]
    rw [if_pos ⟨hq, by simp⟩]
    have e1 := (h.ib b0).cnt q hq
    have e2 := (h.ib b0).posM q hq
    rw [e1, e2]
    rfl
  have v2 : (w2 (A b0).m).val = gridDeviation 3 (ranks3 T) (A b0).N (S.ib b0).v (A b0).m := by
    rw [i2 _ hmr, if_pos rfl]
    dsimp only
    unfold gridDeviation
    rw [List.map_congr_left v1]
  intro c hc
  rw [i4 c hc]
  dsimp only
  rw [i3 c hc]
  dsimp only [qPart3]
  rw [if_pos ⟨hmr, by simp⟩]
  exact v2

omit [DecidableEq B] in
theorem max3_exec {x : ℝ} (h : CRep3 C A pr S dt w) (hok : maxVorticity3 C S.sim = .ok x) (hx : ExecSeq b (maxPiece3 C) w w') :
    CRep3 C A pr S dt w' ∧ ∀ c ∈ ranks3 T, (w' c).val = x := by
  obtain ⟨w1, h1, w2, h2, rfl⟩ := hx
  obtain ⟨i1, o1⟩ := collLayer_exec (ranks3_nodup T) qPart3 _ _ _ (by intro c d s m; rfl) h1
  obtain ⟨i2, o2⟩ := locLayer_exec h2
  have s1 : ∀ c, (w1 c).sim = (w c).sim ∧ (w1 c).ib = (w c).ib ∧ (w1 c).log = (w c).log := by
    intro c
    by_cases hc : c ∈ ranks3 T
    · rw [i1 c hc]; exact ⟨rfl, rfl, rfl⟩
    · rw [o1 c hc]; exact ⟨rfl, rfl, rfl⟩
  have s2 : ∀ c, (w' c).sim = (w1 c).sim ∧ (w' c).ib = (w1 c).ib ∧ (w' c).log = (w1 c).log := by
    intro c
    by_cases hc : c ∈ ranks3 T
    · rw [i2 c hc]; exact ⟨rfl, rfl, rfl⟩
    · rw [o2 c hc]; exact ⟨rfl, rfl, rfl⟩
  refine ⟨(h.same s1).same s2, ?_⟩
  unfold maxVorticity3 at hok
  split at hok
  swap
  · cases hok
  · have hok' := allreduce_okOr max hok
    intro c hc
    rw [i2 c hc]
    dsimp only
    rw [allreduce_congr max (y := fun c => Except.ok (okOr 0 (amax (([0, 1, 2] : List (Fin 3)).flatMap fun j => (innerCells3 T C.g).map (S.sim.om j c))))), hok']
    · rfl
    · intro r hr
      rw [i1 c hc]
      dsimp only [qPart3]
      rw [if_pos ⟨hr, rfl⟩]
      have e : (w r).sim.om = fun j => S.sim.om j r := funext fun j => h.sim.om r hr j
      rw [e]
      rfl

theorem normPiece3_pieces (C : Cfg3) : ∀ L ∈ normPiece3 (T := T) (B := B) C, Piece (ranks3 T) L := by
  intro L hL
  simp only [normPiece3, List.mem_cons, List.not_mem_nil, or_false] at hL
  rcases hL with rfl | rfl
  · exact collLayer_piece (ranks3_nodup T) _ _ _ _ (by intro c d s m; rfl)
  · exact locLayer_piece _ _

theorem norm3_exec {x : ℝ} {sch : Sched3} {s0 : Sim3 T} (hns : isNS C.flowType = true) (h : CRep3 C A pr S dt w) (hs : S.sim = (divNorm3 C K sch s0).1)
    (hok : (divNorm3 C K sch s0).2 = .ok x) (hx : ExecSeq b (normPiece3 C) w w') :
    CRep3 C A pr S dt w' ∧ ∀ c ∈ ranks3 T, (w' c).val = x := by
  obtain ⟨w1, h1, w2, h2, rfl⟩ := hx
  obtain ⟨i1, o1⟩ := collLayer_exec (ranks3_nodup T) qPart3 _ _ _ (by intro c d s m; rfl) h1
  obtain ⟨i2, o2⟩ := locLayer_exec h2
  have s1 : ∀ c, (w1 c).sim = (w c).sim ∧ (w1 c).ib = (w c).ib ∧ (w1 c).log = (w c).log := by
    intro c
    by_cases hc : c ∈ ranks3 T
    · rw [i1 c hc]; exact ⟨rfl, rfl, rfl⟩
    · rw [o1 c hc]; exact ⟨rfl, rfl, rfl⟩
  have s2 : ∀ c, (w' c).sim = (w1 c).sim ∧ (w' c).ib = (w1 c).ib ∧ (w' c).log = (w1 c).log := by
    intro c
    by_cases hc : c ∈ ranks3 T
    · rw [i2 c hc]; exact ⟨rfl, rfl, rfl⟩
    · rw [o2 c hc]; exact ⟨rfl, rfl, rfl⟩
  refine ⟨(h.same s1).same s2, ?_⟩
  have e2 : (divNorm3 C K sch s0).2 = (allreduce (fun a b => a + b) (ranks3 T) fun c => Except.ok (Real.sqrt (((innerCells3 T C.g).map fun p => S.sim.buf c p ^ 2).sum) ^ 2)).map
      fun sq => Real.sqrt sq * simDx3 T C.xr ^ (1.5 : ℝ) := by
    rw [hs]
    unfold divNorm3
    rw [if_pos hns]
  rw [e2] at hok
  cases ha : (allreduce (fun a b => a + b) (ranks3 T) fun c => Except.ok (Real.sqrt (((innerCells3 T C.g).map fun p => S.sim.buf c p ^ 2).sum) ^ 2)) with
  | error er => rw [ha] at hok; cases hok
  | ok sq =>
    rw [ha] at hok
    have hx' : Real.sqrt sq * simDx3 T C.xr ^ (1.5 : ℝ) = x := Except.ok.inj hok
    intro c hc
    rw [i2 c hc]
    dsimp only
    rw [allreduce_congr (fun a b => a + b) (y := fun c => Except.ok (Real.sqrt (((innerCells3 T C.g).map fun p => S.sim.buf c p ^ 2).sum) ^ 2)), ha]
    · exact hx'
    · intro r hr
      rw [i1 c hc]
      dsimp only [qPart3]
      rw [if_pos ⟨hr, rfl⟩, h.sim.buf r hr]
      rfl

/-- the pieces of `advanceIns3` -/
noncomputable def advancePieces3 (T : Cart3) (b : B) (dt : ℝ) : List (C3 → List (CIns3 T B)) :=
  [liftPiece vbfPart (Pkt.embVals : Emb (List ℝ) (Pkt C3 C3 ℝ)) (locLayer (ranks3 T) fun _ (s : VbfLoc C3 ℝ) => { s with posM := fun k j => s.posM k j + dt * s.velM k j })].map
    (liftPiece (rkPart3 b) .all) ++
  [locLayer (ranks3 T) fun _ s => { s with ib := Function.update s.ib b { s.ib b with time := (s.ib b).time + dt } }]

theorem advancePieces3_pieces (b : B) (dt : ℝ) : ∀ L ∈ advancePieces3 T b dt, Piece (ranks3 T) L := by
  intro L hL
  unfold advancePieces3 at hL
  rcases List.mem_append.1 hL with hL | hL
  · refine liftPieces_pieces _ _ ?_ L hL
    intro P hP
    rw [List.mem_singleton.1 hP]
    exact liftPiece_piece _ _ (locLayer_piece _ _)
  · rw [List.mem_singleton.1 hL]; exact locLayer_piece _ _

theorem advance3_prog (b : B) (dt : ℝ) {r : C3} (hr : r ∈ ranks3 T) : layersProg (advancePieces3 T b dt) r = advanceIns3 b dt := by
  unfold advancePieces3 advanceIns3
  rw [layersProg_append, layersProg_lift]
  simp only [layersProg, List.flatMap_cons, List.flatMap_nil, List.append_nil]
  unfold liftPiece locLayer
  rw [if_pos hr, if_pos hr]
  rfl

theorem vbfCfgOk3 (hA : ∀ b, (A b).Ok) (hm : ∀ b, Valid3 T (A b).m) (dx : ℝ) (b : B) : CfgOk ((A b).vbf T dx) :=
  ⟨ranks3_nodup T, mem_ranks3.2 (hm b), (hA b).ord⟩

theorem advance3_exec (hA : ∀ b, (A b).Ok) (hm : ∀ b, Valid3 T (A b).m) {b0 : B} {d : ℝ} (h : CRep3 C A pr S dt w) (hx : ExecSeq b (advancePieces3 T b0 d) w w') :
    CRep3 C A pr { S with ib := Function.update S.ib b0 { S.ib b0 with v := vbfStep d (S.ib b0).v } } dt w' := by
  unfold advancePieces3 at hx
  obtain ⟨w1, h1, h2⟩ := execSeq_append hx
  obtain ⟨h1, p1⟩ := liftPieces_exec h1
  have v1 := vbfStep_exec (vbfCfgOk3 hA hm (simDx3 T C.xr) b0) d (h.ib b0) h1
  have r1 : CRep3 C A pr { S with ib := Function.update S.ib b0 { S.ib b0 with v := { vbfStep d (S.ib b0).v with time := (S.ib b0).v.time } } } dt w1 :=
    h.setRk p1 ⟨v1.addr, v1.cnt, v1.posM, v1.velM, v1.force, v1.lpos, v1.lvel, v1.gposM, v1.gvelM, v1.gforce⟩ rfl
  obtain ⟨w2, h2, rfl⟩ := h2
  obtain ⟨i2, o2⟩ := locLayer_exec h2
  have hs : ∀ c, (w' c).sim = (w1 c).sim ∧ (w' c).log = (w1 c).log ∧ ∀ b', ((w' c).ib b').rk = ((w1 c).ib b').rk ∧ ((w' c).ib b').bz = ((w1 c).ib b').bz ∧
      ((w' c).ib b').by' = ((w1 c).ib b').by' ∧ ((w' c).ib b').bx = ((w1 c).ib b').bx ∧ (b' ≠ b0 → (w' c).ib b' = (w1 c).ib b') := by
    intro c
    by_cases hc : c ∈ ranks3 T
    · rw [i2 c hc]
      refine ⟨rfl, rfl, fun b' => ?_⟩
      by_cases e : b' = b0
      · subst e; simp
      · simp [Function.update_of_ne e]
    · rw [o2 c hc]; exact ⟨rfl, rfl, fun _ => ⟨rfl, rfl, rfl, rfl, fun _ => rfl⟩⟩
  refine ⟨?_, ?_, ?_, ?_, ?_, ?_, ?_⟩
  · simp only [(hs _).1]; exact r1.sim
  · intro b'
    simp only [((hs _).2.2 b').1]
    by_cases e : b' = b0
    · subst e; simp only [Function.update_self]; exact v1
    · have := r1.ib b'
      simp only [Function.update_of_ne e] at this ⊢
      exact this
  · intro b' c hc
    rw [((hs c).2.2 b').2.1]
    have := r1.bz b' c hc
    by_cases e : b' = b0
    · subst e; simp only [Function.update_self] at this ⊢; exact this
    · simp only [Function.update_of_ne e] at this ⊢; exact this
  · intro b' c hc
    rw [((hs c).2.2 b').2.2.1]
    have := r1.by' b' c hc
    by_cases e : b' = b0
    · subst e; simp only [Function.update_self] at this ⊢; exact this
    · simp only [Function.update_of_ne e] at this ⊢; exact this
  · intro b' c hc
    rw [((hs c).2.2 b').2.2.2.1]
    have := r1.bx b' c hc
    by_cases e : b' = b0
    · subst e; simp only [Function.update_self] at this ⊢; exact this
    · simp only [Function.update_of_ne e] at this ⊢; exact this
  · intro b' c hc
    have := r1.time b' c hc
    by_cases e : b' = b0
    · subst e
      simp only [Function.update_self] at this ⊢
      rw [i2 c hc]
      simp only [Function.update_self]
      rw [this]
      rfl
    · rw [((hs c).2.2 b').2.2.2.2 e]
      simp only [Function.update_of_ne e] at this ⊢
      exact this
  · rw [(hs pr).2.1]; exact r1.log

/-! ## An interaction -/

theorem interact3_rounds (hper : T.per = false) (hA : ∀ b, (A b).Ok) (hm : ∀ b, Valid3 T (A b).m) {Post : (C3 → RkC3 T B) → Prop} {full : Bool} {b0 : B}
    {X U : LagField ℝ} {X' U' : C3 → LagField ℝ} (hXU : ∀ r ∈ ranks3 T, r = (A b0).m → X' r = X ∧ U' r = U) (ha : ∀ c ∈ (S.ib b0).v.addr, Valid3 T c)
    (hX : ∀ c ∈ ((A b0).vbf T (simDx3 T C.xr)).addrOf X, Valid3 T c) (h : CRep3 C A pr S dt w) {rest : C3 → RProg C3 (RkC3 T B) (Pkt C3 C3 ℝ)}
    (next : ∀ w' s, Complete (multiMsgs3 T C.g C.full ([0, 1, 2] : List (Fin 3))) s →
      CRep3 C A pr
        { S with
          sim := preState3 C (A b0) full s S.sim
          ib := Function.update S.ib b0
            { S.ib b0 with
              v := vbfInteract ((A b0).vbf T (simDx3 T C.xr)) X U (flowVel3 T C.g (simDx3 T C.xr) (A b0) (preState3 C (A b0) full s S.sim).vel) (S.ib b0).v } } dt w' →
      Rounds b (ranks3 T) Post (onRanks (ranks3 T) rest) w') :
    Rounds b (ranks3 T) Post (onRanks (ranks3 T) fun r => interactCode3 C A r full b0 (X' r) (U' r) (rest r)) w := by
  have hc := vbfCfgOk3 hA hm (simDx3 T C.xr) b0
  have ha' : ∀ c ∈ (S.ib b0).v.addr, c ∈ ((A b0).vbf T (simDx3 T C.xr)).ranks := fun c h => mem_ranks3.2 (ha c h)
  have hX' : ∀ c ∈ ((A b0).vbf T (simDx3 T C.xr)).addrOf X, c ∈ ((A b0).vbf T (simDx3 T C.xr)).ranks := fun c h => mem_ranks3.2 (hX c h)
  unfold interactCode3
  refine Rounds.run ((prePiece3 C (A b0) full).map (liftPiece simPart3 Pkt.embVals)) (liftPieces_pieces _ _ (prePiece3_pieces C _ _)) (fun r _ => layersProg_lift _ _ _ _) ?_
  intro w1 h1
  obtain ⟨h1, p1⟩ := liftPieces_exec h1
  obtain ⟨s, hs, r1⟩ := prePiece3_exec h.sim h1
  have c1 := h.setSim p1 r1
  refine Rounds.blk ((stage1Pieces ((A b0).vbf T (simDx3 T C.xr)) (S.ib b0).v.addr X).map (liftPiece (rkPart3 b0) .all)) (liftPieces_pieces _ _ (stage1Pieces_pieces hc ha' X)) ?_ ?_
  · intro r hr
    rw [layersProg_lift]
    have had := (c1.ib b0).addr r hr
    try dsimp only at had
    rw [had]
    exact congrArg _ (stage1_prog hc ha' X hr fun e => (hXU r hr e).1)
  intro w2 h2
  obtain ⟨h2, p2⟩ := liftPieces_exec h2
  obtain ⟨f1, f2⟩ := stage1_exec hc ha' (c1.ib b0) h2
  have c2 := c1.setRk p2 f1 rfl
  have f2 : ∀ r ∈ ranks3 T, ((w2 r).ib b0).rk.v.flag = (ranks3 T).any fun q => decide ((S.ib b0).v.cnt q ≠ localCount (((A b0).vbf T (simDx3 T C.xr)).addrOf X) q) := f2
  refine Rounds.blk ((stage2Pieces ((A b0).vbf T (simDx3 T C.xr)) (((A b0).vbf T (simDx3 T C.xr)).addrOf X)
    ((ranks3 T).any fun q => decide ((S.ib b0).v.cnt q ≠ localCount (((A b0).vbf T (simDx3 T C.xr)).addrOf X) q)) X U
    (flowVel3 T C.g (simDx3 T C.xr) (A b0) (preState3 C (A b0) full s S.sim).vel)).map (liftPiece (rkPart3 b0) .all))
    (liftPieces_pieces _ _ (stage2Pieces_pieces hc hX' _ X U _)) ?_ ?_
  · intro r hr
    rw [layersProg_lift]
    have had := f1.addr r hr
    have had : ((w2 r).ib b0).rk.v.addr = ((A b0).vbf T (simDx3 T C.xr)).addrOf X := had
    have hF : flowVel3 T C.g (simDx3 T C.xr) (A b0) (fun j _ => (w2 r).sim.vel j) r = flowVel3 T C.g (simDx3 T C.xr) (A b0) (preState3 C (A b0) full s S.sim).vel r := by
      funext x k
      unfold flowVel3
      have := c2.sim.vel r hr (axis3 k)
      exact congrArg (fun f => eulToLag3 T C.g (A b0).w (simDx3 T C.xr) ((A b0).sh (simDx3 T C.xr)) (cosW3 (simDx3 T C.xr)) r f (x 0, x 1, x 2)) this
    rw [had, f2 r hr, hF]
    exact congrArg _ (stage2_prog hc hX' _ X U _ hr (hXU r hr))
  intro w3 h3
  obtain ⟨h3, p3⟩ := liftPieces_exec h3
  have f3 := stage2_exec hc hX' U _ f1 h3
  have c3 := c2.setRk p3 f3 (by
    rw [vbfInteract_time]
    simp only [Function.update_self]
    rfl)
  refine next w3 s hs ?_
  simp only [Function.update_self, Function.update_idem] at c3
  exact c3

/-! ## One call -/

omit [DecidableEq B] in
theorem lagInteract3_eq {a : Ib3} {s : List Ev} {X U : LagField ℝ} {S : Sim3 T} {ib : IbSt3} {l : List C3} (hm : a.mapping T (simDx3 T C.xr) X = .ok l) :
    lagInteract3 C a s X U S ib = .ok (preState3 C a false s S,
      { ib with v := vbfInteract (a.vbf T (simDx3 T C.xr)) X U (flowVel3 T C.g (simDx3 T C.xr) a (preState3 C a false s S).vel) ib.v }) := by
  unfold lagInteract3 preState3
  dsimp only
  rw [hm]
  simp

omit [DecidableEq B] in
theorem fullInteract3_eq {a : Ib3} {s : List Ev} {X U : LagField ℝ} {S : Sim3 T} {ib : IbSt3} {l : List C3} (hm : a.mapping T (simDx3 T C.xr) X = .ok l) :
    fullInteract3 C a s X U S ib =
      let ib' : IbSt3 := { ib with v := vbfInteract (a.vbf T (simDx3 T C.xr)) X U (flowVel3 T C.g (simDx3 T C.xr) a (preState3 C a true s S).vel) ib.v }
      .ok ({ preState3 C a true s S with
          forcing := (spreadForces3 T C.g (simDx3 T C.xr) a ib' (preState3 C a true s S).forcing).2 },
        (spreadForces3 T C.g (simDx3 T C.xr) a ib' (preState3 C a true s S).forcing).1) := by
  unfold fullInteract3
  dsimp only
  rw [lagInteract3_eq hm]
  unfold preState3
  cases a.reset <;> simp

section
variable [NeZero T.gz] [NeZero T.gy] [NeZero T.gx] {gz gy gx pz py px : ℕ}

omit [DecidableEq B] in
theorem stepPiece3_exec (hT : mkCart3 gz gy gx pz py px false = .ok T) (hC : Good3 T C) (hxr : 0 < C.xr)
    (hft : C.flowType = "navier_stokes_with_forcing") (hK : K.Local) (hK0 : ∀ a, K.upd a (fun _ _ => 0) = 0) {tol : ℝ} {S : Sim3 T} {F : Fields3} (hS : SimHolds3 C F S)
    {Φ : Fin 3 → C3 → ℝ} (hΦ : HoldsForce3 T C.g Φ S.forcing) (hcf : Confined3 gz gy gx Φ) {d : ℝ} {fs : Fin 3 → ℝ} {w w' : C3 → Rk3 T} (hR : Rep3 S dt w)
    (h : ExecSeq b (stepPiece3 C K tol d fs) w w') : ∃ sch : Scheds3, sch.Done T C.g C.full ∧ Rep3 (timeStep3 C K sch d (some fs) S).1 d w' := by
  unfold stepPiece3 at h
  obtain ⟨w2, h, h3⟩ := execSeq_append h
  obtain ⟨w1, h1, h2⟩ := execSeq_append h
  have r1 : Rep3 S d w1 := dtPiece3_exec tol hR h1 (dt := d) rfl
  obtain ⟨sch, hs, r2⟩ := flowPiece3_exec hT (fun _ => hC) hxr (by rw [hft]; simp [flowTypes3]) hK hK0 hS r1 fs (fun _ => ⟨hΦ, hcf⟩) h2
  refine ⟨sch, hs, ?_⟩
  obtain ⟨a1, -⟩ := nsForcingStep3_holds hT hC hxr hK hK0 hs d fs hS hΦ hcf
  have n1 : C.flowType ≠ "navier_stokes" := by rw [hft]; simp
  have hns : isNS C.flowType = true := by rw [hft]; rfl
  have e : flowStep3 C K sch d (some fs) S = nsForcingStep3 C K sch d fs S := by
    unfold flowStep3
    rw [if_pos hns]
    exact if_neg n1
  have hstep : (timeStep3 C K sch d (some fs) S).1 = { (flowStep3 C K sch d (some fs) S).1 with time := (flowStep3 C K sch d (some fs) S).1.time + d } := by
    unfold timeStep3 Out3.andThen
    rw [e, a1]
  rw [hstep]
  obtain ⟨w3, h3, rfl⟩ := h3
  have l3 := (locLayer_exec h3).1
  constructor <;> intro c hc <;> rw [l3 c hc] <;> dsimp only <;> rest3 r2, c, hc
  rw [r2.time c hc, r2.dt c hc]

/-! ## A whole driver -/

/-- The ranks hold what the run on the global grid gives. -/
def CEnds3 (gz gy gx : ℕ) (C : Cfg3) (A : B → Ib3) (pr : C3) (ref : RefC3 B) (w : C3 → RkC3 T B) : Prop :=
  ∃ S dt, CHolds3 gz gy gx C A ref S ∧ CRep3 C A pr S dt w

theorem cRounds3 (hT : mkCart3 gz gy gx pz py px false = .ok T) (hC : Good3 T C) (hxr : 0 < C.xr)
    (hft : C.flowType = "navier_stokes_with_forcing") (hcfl : 0 ≤ C.cfl) (hnu : 0 ≤ C.nu) {tol : ℝ} (htol : 0 < tol) (hK : K.Local)
    (hKd : ∀ a, CrossLocal3 1 (K.div a)) (hK0 : ∀ a, K.upd a (fun _ _ => 0) = 0) (hg2 : ∀ _ : B, 2 ≤ C.g)
    (hA : ∀ b, (A b).Ok) (hm : ∀ b, Valid3 T (A b).m) (hpr : Valid3 T pr) (b : Bool) (p : Prog3 B) :
    ∀ (q : C3 → Prog3 B) {ref : RefC3 B} {S : CSt3 T B} {dt : ℝ} {w : C3 → RkC3 T B}, (∀ c ∈ ranks3 T, Follows3 A pr c p (q c)) → CHolds3 gz gy gx C A ref S →
      Proper3 (C.params gz gy gx) K C.cfl tol A p ref → Tracked3 T (C.params gz gy gx) K C.cfl tol A p ref → CRep3 C A pr S dt w →
      Rounds b (ranks3 T) (CEnds3 gz gy gx C A pr (cRef3 (C.params gz gy gx) K C.cfl tol A p ref)) (cCodes3 C K tol A q) w := by
  obtain ⟨e0, e1, e2, -, -, -, hper, -⟩ := construct3_ok hT
  have hgz0 : T.gz ≠ 0 := NeZero.ne _
  have hfull : C.full = true := by unfold Cfg3.full; rw [hft]; simp
  have hns : isNS C.flowType = true := by rw [hft]; rfl
  have hgx0 : T.gx ≠ 0 := NeZero.ne _
  have hgy0 : T.gy ≠ 0 := NeZero.ne _
  have hdx' : simDx3 T C.xr = (C.params gz gy gx).dx := params3_dx hT C
  have hdx : 0 < (C.params gz gy gx).dx := by
    rw [← hdx']; unfold simDx3
    exact div_pos hxr (by exact_mod_cast Nat.pos_of_ne_zero hgx0)
  have hnz := hC.nz
  have hny := hC.ny
  have hnx := hC.nx
  have hft' : C.flowType ∈ flowTypes3 := by rw [hft]; simp [flowTypes3]
  obtain ⟨sd, hsd⟩ := scheds3_exist T C.g true
  obtain ⟨gd, hgd⟩ := complete_schedule_exists (multiMsgs3 T C.g true ([0, 1, 2] : List (Fin 3)))
  have dd : ∀ {sch : Scheds3} {s : List Ev}, sch.Done T C.g true → Complete (multiMsgs3 T C.g true ([0, 1, 2] : List (Fin 3))) s → (⟨sch, s, (fun _ => [], gd)⟩ : CScheds3).Done T C.g :=
    fun h1 h2 => ⟨h1, h2, hgd⟩
  have one : ∀ (o : CScheds3), o.Done T C.g → ∀ (p : Prog3 B) {ref : RefC3 B} {S : CSt3 T B}, CHolds3 gz gy gx C A ref S → Proper3 (C.params gz gy gx) K C.cfl tol A p ref →
      Tracked3 T (C.params gz gy gx) K C.cfl tol A p ref → CHolds3 gz gy gx C A (cRef3 (C.params gz gy gx) K C.cfl tol A p ref) (cRun3 C K tol A (fun _ => o) p 0 S).1 :=
    fun o ho p ref S h1 h2 h3 => (cRun3_holds hT hC hxr hft hcfl hnu htol hK hKd hK0 hA hg2 (fun _ => ho) p 0 h1 h2 h3).2
  have none : ∀ (o : CScheds3), o.Done T C.g → ∀ (p : Prog3 B) {ref : RefC3 B} {S : CSt3 T B}, CHolds3 gz gy gx C A ref S → Proper3 (C.params gz gy gx) K C.cfl tol A p ref →
      Tracked3 T (C.params gz gy gx) K C.cfl tol A p ref → (cRun3 C K tol A (fun _ => o) p 0 S).2 = none :=
    fun o ho p ref S h1 h2 h3 => (cRun3_holds hT hC hxr hft hcfl hnu htol hK hKd hK0 hA hg2 (fun _ => ho) p 0 h1 h2 h3).1
  have hval : ∀ {ref : RefC3 B} {S : CSt3 T B}, CHolds3 gz gy gx C A ref S → ∀ b0, ∀ c ∈ (S.ib b0).v.addr, Valid3 T c :=
    fun h b0 c hc => mem_ranks3.1 ((h.ib b0).stores.addr.2 c hc)
  have hvalX : ∀ {k : ℕ} {b0 : B} {X : LagField ℝ}, Inside3 gz gy gx k (C.params gz gy gx).dx (A b0) X →
      (∃ l, (A b0).mapping T (simDx3 T C.xr) X = .ok l) ∧ ∀ c ∈ ((A b0).vbf T (simDx3 T C.xr)).addrOf X, Valid3 T c := by
    intro k b0 X hi
    obtain ⟨addr, h1, -, h2, -⟩ := owned_of_inside3 hT (by omega) (by omega) (by omega) hdx hi
    rw [← hdx'] at h1
    refine ⟨⟨addr, h1⟩, ?_⟩
    change ∀ c ∈ okOr [] ((A b0).mapping T (simDx3 T C.xr) X), Valid3 T c
    rw [h1]
    exact h2
  induction p with
  | stop =>
    intro q ref S dt w hq h hp ht hr
    refine .stop ?_ ⟨S, dt, h, hr⟩
    intro r
    unfold cCodes3 onRanks
    split
    · rename_i hc
      have : q r = .stop := hq r hc
      dsimp only
      rw [this]; rfl
    · rfl
  | interact b0 X U k ih =>
    intro q ref S dt w hq h hp ht hr
    have hsplit : ∀ c, ∃ X' U' k', c ∈ ranks3 T → q c = .interact b0 X' U' k' ∧ (c = (A b0).m → X' = X ∧ U' = U) ∧ Follows3 A pr c k k' := by
      intro c
      by_cases hc : c ∈ ranks3 T
      · obtain ⟨X', U', k', h⟩ := hq c hc; exact ⟨X', U', k', fun _ => h⟩
      · exact ⟨X, U, k, fun h => absurd h hc⟩
    choose X' U' k' hk using hsplit
    have hcode : cCodes3 (T := T) C K tol A q = onRanks (ranks3 T) fun r => interactCode3 C A r true b0 (X' r) (U' r) (.run (spreadProg3 C (A b0) b0 r) (cCode3 C K tol A r (k' r))) := by
      refine onRanks_congr fun r hr => ?_
      rw [(hk r hr).1]; rfl
    rw [hcode]
    obtain ⟨⟨l, hl⟩, hX⟩ := hvalX hp.1
    refine interact3_rounds hper hA hm (fun r hr => (hk r hr).2.1) (hval h b0) hX hr ?_
    intro w1 s hs r1
    refine Rounds.run (spreadPieces3 C (A b0) b0) (spreadPieces3_pieces hper C (A b0) b0) (fun r hr => spread3_prog hper C (A b0) b0 hr) ?_
    intro w2 h2
    have r2 := spread3_exec hper r1 h2
    simp only [Function.update_self, Function.update_idem] at r2
    rw [hfull] at hs
    have h' := one ⟨sd, s, (fun _ => [], gd)⟩ (dd hsd hs) (.interact b0 X U .stop) h ⟨hp.1, hp.2.1, trivial⟩ ⟨ht.1, trivial⟩
    unfold cRun3 at h'
    rw [fullInteract3_eq hl] at h'
    exact ih k' (fun c hc => (hk c hc).2.2) h' hp.2.2 ht.2 r2
  | forces b0 X U k ih =>
    intro q ref S dt w hq h hp ht hr
    have hsplit : ∀ c, ∃ X' U' k', c ∈ ranks3 T → q c = .forces b0 X' U' k' ∧ (c = (A b0).m → X' = X ∧ U' = U) ∧ ∀ f f', (c = (A b0).m → f' = f) → Follows3 A pr c (k f) (k' f') := by
      intro c
      by_cases hc : c ∈ ranks3 T
      · obtain ⟨X', U', k', h⟩ := hq c hc; exact ⟨X', U', k', fun _ => h⟩
      · exact ⟨X, U, k, fun h => absurd h hc⟩
    choose X' U' k' hk using hsplit
    have hcode : cCodes3 (T := T) C K tol A q = onRanks (ranks3 T) fun r => interactCode3 C A r false b0 (X' r) (U' r)
        (.read fun s => cCode3 C K tol A r (k' r (forcesHere3 (A b0).N (s.ib b0).rk.v.gforce))) := by
      refine onRanks_congr fun r hr => ?_
      rw [(hk r hr).1]; rfl
    rw [hcode]
    obtain ⟨⟨l, hl⟩, hX⟩ := hvalX hp.1
    refine interact3_rounds hper hA hm (fun r hr => (hk r hr).2.1) (hval h b0) hX hr ?_
    intro w1 s hs r1
    refine Rounds.read ?_
    rw [hfull] at hs
    have h' := one ⟨sd, s, (fun _ => [], gd)⟩ (dd hsd hs) (.forces b0 X U fun _ => .stop) h ⟨hp.1, hp.2.1, trivial⟩ ⟨ht.1, trivial⟩
    unfold cRun3 at h'
    rw [lagInteract3_eq hl] at h'
    refine ih (refForceField3 (A b0).N (refLag3 (C.params gz gy gx).dx (A b0) ref.F.u X U (ref.hist b0))) (fun c => k' c (forcesHere3 (A b0).N ((w1 c).ib b0).rk.v.gforce)) (fun c hc => (hk c hc).2.2 _ _ ?_) h' hp.2.2 ht.2 r1
    intro hcm
    have hgf := (r1.ib b0).gforce
    change ((w1 (A b0).m).ib b0).rk.v.gforce = _ at hgf
    rw [hcm, hgf]
    funext k i
    unfold forcesHere3 refForceField3
    split
    · rename_i hki
      have := (h'.ib b0).stores.force k hki.1 i hki.2
      refine this.trans ?_
      simp only [cRef3, refForces3, Function.update_self]
    · rfl
  | advance b0 d k ih =>
    intro q ref S dt w hq h hp ht hr
    have hsplit : ∀ c, ∃ k', c ∈ ranks3 T → q c = .advance b0 d k' ∧ Follows3 A pr c k k' := by
      intro c
      by_cases hc : c ∈ ranks3 T
      · obtain ⟨k', h⟩ := hq c hc; exact ⟨k', fun _ => h⟩
      · exact ⟨k, fun h => absurd h hc⟩
    choose k' hk using hsplit
    have hcode : cCodes3 (T := T) C K tol A q = onRanks (ranks3 T) fun r => .run (advanceIns3 b0 d) (cCode3 C K tol A r (k' r)) := by
      refine onRanks_congr fun r hr => ?_
      rw [(hk r hr).1]; rfl
    rw [hcode]
    refine Rounds.run (advancePieces3 T b0 d) (advancePieces3_pieces b0 d) (fun r hr => advance3_prog b0 d hr) ?_
    intro w1 h1
    exact ih k' (fun c hc => (hk c hc).2) (one ⟨sd, gd, (fun _ => [], gd)⟩ (dd hsd hgd) (.advance b0 d .stop) h trivial trivial) hp ht (advance3_exec hA hm hr h1)
  | flow d fs k ih =>
    intro q ref S dt w hq h hp ht hr
    have hsplit : ∀ c, ∃ k', c ∈ ranks3 T → q c = .flow d fs k' ∧ Follows3 A pr c k k' := by
      intro c
      by_cases hc : c ∈ ranks3 T
      · obtain ⟨k', h⟩ := hq c hc; exact ⟨k', fun _ => h⟩
      · exact ⟨k, fun h => absurd h hc⟩
    choose k' hk using hsplit
    have hcode : cCodes3 (T := T) C K tol A q = onRanks (ranks3 T) fun r => .run (liftProg simPart3 Pkt.embVals (layersProg (stepPiece3 C K tol d fs) r)) (cCode3 C K tol A r (k' r)) := by
      refine onRanks_congr fun r hr => ?_
      rw [(hk r hr).1]; rfl
    rw [hcode]
    refine Rounds.run ((stepPiece3 C K tol d fs).map (liftPiece simPart3 Pkt.embVals)) (liftPieces_pieces _ _ (stepPiece3_pieces (fun _ => hC.even) tol d fs))
      (fun r _ => layersProg_lift _ _ _ _) ?_
    intro w1 h1
    obtain ⟨h1, p1⟩ := liftPieces_exec h1
    obtain ⟨sch, hsch, r1⟩ := stepPiece3_exec hT hC hxr hft hK hK0 h.sim (forceClean3_holds hT h.force h.conf) h.conf hr.sim h1
    rw [hfull] at hsch
    have r1 := hr.setSim p1 r1
    have h' := one ⟨sch, gd, (fun _ => [], gd)⟩ (dd hsch hgd) (.flow d fs .stop) h trivial trivial
    have hn := none ⟨sch, gd, (fun _ => [], gd)⟩ (dd hsch hgd) (.flow d fs .stop) h trivial trivial
    unfold cRun3 at h' hn
    dsimp only at h' hn
    generalize timeStep3 C K sch d (some fs) S.sim = res at h' hn r1
    obtain ⟨S', e⟩ := res
    cases e with
    | some e => cases hn
    | none => exact ih k' (fun c hc => (hk c hc).2) h' hp ht r1
  | stableDt pre k ih =>
    intro q ref S dt w hq h hp ht hr
    have hsplit : ∀ c, ∃ k', c ∈ ranks3 T → q c = .stableDt pre k' ∧ ∀ x, Follows3 A pr c (k x) (k' x) := by
      intro c
      by_cases hc : c ∈ ranks3 T
      · obtain ⟨k', h⟩ := hq c hc; exact ⟨k', fun _ => h⟩
      · exact ⟨k, fun h => absurd h hc⟩
    choose k' hk using hsplit
    have hcode : cCodes3 (T := T) C K tol A q = onRanks (ranks3 T) fun r => .run (liftProg simPart3 Pkt.embVals (layersProg (dtPiece3 C tol (.stable pre)) r))
        (.read fun s => cCode3 C K tol A r (k' r s.sim.dt)) := by
      refine onRanks_congr fun r hr => ?_
      rw [(hk r hr).1]; rfl
    rw [hcode]
    refine Rounds.run ((dtPiece3 C tol (.stable pre)).map (liftPiece simPart3 Pkt.embVals)) (liftPieces_pieces _ _ (stablePiece3_pieces (fun _ => hC.even) K tol pre))
      (fun r _ => layersProg_lift _ _ _ _) ?_
    intro w1 h1
    obtain ⟨h1, p1⟩ := liftPieces_exec h1
    obtain ⟨a1, a2, a3⟩ := pickDt3_holds hT hC.g hcfl hxr hnu htol h.sim (.stable pre)
    have r1 := dtPiece3_exec tol hr.sim h1 a1
    have hdt := r1.dt
    have r1 := hr.setSim p1 r1
    refine Rounds.read ?_
    have hcode' : (onRanks (ranks3 T) fun r => cCode3 (T := T) C K tol A r (k' r (w1 r).sim.dt)) =
        onRanks (ranks3 T) fun r => cCode3 C K tol A r (k' r (refDt3 (C.params gz gy gx) C.cfl tol ref.F (.stable pre))) := by
      refine onRanks_congr fun r hr => ?_
      rw [show (w1 r).sim.dt = _ from hdt r hr]
    rw [hcode']
    exact ih _ _ (S := { S with sim := (pickDt3 C tol S.sim (.stable pre)).1 }) (fun c hc => (hk c hc).2 _) ⟨⟨a2.sc, a2.om, a2.u, a2.green⟩, h.time, h.force, h.conf, h.fresh, h.ib, h.log⟩ hp ht r1
  | deviation b0 k ih =>
    intro q ref S dt w hq h hp ht hr
    have hsplit : ∀ c, ∃ k', c ∈ ranks3 T → q c = .deviation b0 k' ∧ ∀ x, Follows3 A pr c (k x) (k' x) := by
      intro c
      by_cases hc : c ∈ ranks3 T
      · obtain ⟨k', h⟩ := hq c hc; exact ⟨k', fun _ => h⟩
      · exact ⟨k, fun h => absurd h hc⟩
    choose k' hk using hsplit
    have hcode : cCodes3 (T := T) C K tol A q = onRanks (ranks3 T) fun r => .run (liftProg .whole Pkt.embVals (layersProg (devPiece3 (A b0) b0) r))
        (.read fun s => cCode3 C K tol A r (k' r s.val)) := by
      refine onRanks_congr fun r hr => ?_
      rw [(hk r hr).1]; rfl
    rw [hcode]
    refine Rounds.run ((devPiece3 (A b0) b0).map (liftPiece .whole Pkt.embVals)) (liftPieces_pieces _ _ (devPiece3_pieces _ _)) (fun r _ => layersProg_lift _ _ _ _) ?_
    intro w1 h1
    obtain ⟨h1, -⟩ := liftPieces_exec h1
    obtain ⟨r1, v1⟩ := dev3_exec (hm b0) hr h1
    refine Rounds.read ?_
    have hcode' : (onRanks (ranks3 T) fun r => cCode3 (T := T) C K tol A r (k' r (w1 r).val)) =
        onRanks (ranks3 T) fun r => cCode3 C K tol A r (k' r (refDeviation 3 (A b0).N (ref.hist b0))) := by
      refine onRanks_congr fun r hr => ?_
      rw [show (w1 r).val = _ from v1 r hr]
      have : gridDeviation 3 (ranks3 T) (A b0).N (S.ib b0).v (A b0).m = refDeviation 3 (A b0).N (ref.hist b0) :=
        gridDeviation_rms ((A b0).vbf T (C.params gz gy gx).dx) (ranks3_nodup T) (h.ib b0).stores (A b0).m
      rw [this]
    rw [hcode']
    exact ih _ _ (fun c hc => (hk c hc).2 _) h hp ht r1
  | maxVort k ih =>
    intro q ref S dt w hq h hp ht hr
    have hsplit : ∀ c, ∃ k', c ∈ ranks3 T → q c = .maxVort k' ∧ ∀ x, Follows3 A pr c (k x) (k' x) := by
      intro c
      by_cases hc : c ∈ ranks3 T
      · obtain ⟨k', h⟩ := hq c hc; exact ⟨k', fun _ => h⟩
      · exact ⟨k, fun h => absurd h hc⟩
    choose k' hk using hsplit
    have hcode : cCodes3 (T := T) C K tol A q = onRanks (ranks3 T) fun r => .run (liftProg .whole Pkt.embVals (layersProg (maxPiece3 C) r))
        (.read fun s => cCode3 C K tol A r (k' r s.val)) := by
      refine onRanks_congr fun r hr => ?_
      rw [(hk r hr).1]; rfl
    rw [hcode]
    refine Rounds.run ((maxPiece3 C).map (liftPiece .whole Pkt.embVals)) (liftPieces_pieces _ _ (maxPiece3_pieces _)) (fun r _ => layersProg_lift _ _ _ _) ?_
    intro w1 h1
    obtain ⟨h1, -⟩ := liftPieces_exec h1
    have hmax : maxVorticity3 C S.sim = .ok (sSup {x | ∃ j G, Dom3 gz gy gx G ∧ x = ref.F.om j G}) := by
      have hM := maxOm3_greatest (gz := gz) (gy := gy) (gx := gx) (by omega) (by omega) (by omega) ref.F.om
      have hset : {x | ∃ j G, Dom3 gz gy gx G ∧ x = ref.F.om j G} = {x | ∃ j G, InDomain3 T G ∧ x = ref.F.om j G} := by
        ext x
        simp only [Set.mem_setOf_eq]
        constructor
        · rintro ⟨j, G, hG, rfl⟩; exact ⟨j, G, (dom3_iff hT G).1 hG, rfl⟩
        · rintro ⟨j, G, hG, rfl⟩; exact ⟨j, G, (dom3_iff hT G).2 hG, rfl⟩
      apply maxVorticity3_global hT C hC.g hns S.sim (fun j => holdsX3_holds (h.sim.om j))
      rw [← hset]; exact hM
    obtain ⟨r1, v1⟩ := max3_exec hr hmax h1
    refine Rounds.read ?_
    have hcode' : (onRanks (ranks3 T) fun r => cCode3 (T := T) C K tol A r (k' r (w1 r).val)) =
        onRanks (ranks3 T) fun r => cCode3 C K tol A r (k' r (sSup {x | ∃ j G, Dom3 gz gy gx G ∧ x = ref.F.om j G})) := by
      refine onRanks_congr fun r hr => ?_
      rw [show (w1 r).val = _ from v1 r hr]
    rw [hcode']
    exact ih _ _ (fun c hc => (hk c hc).2 _) h hp ht r1
  | divNorm k ih =>
    intro q ref S dt w hq h hp ht hr
    have hsplit : ∀ c, ∃ k', c ∈ ranks3 T → q c = .divNorm k' ∧ ∀ x, Follows3 A pr c (k x) (k' x) := by
      intro c
      by_cases hc : c ∈ ranks3 T
      · obtain ⟨k', h⟩ := hq c hc; exact ⟨k', fun _ => h⟩
      · exact ⟨k, fun h => absurd h hc⟩
    choose k' hk using hsplit
    have hcode : cCodes3 (T := T) C K tol A q = onRanks (ranks3 T) fun r => .run (liftProg simPart3 Pkt.embVals (layersProg (divPiece3 C K) r))
        (.run (liftProg .whole Pkt.embVals (layersProg (normPiece3 C) r)) (.read fun s => cCode3 C K tol A r (k' r s.val))) := by
      refine onRanks_congr fun r hr => ?_
      rw [(hk r hr).1]; rfl
    rw [hcode]
    refine Rounds.run ((divPiece3 C K).map (liftPiece simPart3 Pkt.embVals)) (liftPieces_pieces _ _ (divPiece3_pieces C K)) (fun r _ => layersProg_lift _ _ _ _) ?_
    intro w1 h1
    obtain ⟨h1, p1⟩ := liftPieces_exec h1
    obtain ⟨sch, hs, r1⟩ := divPiece3_exec hns hr.sim h1
    have r1 := hr.setSim p1 r1
    refine Rounds.run ((normPiece3 C).map (liftPiece .whole Pkt.embVals)) (liftPieces_pieces _ _ (normPiece3_pieces _)) (fun r _ => layersProg_lift _ _ _ _) ?_
    intro w2 h2
    obtain ⟨h2, -⟩ := liftPieces_exec h2
    have hd : (divNorm3 C K sch S.sim).2 = .ok (refDiv3 (C.params gz gy gx) K ref.F.om) :=
      divNorm3_global hT ⟨by omega, by omega, by omega⟩ C hC.g hC.gz hC.gy hC.gx hns K hKd hs S.sim (fun j => holdsX3_holds (h.sim.om j))
    obtain ⟨r2, v2⟩ := norm3_exec (K := K) hns r1 rfl hd h2
    refine Rounds.read ?_
    have hcode' : (onRanks (ranks3 T) fun r => cCode3 (T := T) C K tol A r (k' r (w2 r).val)) =
        onRanks (ranks3 T) fun r => cCode3 C K tol A r (k' r (refDiv3 (C.params gz gy gx) K ref.F.om)) := by
      refine onRanks_congr fun r hr => ?_
      rw [show (w2 r).val = _ from v2 r hr]
    rw [hcode']
    have hst : (divNorm3 C K sch S.sim).1 = { S.sim with buf := (divNorm3 C K sch S.sim).1.buf, om := ofFam (multiExchange3 T C.g C.full [0, 1, 2] (asFam S.sim.om) sch.2) } := by
      unfold divNorm3
      rw [if_pos hns]
    have hom : ∀ j, HoldsX3 T C.g (ref.F.om j) (ofFam (multiExchange3 T C.g C.full [0, 1, 2] (asFam S.sim.om) sch.2) j) := fun j =>
      multi3_holdsX hT hC.gz hC.gy hC.gx C.full mem_fin3 (asFam S.sim.om) hs j (h.sim.om j)
    refine ih _ _ (fun c hc => (hk c hc).2 _) ?_ hp ht r2
    rw [hst]
    exact ⟨⟨h.sim.sc, hom, h.sim.u, h.sim.green⟩, h.time, h.force, h.conf, h.fresh, h.ib, h.log⟩
  | ghost k ih =>
    intro q ref S dt w hq h hp ht hr
    have hsplit : ∀ c, ∃ k', c ∈ ranks3 T → q c = .ghost k' ∧ Follows3 A pr c k k' := by
      intro c
      by_cases hc : c ∈ ranks3 T
      · obtain ⟨k', h⟩ := hq c hc; exact ⟨k', fun _ => h⟩
      · exact ⟨k, fun h => absurd h hc⟩
    choose k' hk using hsplit
    have hcode : cCodes3 (T := T) C K tol A q = onRanks (ranks3 T) fun r => .run (liftProg simPart3 Pkt.embVals (layersProg (ghostPiece3 C) r)) (cCode3 C K tol A r (k' r)) := by
      refine onRanks_congr fun r hr => ?_
      rw [(hk r hr).1]; rfl
    rw [hcode]
    refine Rounds.run ((ghostPiece3 C).map (liftPiece simPart3 Pkt.embVals)) (liftPieces_pieces _ _ (ghostPiece3_pieces C)) (fun r _ => layersProg_lift _ _ _ _) ?_
    intro w1 h1
    obtain ⟨h1, p1⟩ := liftPieces_exec h1
    obtain ⟨s, hs, r1⟩ := ghostPiece3_exec hr.sim h1
    have r1 := hr.setSim p1 r1
    rw [hfull] at hs
    exact ih k' (fun c hc => (hk c hc).2) (one ⟨sd, s, (fun _ => [], gd)⟩ (dd hsd hs) (.ghost .stop) h trivial trivial) hp ht r1
  | out x k ih =>
    intro q ref S dt w hq h hp ht hr
    have hsplit : ∀ c, ∃ x' k', c ∈ ranks3 T → q c = .out x' k' ∧ (c = pr → x' = x) ∧ Follows3 A pr c k k' := by
      intro c
      by_cases hc : c ∈ ranks3 T
      · obtain ⟨x', k', h⟩ := hq c hc; exact ⟨x', k', fun _ => h⟩
      · exact ⟨x, k, fun h => absurd h hc⟩
    choose x' k' hk using hsplit
    have hcode : cCodes3 (T := T) C K tol A q = onRanks (ranks3 T) fun r => .run [.loc fun s => { s with log := s.log ++ [x' r] }] (cCode3 C K tol A r (k' r)) := by
      refine onRanks_congr fun r hr => ?_
      rw [(hk r hr).1]; rfl
    rw [hcode]
    refine Rounds.run [locLayer (ranks3 T) fun r s => { s with log := s.log ++ [x' r] }] ?_ ?_ ?_
    · intro L hL
      rw [List.mem_singleton.1 hL]; exact locLayer_piece _ _
    · intro r hr
      simp only [layersProg, List.flatMap_cons, List.flatMap_nil, List.append_nil]
      unfold locLayer
      rw [if_pos hr]
    intro w1 h1
    obtain ⟨v, h1, rfl⟩ := h1
    obtain ⟨i1, o1⟩ := locLayer_exec h1
    have hs : ∀ c, (w1 c).sim = (w c).sim ∧ (w1 c).ib = (w c).ib := by
      intro c
      by_cases hc : c ∈ ranks3 T
      · rw [i1 c hc]; exact ⟨rfl, rfl⟩
      · rw [o1 c hc]; exact ⟨rfl, rfl⟩
    have r1 : CRep3 C A pr { S with log := S.log ++ [x] } dt w1 := by
      refine ⟨?_, ?_, ?_, ?_, ?_, ?_, ?_⟩
      · simp only [(hs _).1]; exact hr.sim
      · intro b; simp only [(hs _).2]; exact hr.ib b
      · intro b c hc; rw [(hs _).2]; exact hr.bz b c hc
      · intro b c hc; rw [(hs _).2]; exact hr.by' b c hc
      · intro b c hc; rw [(hs _).2]; exact hr.bx b c hc
      · intro b c hc; rw [(hs _).2]; exact hr.time b c hc
      · have hpr' := mem_ranks3.2 hpr
        rw [i1 pr hpr', (hk pr hpr').2.1 rfl, hr.log]
    exact ih k' (fun c hc => (hk c hc).2.2) (one ⟨sd, gd, (fun _ => [], gd)⟩ (dd hsd hgd) (.out x .stop) h trivial trivial) hp ht r1

/-- At the start every rank holds its share of `S`; numbers left over from earlier calls do not matter. -/
def StartsC3 (C : Cfg3) (A : B → Ib3) (pr : C3) (S : CSt3 T B) (w : C3 → RkC3 T B) : Prop := ∃ dt, CRep3 C A pr S dt w

/-- **C87** Flow and bodies, constructed, initialised and driven by any program, on ranks which are synchronised by nothing but their messages and each of which decides
by itself what it does next: they cannot get stuck, they cannot run forever, and when all ranks have returned, every inner cell of every rank holds the vorticity,
velocity and forcing of the run on the global grid, the master of each body the forces, and rank `pr` has printed the same numbers; MPI may buffer messages or not. -/
theorem coupled3_async {a : SimArgs3} {xr : ℝ} (hxr : 0 < xr) {nu cfl : ℝ} (hnu : 0 ≤ nu) (hcfl : 0 ≤ cfl) {tol : ℝ} (htol : 0 < tol) (hK : K.Local)
    (hKd : ∀ a, CrossLocal3 1 (K.div a)) (hK0 : ∀ r, K.upd r (fun _ _ => 0) = 0) {X0 : B → LagField ℝ} {t0 : B → ℝ} {time : ℝ} {sc : ℝ → ℝ → ℝ → ℝ}
    {om u : Fin 3 → ℝ → ℝ → ℝ → ℝ} (h : Setup3 a xr A X0 t0 time sc om u S) (hm : ∀ b, Valid3 T (A b).m) (hpr : Valid3 T pr) (p : Prog3 B)
    (hp : Proper3 (a.pars xr nu) K cfl tol A p (refStart3 (xr / a.gx) X0 t0 time sc om u))
    (ht : Tracked3 T (a.pars xr nu) K cfl tol A p (refStart3 (xr / a.gx) X0 t0 time sc om u))
    (q : C3 → Prog3 B) (hq : ∀ c, Valid3 T c → Follows3 A pr c p (q c)) (b : Bool) (hw : StartsC3 (simCfg3 a xr nu cfl) A pr S w) :
    let X := DConf.start (cCodes3 (simCfg3 a xr nu cfl) K tol A q) w
    let ref := cRef3 (a.pars xr nu) K cfl tol A p (refStart3 (xr / a.gx) X0 t0 time sc om u)
    (∀ Y, DStar b X Y → ¬ Y.Done → ∃ Z, DStep b Y Z) ∧ (∀ f : ℕ → _, f 0 = X → ¬ ∀ n, DStep b (f n) (f (n + 1))) ∧ (∃ Y, DStar b X Y ∧ Y.Done) ∧
    ∀ Y, DStar b X Y → Y.Done → (Y.cf.st pr).log = ref.log ∧
      (∀ c, Valid3 T c → (Y.cf.st c).sim.time = ref.time ∧ ∀ x, Inner3 T a.g x →
        ∀ j, (Y.cf.st c).sim.om j x = ref.F.om j (globalIx3 T a.g c x) ∧ (Y.cf.st c).sim.vel j x = ref.F.u j (globalIx3 T a.g c x) ∧
          (Y.cf.st c).sim.forcing j x = ref.Φ j (globalIx3 T a.g c x)) ∧
      ∀ b', (∀ k < 3, ∀ i < (A b').N, ((Y.cf.st (A b').m).ib b').rk.v.gforce k i = (ref.hist b').F k i) ∧
        ∀ c, Valid3 T c → ((Y.cf.st c).ib b').time = (ref.hist b').t := by
  intro X ref
  obtain ⟨hT, -⟩ := simCheck3_cart h.fit.built
  have hns : isNS a.flowType = true := by rw [h.flowType]; rfl
  have hgood := h.fit.good xr nu cfl hns
  obtain ⟨o, ho⟩ := cscheds3_exist T a.g
  obtain ⟨-, hstart, hA⟩ := coupled3_holds hxr hnu hcfl htol hK hKd hK0 h ho .stop trivial trivial
  obtain ⟨dt, hw⟩ := hw
  have hrounds := cRounds3 hT hgood hxr h.flowType hcfl hnu htol hK hKd hK0 (fun b => (hA b).2) (fun b => (hA b).1) hm hpr b p q (fun c hc => hq c (mem_ranks3.1 hc)) hstart hp ht hw
  have hfine := rounds_sound (fun r hr => by unfold cCodes3 onRanks; rw [if_neg hr]) hrounds
  refine ⟨fun Y hY hd => hfine.noStuck hY hd, fun f h0 => hfine.ends f h0, hfine.exists_end, fun Y hY hYd => ?_⟩
  obtain ⟨S', dt', h1, h2⟩ := hfine.result hY hYd
  refine ⟨h2.log.trans h1.log, ?_, ?_⟩
  · intro c hc
    have hcr := mem_ranks3.2 hc
    refine ⟨(h2.sim.time c hcr).trans h1.time, fun x hx j => ⟨?_, ?_, ?_⟩⟩
    · exact (congrFun (h2.sim.om c hcr j) x).trans (h1.sim.om j c x hc (inArr_of_inner3 hx) (Or.inl hx))
    · exact (congrFun (h2.sim.vel c hcr j) x).trans (h1.sim.u j c x hc (inArr_of_inner3 hx) (Or.inl hx))
    · exact (congrFun (h2.sim.forcing c hcr j) x).trans ((h1.force j c x hc).1 hx)
  · intro b'
    refine ⟨fun k hk i hi => ?_, fun c hc => ?_⟩
    · exact (congrFun (congrFun (h2.ib b').gforce k) i).trans ((h1.ib b').stores.force k hk i hi)
    · exact (h2.time b' c (mem_ranks3.2 hc)).trans (h1.ib b').stores.time

end

/-! ## The hypotheses can be met -/

omit [DecidableEq B] in
/-- Every state can be dealt out to the ranks. -/
theorem startsC3_exists (C : Cfg3) (A : B → Ib3) (pr : C3) (S : CSt3 T B) : ∃ w : C3 → RkC3 T B, StartsC3 C A pr S w := by
  refine ⟨fun c => ⟨⟨S.sim.sc c, fun j => S.sim.om j c, fun j => S.sim.vel j c, S.sim.buf c, fun j => S.sim.bufV j c, fun j => S.sim.stream j c, fun j => S.sim.forcing j c,
      S.sim.time, S.sim.solver.dbl c, S.sim.solver.four, S.sim.solver.conv, S.sim.solver.green, 0, fun _ => 7, fun _ => 0, fun _ => 0, fun _ => 0, fun _ => []⟩,
    fun b => ⟨⟨⟨(S.ib b).v.addr, [], (S.ib b).v.cnt c, true, (S.ib b).v.posM c, (S.ib b).v.velM c, (S.ib b).v.force c, (S.ib b).v.lpos c, (S.ib b).v.lvel c,
      (S.ib b).v.gposM, (S.ib b).v.gvelM, (S.ib b).v.gforce⟩, fun _ => [], fun _ => []⟩, (S.ib b).bz c, (S.ib b).by' c, (S.ib b).bx c, (S.ib b).v.time⟩, 7, fun _ => [], S.log⟩,
      0, ?_, ?_, ?_, ?_, ?_, ?_, rfl⟩
  · constructor <;> intros <;> rfl
  · intro b
    constructor <;> intros <;> rfl
  · intros; rfl
  · intros; rfl
  · intros; rfl
  · intros; rfl

/-- The driver `exProg3` on a rank which is not the master of the body: it has no positions and velocities, and no forces, and prints nothing sensible. -/
noncomputable def exProgOther3 : Prog3 Unit :=
  .stableDt 0.5 fun dt => .interact () (fun _ _ => 0) (fun _ _ => 5) <| .advance () dt <| .flow dt (fun _ => 1) <| .deviation () fun _ => .out 42 <|
    .divNorm fun _ => .out 43 <| .ghost <| .forces () (fun _ _ => 0) (fun _ _ => 5) fun _ => .interact () (fun _ _ => 0) (fun _ _ => 5) <| .flow (dt / 2) (fun _ => 1) .stop

/-- Rank (0, 0, 1) is the master, rank (0, 0, 0) knows nothing of the body: the two ranks follow the driver. -/
theorem exFollows3 (c : C3) : Follows3 (fun _ : Unit => exBody3) (0, 0, 1) c exProg3 (if c = (0, 0, 1) then exProg3 else exProgOther3) := by
  by_cases h : c = (0, 0, 1)
  · rw [if_pos h]
    unfold exProg3
    refine ⟨_, rfl, fun dt => ⟨_, _, _, rfl, fun _ => ⟨rfl, rfl⟩, _, rfl, _, rfl, _, rfl, fun e => ⟨_, _, rfl, fun _ => rfl, _, rfl, fun y => ⟨_, _, rfl, fun _ => rfl, _, rfl, _, _, _, rfl,
      fun _ => ⟨rfl, rfl⟩, fun f f' hf => ⟨_, _, _, rfl, fun hm => ⟨rfl, ?_⟩, _, rfl, rfl⟩⟩⟩⟩⟩
    rw [hf hm]
  · rw [if_neg h]
    unfold exProg3 exProgOther3
    have hm : ∀ {P : Prop}, c = exBody3.m → P := fun e => absurd e h
    exact ⟨_, rfl, fun dt => ⟨_, _, _, rfl, hm, _, rfl, _, rfl, _, rfl, fun e => ⟨_, _, rfl, fun e => absurd e h, _, rfl, fun y => ⟨_, _, rfl, fun e => absurd e h, _, rfl, _, _, _, rfl, hm,
      fun f f' _ => ⟨_, _, _, rfl, hm, _, rfl, rfl⟩⟩⟩⟩⟩

/-- All hypotheses of `coupled3_async` can be met: on two ranks, with initial vorticity and velocity as given, the run of these two drivers ends with what `exProg3` gives on the
global grid. -/
example [NeZero (⟨8, 16, 8, 1, 1, 2, 8, 16, 4, false⟩ : Cart3).gz] [NeZero (⟨8, 16, 8, 1, 1, 2, 8, 16, 4, false⟩ : Cart3).gy]
    [NeZero (⟨8, 16, 8, 1, 1, 2, 8, 16, 4, false⟩ : Cart3).gx] [NeZero (⟨8, 16, 8, 1, 1, 1, 8, 16, 8, false⟩ : Cart3).gz]
    [NeZero (⟨8, 16, 8, 1, 1, 1, 8, 16, 8, false⟩ : Cart3).gy] [NeZero (⟨8, 16, 8, 1, 1, 1, 8, 16, 8, false⟩ : Cart3).gx]
    {nu : ℝ} (hnu : 0 ≤ nu) {cfl : ℝ} (hcfl : 0 ≤ cfl) {K : Kern3} (hK : K.Local) (hKd : ∀ a, CrossLocal3 1 (K.div a)) (hK0 : ∀ r, K.upd r (fun _ _ => 0) = 0)
    (sc : ℝ → ℝ → ℝ → ℝ) (om u : Fin 3 → ℝ → ℝ → ℝ → ℝ) (b : Bool) :
    ∃ w : C3 → RkC3 ⟨8, 16, 8, 1, 1, 2, 8, 16, 4, false⟩ Unit, ∃ Y,
      DStar b (DConf.start (cCodes3 (simCfg3 ⟨8, 16, 8, 1, 1, 2, "navier_stokes_with_forcing", true, none, false, 2, .int 2⟩ 8 nu cfl) K 1e-10 (fun _ => exBody3)
        fun c => if c = (0, 0, 1) then exProg3 else exProgOther3) w) Y ∧ Y.Done ∧
      (Y.cf.st (0, 0, 1)).log = (cRef3 (SimArgs3.pars ⟨8, 16, 8, 1, 1, 2, "navier_stokes_with_forcing", true, none, false, 2, .int 2⟩ 8 nu) K cfl 1e-10 (fun _ => exBody3) exProg3
        (refStart3 1 (fun _ => exPos3) (fun _ => 0) 0 sc om u)).log := by
  obtain ⟨⟨S, hS⟩, -⟩ := exSetup3 sc om u
  obtain ⟨w, hw⟩ := startsC3_exists (simCfg3 ⟨8, 16, 8, 1, 1, 2, "navier_stokes_with_forcing", true, none, false, 2, .int 2⟩ 8 nu cfl) (fun _ => exBody3) (0, 0, 1) S
  have e : (8 : ℝ) / ((8 : ℕ) : ℝ) = 1 := by norm_num
  obtain ⟨p1, p2⟩ := exProper3 (SimArgs3.pars ⟨8, 16, 8, 1, 1, 2, "navier_stokes_with_forcing", true, none, false, 2, .int 2⟩ 8 nu) ⟨rfl, rfl, rfl, e⟩ K cfl 1e-10
    ⟨8, 16, 8, 1, 1, 2, 8, 16, 4, false⟩ (refStart3 1 (fun _ => exPos3) (fun _ => 0) 0 sc om u) rfl
  rw [← e] at p1 p2
  have hv : Valid3 (⟨8, 16, 8, 1, 1, 2, 8, 16, 4, false⟩ : Cart3) (0, 0, 1) := by unfold Valid3; norm_num
  obtain ⟨-, -, ⟨Y, hY, hd⟩, hres⟩ := coupled3_async (by norm_num : (0 : ℝ) < 8) hnu hcfl (by norm_num : (0 : ℝ) < 1e-10) hK hKd hK0 hS (fun _ => hv) hv exProg3 p1 p2
    (fun c => if c = (0, 0, 1) then exProg3 else exProgOther3) (fun c _ => exFollows3 c) b hw
  refine ⟨w, Y, hY, hd, ?_⟩
  rw [(hres Y hY hd).1, ← e]

end Sopht
