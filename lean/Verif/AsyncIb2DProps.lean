import Verif.AsyncIb2D

/-! # Flow and immersed bodies in 2D, run by ranks at their own speed (C86) -/

namespace Sopht

set_option linter.unusedSimpArgs false

variable {T : Cart2} {B : Type} {b : Bool} {C : Cfg2} {K : Kern2}

/-! ## The pieces of one call -/

theorem ghostPiece2_exec {S : Sim2 T} {dt : ℝ} {w w' : C2 → Rk2 T} (hg : 1 ≤ C.g) (hR : Rep2 S dt w) (h : ExecSeq b (ghostPiece2 C) w w') :
    ∃ s : List Ev, Complete (multiMsgs2 T C.g false ([0, 1] : List (Fin 2))) s ∧ Rep2 { S with vel := ghostVel2 T C.g s S.vel } dt w' := by
  obtain ⟨w1, h1, w2, h2, rfl⟩ := h
  obtain ⟨s1, s, hc, hin, -⟩ := exchLayer_exec (ranks2_nodup T) partF2 _ ((ghost2_all_matched T hg false).vec ([0, 1] : List (Fin 2))) (by intro c s; rfl) h1
  have hl := (locLayer_exec h2).1
  refine ⟨s, hc, ?_⟩
  have hA : ∀ (e : List Ev), ∀ c ∈ ranks2 T, runNet (allMsgs (ranks2 T) (vecPosts ([0, 1] : List (Fin 2)) (posts2 T C.g false)))
      (fun r i => (w r).vel i.1 (unflat2 T C.g i.2)) e c = runNet (multiMsgs2 T C.g false ([0, 1] : List (Fin 2))) (fun r i => toFlat2 T C.g (S.vel i.1) r i.2) e c := by
    intro e
    refine runNet_congr _ (fun r hr => ?_) e
    funext i
    rw [hR.vel r hr]
    rfl
  have hw : ∀ c ∈ ranks2 T, w' c = _ := fun c hc => (hl c hc).trans (by rw [hin c hc])
  constructor <;> intro c hc <;> rw [hw c hc] <;> dsimp only [partF2] <;> rest2 hR, c, hc
  intro j
  rw [hA s c hc]
  rfl

/-- The state after reset and ghost exchange. -/
noncomputable def preState2 (C : Cfg2) (a : Ib2) (full : Bool) (s : List Ev) (S : Sim2 T) : Sim2 T :=
  { S with
    vel := if a.auto then ghostVel2 T C.g s S.vel else S.vel
    forcing := if full && a.reset then fun _ _ _ => 0 else S.forcing }

theorem prePiece2_exec {S : Sim2 T} {dt : ℝ} {w w' : C2 → Rk2 T} (hg : 1 ≤ C.g) {a : Ib2} {full : Bool} (hR : Rep2 S dt w) (h : ExecSeq b (prePiece2 C a full) w w') :
    ∃ s : List Ev, Complete (multiMsgs2 T C.g false ([0, 1] : List (Fin 2))) s ∧ Rep2 (preState2 C a full s S) dt w' := by
  unfold prePiece2 at h
  obtain ⟨w1, h1, h2⟩ := execSeq_append h
  have k1 : ∃ s : List Ev, Complete (multiMsgs2 T C.g false ([0, 1] : List (Fin 2))) s ∧ Rep2 { S with vel := if a.auto then ghostVel2 T C.g s S.vel else S.vel } dt w1 := by
    split at h1
    · rename_i ha
      obtain ⟨s, hs, r⟩ := ghostPiece2_exec hg hR h1
      exact ⟨s, hs, by rw [if_pos ha]; exact r⟩
    · rename_i ha
      obtain ⟨s, hs⟩ := complete_schedule_exists (multiMsgs2 T C.g false ([0, 1] : List (Fin 2)))
      have h1 : w1 = w := h1
      subst h1
      exact ⟨s, hs, by rw [if_neg ha]; exact hR⟩
  obtain ⟨s, hs, r1⟩ := k1
  refine ⟨s, hs, ?_⟩
  split at h2
  · rename_i hf
    obtain ⟨w2, h2, rfl⟩ := h2
    have hl := (locLayer_exec h2).1
    unfold preState2
    rw [if_pos hf]
    constructor <;> intro c hc <;> rw [hl c hc] <;> dsimp only <;> rest2 r1, c, hc
    intro j; rfl
  · rename_i hf
    have h2 : w' = w1 := h2
    subst h2
    unfold preState2
    rw [if_neg hf]
    exact r1

theorem ghostPiece2_pieces (hg : 1 ≤ C.g) : ∀ L ∈ ghostPiece2 (T := T) C, Piece (ranks2 T) L := by
  intro L hL
  simp only [ghostPiece2, List.mem_cons, List.not_mem_nil, or_false] at hL
  rcases hL with rfl | rfl
  · exact exchLayer_piece _ _ ((ghost2_all_matched T hg false).vec _) _
  · exact locLayer_piece _ _

theorem prePiece2_pieces (hg : 1 ≤ C.g) (a : Ib2) (full : Bool) : ∀ L ∈ prePiece2 (T := T) C a full, Piece (ranks2 T) L := by
  intro L hL
  unfold prePiece2 at hL
  rcases List.mem_append.1 hL with hL | hL
  · split at hL
    · exact ghostPiece2_pieces hg L hL
    · cases hL
  · split at hL
    · rw [List.mem_singleton.1 hL]; exact locLayer_piece _ _
    · cases hL

section
variable [NeZero T.gy] [NeZero T.gx] {gy gx py px : ℕ}

theorem stepPiece2_pieces (hT : mkCart2 gy gx py px false = .ok T) (hg : 1 ≤ C.g) (hd : C.flowType ≠ "passive_scalar" → ∃ gn, doublingInit2 gn T = .ok C.d)
    (hft : C.flowType ∈ flowTypes2) (tol dt : ℝ) (fs : Fin 2 → ℝ) : ∀ L ∈ stepPiece2 (T := T) C K tol dt fs, Piece (ranks2 T) L := by
  intro L hL
  refine simPieces2_pieces (K := K) hT hg hd hft tol [⟨.fixed dt, fs, fun _ _ _ => 0⟩] L ?_
  unfold stepPiece2 at hL
  unfold simPieces2 iterPiece2
  simp only [List.flatMap_cons, List.flatMap_nil, List.append_nil, List.mem_append, List.mem_singleton] at hL ⊢
  rcases hL with (h | h) | h
  · exact Or.inl (Or.inl (Or.inl h))
  · exact Or.inl (Or.inr h)
  · exact Or.inr h

theorem stablePiece2_pieces (hT : mkCart2 gy gx py px false = .ok T) (hg : 1 ≤ C.g) (hd : C.flowType ≠ "passive_scalar" → ∃ gn, doublingInit2 gn T = .ok C.d)
    (hft : C.flowType ∈ flowTypes2) (K : Kern2) (tol pre : ℝ) : ∀ L ∈ dtPiece2 (T := T) C tol (.stable pre), Piece (ranks2 T) L := by
  intro L hL
  refine simPieces2_pieces (K := K) hT hg hd hft tol [⟨.stable pre, fun _ => 0, fun _ _ _ => 0⟩] L ?_
  unfold simPieces2 iterPiece2
  simp only [List.flatMap_cons, List.flatMap_nil, List.append_nil, List.mem_append]
  exact Or.inl (Or.inl (Or.inl hL))

end

/-! ## What all ranks hold together -/

/-- The ranks hold the state `S`; `dt` is the variable of the driver, `pr` the rank whose output counts. -/
structure CRep2 (C : Cfg2) (A : B → Ib2) (pr : C2) (S : CSt2 T B) (dt : ℝ) (w : C2 → RkC2 T B) : Prop where
  sim : Rep2 S.sim dt fun c => (w c).sim
  ib : ∀ b, HoldsVbf ((A b).vbf T (simDx2 T C.xr)) (S.ib b).v fun c => ((w c).ib b).rk.v
  row : ∀ b, ∀ c ∈ ranks2 T, ((w c).ib b).row = (S.ib b).row c
  col : ∀ b, ∀ c ∈ ranks2 T, ((w c).ib b).col = (S.ib b).col c
  time : ∀ b, ∀ c ∈ ranks2 T, ((w c).ib b).time = (S.ib b).v.time
  log : (w pr).log = S.log

variable [DecidableEq B] {A : B → Ib2} {pr : C2} {S : CSt2 T B} {dt dt' : ℝ} {w w' : C2 → RkC2 T B}

omit [DecidableEq B] in
/-- only the simulator changed -/
theorem CRep2.setSim (h : CRep2 C A pr S dt w) (he : ∀ r, w' r = simPart2.put (w r) (simPart2.get (w' r))) {s' : Sim2 T} (hR : Rep2 s' dt' fun c => (w' c).sim) :
    CRep2 C A pr { S with sim := s' } dt' w' := by
  have hib : ∀ r, (w' r).ib = (w r).ib := fun r => by rw [he r]; rfl
  have hlog : ∀ r, (w' r).log = (w r).log := fun r => by rw [he r]; rfl
  refine ⟨hR, ?_, ?_, ?_, ?_, ?_⟩
  · intro b
    simp only [hib]
    exact h.ib b
  · intro b c hc; rw [hib]; exact h.row b c hc
  · intro b c hc; rw [hib]; exact h.col b c hc
  · intro b c hc; rw [hib]; exact h.time b c hc
  · rw [hlog]; exact h.log

/-- only the forcing object of one body changed -/
theorem CRep2.setRk (h : CRep2 C A pr S dt w) {b : B} (he : ∀ r, w' r = (rkPart2 b).put (w r) ((rkPart2 b).get (w' r))) {v' : Vbf C2 ℝ}
    (hv : HoldsVbf ((A b).vbf T (simDx2 T C.xr)) v' fun c => ((w' c).ib b).rk.v) (ht : v'.time = (S.ib b).v.time) :
    CRep2 C A pr { S with ib := Function.update S.ib b { S.ib b with v := v' } } dt w' := by
  have hsim : ∀ r, (w' r).sim = (w r).sim := fun r => by rw [he r]; rfl
  have hlog : ∀ r, (w' r).log = (w r).log := fun r => by rw [he r]; rfl
  have hib : ∀ r, (w' r).ib = Function.update (w r).ib b { (w r).ib b with rk := ((w' r).ib b).rk } := fun r => by
    conv_lhs => rw [he r]
    rfl
  have hne : ∀ r b', b' ≠ b → (w' r).ib b' = (w r).ib b' := fun r b' hb => by rw [hib r, Function.update_of_ne hb]
  have heq : ∀ r, (w' r).ib b = { (w r).ib b with rk := ((w' r).ib b).rk } := fun r => by
    have := congrFun (hib r) b
    rwa [Function.update_self] at this
  refine ⟨by simp only [hsim]; exact h.sim, ?_, ?_, ?_, ?_, ?_⟩
  · intro b'
    by_cases e : b' = b
    · subst e; simp only [Function.update_self]; exact hv
    · simp only [Function.update_of_ne e, hne _ _ e]; exact h.ib b'
  · intro b' c hc
    by_cases e : b' = b
    · subst e; simp only [Function.update_self]; rw [heq]; exact h.row _ c hc
    · simp only [Function.update_of_ne e, hne _ _ e]; exact h.row b' c hc
  · intro b' c hc
    by_cases e : b' = b
    · subst e; simp only [Function.update_self]; rw [heq]; exact h.col _ c hc
    · simp only [Function.update_of_ne e, hne _ _ e]; exact h.col b' c hc
  · intro b' c hc
    by_cases e : b' = b
    · subst e; simp only [Function.update_self]; rw [heq, ht]; exact h.time _ c hc
    · simp only [Function.update_of_ne e, hne _ _ e]; exact h.time b' c hc
  · rw [hlog]; exact h.log

/-! ## Spreading -/

/-- the pieces of `spreadProg2` -/
noncomputable def spreadPieces2 (C : Cfg2) (a : Ib2) (b : B) : List (C2 → List (CIns2 T B)) :=
  locLayer (ranks2 T) (spreadLoc2 C a b) ::
  (((gsItems2 T C.g).map itemLayer).map (liftPiece (gsPart2 b 0) Pkt.embArr) ++ ((gsItems2 T C.g).map itemLayer).map (liftPiece (gsPart2 b 1) Pkt.embArr))

theorem spreadPieces2_pieces (hper : T.per = false) (C : Cfg2) (a : Ib2) (b : B) : ∀ L ∈ (spreadPieces2 C a b : List (C2 → List (CIns2 T B))), Piece (ranks2 T) L := by
  have hitems : ∀ P ∈ (gsItems2 T C.g).map itemLayer, Piece (ranks2 T) P := by
    intro P hP
    obtain ⟨x, hx, rfl⟩ := List.mem_map.1 hP
    exact itemLayer_piece ((gsItems2_parts hper C.g).plain x hx)
  intro L hL
  unfold spreadPieces2 at hL
  rcases List.mem_cons.1 hL with rfl | hL
  · exact locLayer_piece _ _
  · rcases List.mem_append.1 hL with hL | hL <;> exact liftPieces_pieces _ _ hitems L hL

theorem spread2_prog (hper : T.per = false) (C : Cfg2) (a : Ib2) (b : B) {r : C2} (hr : r ∈ ranks2 T) :
    layersProg (spreadPieces2 C a b) r = (spreadProg2 C a b r : List (CIns2 T B)) := by
  unfold spreadPieces2 spreadProg2
  have : ∀ (P : C2 → List (CIns2 T B)) Ps, layersProg (P :: Ps) r = P r ++ layersProg Ps r := fun P Ps => rfl
  rw [this, layersProg_append, layersProg_lift, layersProg_lift, layersProg_items, (gsItems2_parts hper C.g).prog r hr]
  unfold locLayer
  rw [if_pos hr]
  rfl

/-- one ghost sum of all ranks -/
theorem gsLift2_exec (hper : T.per = false) {g : ℕ} {b0 : B} {k : Fin 2} {w w' : C2 → RkC2 T B} {v : C2 → GS2 ℝ} (hv : ∀ r ∈ ranks2 T, (gsPart2 b0 k).get (w r) = v r)
    (h : ExecSeq b (((gsItems2 T g).map itemLayer).map (liftPiece (gsPart2 b0 k) (Pkt.embArr : Emb (C2 → ℝ) (Pkt C2 C2 ℝ)))) w w') :
    (∀ r ∈ ranks2 T, (gsPart2 b0 k).get (w' r) = ghostSum2 T g v r) ∧ ∀ r, w' r = (gsPart2 b0 k).put (w r) ((gsPart2 b0 k).get (w' r)) := by
  obtain ⟨h1, h2⟩ := liftPieces_exec h
  refine ⟨fun r hr => ?_, h2⟩
  have := items_exec (gsItems2_parts hper g).plain h1
  rw [congrFun this r]
  exact gsItems2_exec hper g _ hv r hr

theorem spread2_exec (hper : T.per = false) {b0 : B} (h : CRep2 C A pr S dt w) (hx : ExecSeq b (spreadPieces2 C (A b0) b0) w w') :
    CRep2 C A pr
      { S with
        sim := { S.sim with
          forcing := (spreadForces2 T C.g (simDx2 T C.xr) (A b0) (S.ib b0) S.sim.forcing).2 }
        ib := Function.update S.ib b0 (spreadForces2 T C.g (simDx2 T C.xr) (A b0) (S.ib b0) S.sim.forcing).1 } dt w' := by
  obtain ⟨w1, h1, h2⟩ := hx
  obtain ⟨w2, h2, h3⟩ := execSeq_append h2
  obtain ⟨l1, l1'⟩ := locLayer_exec h1
  -- after the local part
  let F : Fin 2 → World C2 C2 ℝ := fun k r => spread2 T C.g (A b0).w (simDx2 T C.xr) ((A b0).sh (simDx2 T C.xr)) (cosW2 (simDx2 T C.xr)) r (S.sim.forcing k r) (rankNodes2 (S.ib b0).v r k.1)
  have f1 : ∀ c ∈ ranks2 T, ∀ k, (w1 c).sim.forcing k = F k c := by
    intro c hc k
    rw [l1 c hc]
    unfold spreadLoc2
    dsimp only [F]
    have e1 := (h.ib b0).cnt c hc
    have e2 := (h.ib b0).lpos c hc
    have e3 := (h.ib b0).force c hc
    try dsimp only at e1 e2 e3
    have e4 := h.sim.forcing c hc k
    try dsimp only at e4
    rw [e1, e2, e3, e4]
    rfl
  have i1 : ∀ c, (w1 c).ib = (w c).ib := by
    intro c
    by_cases hc : c ∈ ranks2 T
    · rw [l1 c hc]; rfl
    · rw [l1' c hc]
  obtain ⟨g1, p1⟩ := gsLift2_exec hper (v := fun c => ⟨F 0 c, (S.ib b0).row c, (S.ib b0).col c⟩) (by
    intro r hr
    change (⟨(w1 r).sim.forcing 0, ((w1 r).ib b0).row, ((w1 r).ib b0).col⟩ : GS2 ℝ) = _
    rw [f1 r hr, i1, h.row b0 r hr, h.col b0 r hr]) h2
  have f2 : ∀ c ∈ ranks2 T, (w2 c).sim.forcing 0 = (ghostSum2 T C.g (fun c => ⟨F 0 c, (S.ib b0).row c, (S.ib b0).col c⟩) c).A ∧
      ((w2 c).ib b0).row = (ghostSum2 T C.g (fun c => ⟨F 0 c, (S.ib b0).row c, (S.ib b0).col c⟩) c).row ∧
      ((w2 c).ib b0).col = (ghostSum2 T C.g (fun c => ⟨F 0 c, (S.ib b0).row c, (S.ib b0).col c⟩) c).col := by
    intro c hc
    have := g1 c hc
    exact ⟨congrArg GS2.A this, congrArg GS2.row this, congrArg GS2.col this⟩
  have f2' : ∀ c ∈ ranks2 T, (w2 c).sim.forcing 1 = F 1 c := by
    intro c hc
    rw [p1 c]
    simp only [gsPart2]
    rw [Function.update_of_ne (by decide)]
    exact f1 c hc 1
  obtain ⟨g2, p2⟩ := gsLift2_exec hper (v := fun c => ⟨F 1 c, (ghostSum2 T C.g (fun c => ⟨F 0 c, (S.ib b0).row c, (S.ib b0).col c⟩) c).row,
      (ghostSum2 T C.g (fun c => ⟨F 0 c, (S.ib b0).row c, (S.ib b0).col c⟩) c).col⟩) (by
    intro r hr
    change (⟨(w2 r).sim.forcing 1, ((w2 r).ib b0).row, ((w2 r).ib b0).col⟩ : GS2 ℝ) = _
    rw [f2' r hr, (f2 r hr).2.1, (f2 r hr).2.2]) h3
  have q1 : ∀ c, ∃ x y z, w2 c = { w1 c with
        sim := { (w1 c).sim with
          forcing := x }
        ib := Function.update (w1 c).ib b0 { (w1 c).ib b0 with row := y, col := z } } := fun c => ⟨_, _, _, p1 c⟩
  have q2 : ∀ c, ∃ x y z, w' c = { w2 c with
        sim := { (w2 c).sim with
          forcing := x }
        ib := Function.update (w2 c).ib b0 { (w2 c).ib b0 with row := y, col := z } } := fun c => ⟨_, _, _, p2 c⟩
  have q : ∀ c, ∃ x y z, w' c = { w c with
        sim := { (w c).sim with
          forcing := x }
        ib := Function.update (w c).ib b0 { (w c).ib b0 with row := y, col := z } } := by
    intro c
    obtain ⟨x, y, z, e⟩ := q1 c
    obtain ⟨x', y', z', e'⟩ := q2 c
    refine ⟨x', y', z', ?_⟩
    rw [e', e]
    by_cases hc : c ∈ ranks2 T
    · rw [l1 c hc]; simp [spreadLoc2]
    · rw [l1' c hc]; simp
  have f3 : ∀ c ∈ ranks2 T, ∀ k, (w' c).sim.forcing k = (spreadForces2 T C.g (simDx2 T C.xr) (A b0) (S.ib b0) S.sim.forcing).2 k c := by
    intro c hc k
    fin_cases k
    · have : (w' c).sim.forcing 0 = (w2 c).sim.forcing 0 := by
        rw [p2 c]
        simp only [gsPart2]
        rw [Function.update_of_ne (by decide)]
      exact this.trans (f2 c hc).1
    · exact congrArg GS2.A (g2 c hc)
  have r3 : ∀ c ∈ ranks2 T, ((w' c).ib b0).row = (spreadForces2 T C.g (simDx2 T C.xr) (A b0) (S.ib b0) S.sim.forcing).1.row c ∧
      ((w' c).ib b0).col = (spreadForces2 T C.g (simDx2 T C.xr) (A b0) (S.ib b0) S.sim.forcing).1.col c := by
    intro c hc
    exact ⟨congrArg GS2.row (g2 c hc), congrArg GS2.col (g2 c hc)⟩
  have vsame : (spreadForces2 T C.g (simDx2 T C.xr) (A b0) (S.ib b0) S.sim.forcing).1.v = (S.ib b0).v := rfl
  have rkt : ∀ c b', ((w' c).ib b').rk = ((w c).ib b').rk ∧ ((w' c).ib b').time = ((w c).ib b').time ∧ (b' ≠ b0 → (w' c).ib b' = (w c).ib b') := by
    intro c b'
    obtain ⟨x, y, z, e⟩ := q c
    rw [e]
    by_cases hb : b' = b0
    · subst hb; simp
    · simp [Function.update_of_ne hb]
  generalize spreadForces2 T C.g (simDx2 T C.xr) (A b0) (S.ib b0) S.sim.forcing = res at f3 r3 vsame ⊢
  refine ⟨?_, ?_, ?_, ?_, ?_, ?_⟩
  · constructor <;> intro c hc <;> obtain ⟨x, y, z, e⟩ := q c
    case forcing => exact f3 c hc
    all_goals rw [e]; dsimp only; rest2 h.sim, c, hc
  · intro b'
    have := h.ib b'
    simp only [(rkt _ b').1]
    by_cases hb : b' = b0
    · subst hb; simp only [Function.update_self, vsame]; exact this
    · simp only [Function.update_of_ne hb]; exact this
  · intro b' c hc
    by_cases hb : b' = b0
    · subst hb; simp only [Function.update_self]; exact (r3 c hc).1
    · rw [(rkt c b').2.2 hb]; simp only [Function.update_of_ne hb]; exact h.row b' c hc
  · intro b' c hc
    by_cases hb : b' = b0
    · subst hb; simp only [Function.update_self]; exact (r3 c hc).2
    · rw [(rkt c b').2.2 hb]; simp only [Function.update_of_ne hb]; exact h.col b' c hc
  · intro b' c hc
    rw [(rkt c b').2.1]
    by_cases hb : b' = b0
    · subst hb; simp only [Function.update_self, vsame]; exact h.time _ c hc
    · simp only [Function.update_of_ne hb]; exact h.time b' c hc
  · obtain ⟨x, y, z, e⟩ := q pr
    rw [e]; exact h.log

/-! ## The other calls -/

omit [DecidableEq B] in
/-- nothing changed but packets and numbers -/
theorem CRep2.same (h : CRep2 C A pr S dt w) (he : ∀ r, (w' r).sim = (w r).sim ∧ (w' r).ib = (w r).ib ∧ (w' r).log = (w r).log) : CRep2 C A pr S dt w' := by
  refine ⟨?_, ?_, ?_, ?_, ?_, ?_⟩
  · simp only [(he _).1]; exact h.sim
  · intro b; simp only [(he _).2.1]; exact h.ib b
  · intro b c hc; rw [(he _).2.1]; exact h.row b c hc
  · intro b c hc; rw [(he _).2.1]; exact h.col b c hc
  · intro b c hc; rw [(he _).2.1]; exact h.time b c hc
  · rw [(he _).2.2]; exact h.log

omit [DecidableEq B] in
theorem devPiece2_pieces (a : Ib2) (b : B) : ∀ L ∈ devPiece2 (T := T) a b, Piece (ranks2 T) L := by
  intro L hL
  simp only [devPiece2, List.mem_cons, List.not_mem_nil, or_false] at hL
  rcases hL with rfl | rfl | rfl | rfl
  · exact collLayer_piece (ranks2_nodup T) _ _ _ _ (by intro c d s m; rfl)
  · exact locLayer_piece _ _
  · exact collLayer_piece (ranks2_nodup T) _ _ _ _ (by intro c d s m; rfl)
  · exact locLayer_piece _ _

omit [DecidableEq B] in
theorem maxPiece2_pieces (C : Cfg2) : ∀ L ∈ maxPiece2 (T := T) (B := B) C, Piece (ranks2 T) L := by
  intro L hL
  simp only [maxPiece2, List.mem_cons, List.not_mem_nil, or_false] at hL
  rcases hL with rfl | rfl
  · exact collLayer_piece (ranks2_nodup T) _ _ _ _ (by intro c d s m; rfl)
  · exact locLayer_piece _ _

omit [DecidableEq B] in
theorem dev2_exec {b0 : B} (hm : Valid2 T (A b0).m) (h : CRep2 C A pr S dt w) (hx : ExecSeq b (devPiece2 (A b0) b0) w w') :
    CRep2 C A pr S dt w' ∧ ∀ c ∈ ranks2 T, (w' c).val = gridDeviation 2 (ranks2 T) (A b0).N (S.ib b0).v (A b0).m := by
  obtain ⟨w1, h1, w2, h2, w3, h3, w4, h4, rfl⟩ := hx
  obtain ⟨i1, o1⟩ := collLayer_exec (ranks2_nodup T) qPart2 _ _ _ (by intro c d s m; rfl) h1
  obtain ⟨i2, o2⟩ := locLayer_exec h2
  obtain ⟨i3, o3⟩ := collLayer_exec (ranks2_nodup T) qPart2 _ _ _ (by intro c d s m; rfl) h3
  obtain ⟨i4, o4⟩ := locLayer_exec h4
  have s1 : ∀ c, (w1 c).sim = (w c).sim ∧ (w1 c).ib = (w c).ib ∧ (w1 c).log = (w c).log := by
    intro c
    by_cases hc : c ∈ ranks2 T
    · rw [i1 c hc]; exact ⟨rfl, rfl, rfl⟩
    · rw [o1 c hc]; exact ⟨rfl, rfl, rfl⟩
  have s2 : ∀ c, (w2 c).sim = (w1 c).sim ∧ (w2 c).ib = (w1 c).ib ∧ (w2 c).log = (w1 c).log := by
    intro c
    by_cases hc : c ∈ ranks2 T
    · rw [i2 c hc]; split <;> exact ⟨rfl, rfl, rfl⟩
    · rw [o2 c hc]; exact ⟨rfl, rfl, rfl⟩
  have s3 : ∀ c, (w3 c).sim = (w2 c).sim ∧ (w3 c).ib = (w2 c).ib ∧ (w3 c).log = (w2 c).log := by
    intro c
    by_cases hc : c ∈ ranks2 T
    · rw [i3 c hc]; exact ⟨rfl, rfl, rfl⟩
    · rw [o3 c hc]; exact ⟨rfl, rfl, rfl⟩
  have s4 : ∀ c, (w' c).sim = (w3 c).sim ∧ (w' c).ib = (w3 c).ib ∧ (w' c).log = (w3 c).log := by
    intro c
    by_cases hc : c ∈ ranks2 T
    · rw [i4 c hc]; exact ⟨rfl, rfl, rfl⟩
    · rw [o4 c hc]; exact ⟨rfl, rfl, rfl⟩
  refine ⟨((((h.same s1).same s2).same s3).same s4), ?_⟩
  have hmr : (A b0).m ∈ ranks2 T := mem_ranks2.2 hm
  have v1 : ∀ q ∈ ranks2 T, packet0 ((w1 (A b0).m).mb q) = frobNorm 2 ((S.ib b0).v.cnt q) ((S.ib b0).v.posM q) ^ 2 := by
    intro q hq
    rw [i1 _ hmr]
    dsimp only [qPart2]
    rw [if_pos ⟨hq, by simp⟩]
    have e1 := (h.ib b0).cnt q hq
    have e2 := (h.ib b0).posM q hq
    rw [e1, e2]
    rfl
  have v2 : (w2 (A b0).m).val = gridDeviation 2 (ranks2 T) (A b0).N (S.ib b0).v (A b0).m := by
    rw [i2 _ hmr, if_pos rfl]
    dsimp only
    unfold gridDeviation
    rw [List.map_congr_left v1]
  intro c hc
  rw [i4 c hc]
  dsimp only
  rw [i3 c hc]
  dsimp only [qPart2]
  rw [if_pos ⟨hmr, by simp⟩]
  exact v2

omit [DecidableEq B] in
theorem max2_exec {x : ℝ} (h : CRep2 C A pr S dt w) (hok : maxVorticity2 C S.sim = .ok x) (hx : ExecSeq b (maxPiece2 C) w w') :
    CRep2 C A pr S dt w' ∧ ∀ c ∈ ranks2 T, (w' c).val = x := by
  obtain ⟨w1, h1, w2, h2, rfl⟩ := hx
  obtain ⟨i1, o1⟩ := collLayer_exec (ranks2_nodup T) qPart2 _ _ _ (by intro c d s m; rfl) h1
  obtain ⟨i2, o2⟩ := locLayer_exec h2
  have s1 : ∀ c, (w1 c).sim = (w c).sim ∧ (w1 c).ib = (w c).ib ∧ (w1 c).log = (w c).log := by
    intro c
    by_cases hc : c ∈ ranks2 T
    · rw [i1 c hc]; exact ⟨rfl, rfl, rfl⟩
    · rw [o1 c hc]; exact ⟨rfl, rfl, rfl⟩
  have s2 : ∀ c, (w' c).sim = (w1 c).sim ∧ (w' c).ib = (w1 c).ib ∧ (w' c).log = (w1 c).log := by
    intro c
    by_cases hc : c ∈ ranks2 T
    · rw [i2 c hc]; exact ⟨rfl, rfl, rfl⟩
    · rw [o2 c hc]; exact ⟨rfl, rfl, rfl⟩
  refine ⟨(h.same s1).same s2, ?_⟩
  unfold maxVorticity2 at hok
  split at hok
  · cases hok
  · have hok' := allreduce_okOr max hok
    intro c hc
    rw [i2 c hc]
    dsimp only
    rw [allreduce_congr max (y := fun c => Except.ok (okOr 0 (amax (innerElems2 T C.g (S.sim.prim c))))), hok']
    · rfl
    · intro r hr
      rw [i1 c hc]
      dsimp only [qPart2]
      rw [if_pos ⟨hr, rfl⟩]
      have e := h.sim.prim r hr
      try dsimp only at e
      rw [e]
      rfl

/-- the pieces of `advanceIns2` -/
noncomputable def advancePieces2 (T : Cart2) (b : B) (dt : ℝ) : List (C2 → List (CIns2 T B)) :=
  [liftPiece vbfPart (Pkt.embVals : Emb (List ℝ) (Pkt C2 C2 ℝ)) (locLayer (ranks2 T) fun _ (s : VbfLoc C2 ℝ) => { s with posM := fun k j => s.posM k j + dt * s.velM k j })].map
    (liftPiece (rkPart2 b) .all) ++
  [locLayer (ranks2 T) fun _ s => { s with ib := Function.update s.ib b { s.ib b with time := (s.ib b).time + dt } }]

theorem advancePieces2_pieces (b : B) (dt : ℝ) : ∀ L ∈ advancePieces2 T b dt, Piece (ranks2 T) L := by
  intro L hL
  unfold advancePieces2 at hL
  rcases List.mem_append.1 hL with hL | hL
  · refine liftPieces_pieces _ _ ?_ L hL
    intro P hP
    rw [List.mem_singleton.1 hP]
    exact liftPiece_piece _ _ (locLayer_piece _ _)
  · rw [List.mem_singleton.1 hL]; exact locLayer_piece _ _

theorem advance2_prog (b : B) (dt : ℝ) {r : C2} (hr : r ∈ ranks2 T) : layersProg (advancePieces2 T b dt) r = advanceIns2 b dt := by
  unfold advancePieces2 advanceIns2
  rw [layersProg_append, layersProg_lift]
  simp only [layersProg, List.flatMap_cons, List.flatMap_nil, List.append_nil]
  unfold liftPiece locLayer
  rw [if_pos hr, if_pos hr]
  rfl

theorem vbfCfgOk2 (hA : ∀ b, (A b).Ok) (hm : ∀ b, Valid2 T (A b).m) (dx : ℝ) (b : B) : CfgOk ((A b).vbf T dx) :=
  ⟨ranks2_nodup T, mem_ranks2.2 (hm b), (hA b).ord⟩

theorem advance2_exec (hA : ∀ b, (A b).Ok) (hm : ∀ b, Valid2 T (A b).m) {b0 : B} {d : ℝ} (h : CRep2 C A pr S dt w) (hx : ExecSeq b (advancePieces2 T b0 d) w w') :
    CRep2 C A pr { S with ib := Function.update S.ib b0 { S.ib b0 with v := vbfStep d (S.ib b0).v } } dt w' := by
  unfold advancePieces2 at hx
  obtain ⟨w1, h1, h2⟩ := execSeq_append hx
  obtain ⟨h1, p1⟩ := liftPieces_exec h1
  have v1 := vbfStep_exec (vbfCfgOk2 hA hm (simDx2 T C.xr) b0) d (h.ib b0) h1
  have r1 : CRep2 C A pr { S with ib := Function.update S.ib b0 { S.ib b0 with v := { vbfStep d (S.ib b0).v with time := (S.ib b0).v.time } } } dt w1 :=
    h.setRk p1 ⟨v1.addr, v1.cnt, v1.posM, v1.velM, v1.force, v1.lpos, v1.lvel, v1.gposM, v1.gvelM, v1.gforce⟩ rfl
  obtain ⟨w2, h2, rfl⟩ := h2
  obtain ⟨i2, o2⟩ := locLayer_exec h2
  have hs : ∀ c, (w' c).sim = (w1 c).sim ∧ (w' c).log = (w1 c).log ∧ ∀ b', ((w' c).ib b').rk = ((w1 c).ib b').rk ∧ ((w' c).ib b').row = ((w1 c).ib b').row ∧
      ((w' c).ib b').col = ((w1 c).ib b').col ∧ (b' ≠ b0 → (w' c).ib b' = (w1 c).ib b') := by
    intro c
    by_cases hc : c ∈ ranks2 T
    · rw [i2 c hc]
      refine ⟨rfl, rfl, fun b' => ?_⟩
      by_cases e : b' = b0
      · subst e; simp
      · simp [Function.update_of_ne e]
    · rw [o2 c hc]; exact ⟨rfl, rfl, fun _ => ⟨rfl, rfl, rfl, fun _ => rfl⟩⟩
  refine ⟨?_, ?_, ?_, ?_, ?_, ?_⟩
  · simp only [(hs _).1]; exact r1.sim
  · intro b'
    simp only [((hs _).2.2 b').1]
    by_cases e : b' = b0
    · subst e; simp only [Function.update_self]; exact v1
    · have := r1.ib b'
      simp only [Function.update_of_ne e] at this ⊢
      exact this
  · intro b' c hc
    rw [((hs c).2.2 b').2.1]
    have := r1.row b' c hc
    by_cases e : b' = b0
    · subst e; simp only [Function.update_self] at this ⊢; exact this
    · simp only [Function.update_of_ne e] at this ⊢; exact this
  · intro b' c hc
    rw [((hs c).2.2 b').2.2.1]
    have := r1.col b' c hc
    by_cases e : b' = b0
    · subst e; simp only [Function.update_self] at this ⊢; exact this
    · simp only [Function.update_of_ne e] at this ⊢; exact this
  · intro b' c hc
    have := r1.time b' c hc
    by_cases e : b' = b0
    · subst e
      simp only [Function.update_self] at this ⊢
      rw [i2 c hc]
      simp only [Function.update_self]
      rw [this]
      rfl
    · rw [((hs c).2.2 b').2.2.2 e]
      simp only [Function.update_of_ne e] at this ⊢
      exact this
  · rw [(hs pr).2.1]; exact r1.log

/-! ## An interaction -/

theorem vbfInteract_time {R : Type} [DecidableEq R] (c : VbfCfg R ℝ) (X U : LagField ℝ) (F : R → (ℕ → ℝ) → ℕ → ℝ) (s : Vbf R ℝ) : (vbfInteract c X U F s).time = s.time := by
  unfold vbfInteract vbfUpdateBuffers
  dsimp only
  split <;> rfl

theorem interact2_rounds (hper : T.per = false) (hg : 1 ≤ C.g) (hA : ∀ b, (A b).Ok) (hm : ∀ b, Valid2 T (A b).m) {Post : (C2 → RkC2 T B) → Prop} {full : Bool} {b0 : B}
    {X U : LagField ℝ} {X' U' : C2 → LagField ℝ} (hXU : ∀ r ∈ ranks2 T, r = (A b0).m → X' r = X ∧ U' r = U) (ha : ∀ c ∈ (S.ib b0).v.addr, Valid2 T c)
    (hX : ∀ c ∈ ((A b0).vbf T (simDx2 T C.xr)).addrOf X, Valid2 T c) (h : CRep2 C A pr S dt w) {rest : C2 → RProg C2 (RkC2 T B) (Pkt C2 C2 ℝ)}
    (next : ∀ w' s, Complete (multiMsgs2 T C.g false ([0, 1] : List (Fin 2))) s →
      CRep2 C A pr
        { S with
          sim := preState2 C (A b0) full s S.sim
          ib := Function.update S.ib b0
            { S.ib b0 with
              v := vbfInteract ((A b0).vbf T (simDx2 T C.xr)) X U (flowVel2 T C.g (simDx2 T C.xr) (A b0) (preState2 C (A b0) full s S.sim).vel) (S.ib b0).v } } dt w' →
      Rounds b (ranks2 T) Post (onRanks (ranks2 T) rest) w') :
    Rounds b (ranks2 T) Post (onRanks (ranks2 T) fun r => interactCode2 C A r full b0 (X' r) (U' r) (rest r)) w := by
  have hc := vbfCfgOk2 hA hm (simDx2 T C.xr) b0
  have ha' : ∀ c ∈ (S.ib b0).v.addr, c ∈ ((A b0).vbf T (simDx2 T C.xr)).ranks := fun c h => mem_ranks2.2 (ha c h)
  have hX' : ∀ c ∈ ((A b0).vbf T (simDx2 T C.xr)).addrOf X, c ∈ ((A b0).vbf T (simDx2 T C.xr)).ranks := fun c h => mem_ranks2.2 (hX c h)
  unfold interactCode2
  refine Rounds.run ((prePiece2 C (A b0) full).map (liftPiece simPart2 Pkt.embVals)) (liftPieces_pieces _ _ (prePiece2_pieces hg _ _)) (fun r _ => layersProg_lift _ _ _ _) ?_
  intro w1 h1
  obtain ⟨h1, p1⟩ := liftPieces_exec h1
  obtain ⟨s, hs, r1⟩ := prePiece2_exec hg h.sim h1
  have c1 := h.setSim p1 r1
  refine Rounds.blk ((stage1Pieces ((A b0).vbf T (simDx2 T C.xr)) (S.ib b0).v.addr X).map (liftPiece (rkPart2 b0) .all)) (liftPieces_pieces _ _ (stage1Pieces_pieces hc ha' X)) ?_ ?_
  · intro r hr
    rw [layersProg_lift]
    have had := (c1.ib b0).addr r hr
    try dsimp only at had
    rw [had]
    exact congrArg _ (stage1_prog hc ha' X hr fun e => (hXU r hr e).1)
  intro w2 h2
  obtain ⟨h2, p2⟩ := liftPieces_exec h2
  obtain ⟨f1, f2⟩ := stage1_exec hc ha' (c1.ib b0) h2
  have c2 := c1.setRk p2 f1 rfl
  have f2 : ∀ r ∈ ranks2 T, ((w2 r).ib b0).rk.v.flag = (ranks2 T).any fun q => decide ((S.ib b0).v.cnt q ≠ localCount (((A b0).vbf T (simDx2 T C.xr)).addrOf X) q) := f2
  refine Rounds.blk ((stage2Pieces ((A b0).vbf T (simDx2 T C.xr)) (((A b0).vbf T (simDx2 T C.xr)).addrOf X)
    ((ranks2 T).any fun q => decide ((S.ib b0).v.cnt q ≠ localCount (((A b0).vbf T (simDx2 T C.xr)).addrOf X) q)) X U
    (flowVel2 T C.g (simDx2 T C.xr) (A b0) (preState2 C (A b0) full s S.sim).vel)).map (liftPiece (rkPart2 b0) .all))
    (liftPieces_pieces _ _ (stage2Pieces_pieces hc hX' _ X U _)) ?_ ?_
  · intro r hr
    rw [layersProg_lift]
    have had := f1.addr r hr
    have had : ((w2 r).ib b0).rk.v.addr = ((A b0).vbf T (simDx2 T C.xr)).addrOf X := had
    have hF : flowVel2 T C.g (simDx2 T C.xr) (A b0) (fun j _ => (w2 r).sim.vel j) r = flowVel2 T C.g (simDx2 T C.xr) (A b0) (preState2 C (A b0) full s S.sim).vel r := by
      funext x k
      unfold flowVel2
      have := c2.sim.vel r hr (comp2 k)
      exact congrArg (fun f => eulToLag2 T C.g (A b0).w (simDx2 T C.xr) ((A b0).sh (simDx2 T C.xr)) (cosW2 (simDx2 T C.xr)) r f (x 0, x 1)) this
    rw [had, f2 r hr, hF]
    exact congrArg _ (stage2_prog hc hX' _ X U _ hr (hXU r hr))
  intro w3 h3
  obtain ⟨h3, p3⟩ := liftPieces_exec h3
  have f3 := stage2_exec hc hX' U _ f1 h3
  have c3 := c2.setRk p3 f3 (by
    rw [vbfInteract_time]
    simp only [Function.update_self]
    rfl)
  refine next w3 s hs ?_
  simp only [Function.update_self, Function.update_idem] at c3
  exact c3

/-! ## One call -/

omit [DecidableEq B] in
theorem lagInteract2_eq {a : Ib2} {s : List Ev} {X U : LagField ℝ} {S : Sim2 T} {ib : IbSt2} {l : List C2} (hm : a.mapping T (simDx2 T C.xr) X = .ok l) :
    lagInteract2 C a s X U S ib = .ok (preState2 C a false s S,
      { ib with v := vbfInteract (a.vbf T (simDx2 T C.xr)) X U (flowVel2 T C.g (simDx2 T C.xr) a (preState2 C a false s S).vel) ib.v }) := by
  unfold lagInteract2 preState2
  dsimp only
  rw [hm]
  simp

omit [DecidableEq B] in
theorem fullInteract2_eq {a : Ib2} {s : List Ev} {X U : LagField ℝ} {S : Sim2 T} {ib : IbSt2} {l : List C2} (hm : a.mapping T (simDx2 T C.xr) X = .ok l) :
    fullInteract2 C a s X U S ib =
      let ib' : IbSt2 := { ib with v := vbfInteract (a.vbf T (simDx2 T C.xr)) X U (flowVel2 T C.g (simDx2 T C.xr) a (preState2 C a true s S).vel) ib.v }
      .ok ({ preState2 C a true s S with
          forcing := (spreadForces2 T C.g (simDx2 T C.xr) a ib' (preState2 C a true s S).forcing).2 },
        (spreadForces2 T C.g (simDx2 T C.xr) a ib' (preState2 C a true s S).forcing).1) := by
  unfold fullInteract2
  dsimp only
  rw [lagInteract2_eq hm]
  unfold preState2
  cases a.reset <;> simp

section
variable [NeZero T.gy] [NeZero T.gx] {gy gx py px : ℕ}

omit [DecidableEq B] in
theorem stepPiece2_exec (hT : mkCart2 gy gx py px false = .ok T) (hC : Good2 gy gx T C) {gn : PyNum} (hd : doublingInit2 gn T = .ok C.d)
    (hft : C.flowType = "navier_stokes_with_forcing") (hK : K.Local) (hK0 : ∀ a, K.upd a (fun _ _ => 0) = 0) {tol : ℝ} {S : Sim2 T} {F : Fields2} (hS : SimHolds2 C F S)
    {Φ : Fin 2 → C2 → ℝ} (hΦ : HoldsForce2 T 2 Φ S.forcing) (hcf : Confined2 gy gx Φ) {d : ℝ} {fs : Fin 2 → ℝ} {w w' : C2 → Rk2 T} (hR : Rep2 S dt w)
    (h : ExecSeq b (stepPiece2 C K tol d fs) w w') : ∃ sch : Scheds2, sch.Done T C.d ∧ Rep2 (timeStep2 C K sch d fs S).1 d w' := by
  unfold stepPiece2 at h
  obtain ⟨w2, h, h3⟩ := execSeq_append h
  obtain ⟨w1, h1, h2⟩ := execSeq_append h
  have r1 : Rep2 S d w1 := dtPiece2_exec tol hR h1 (dt := d) rfl
  obtain ⟨sch, hs, r2⟩ := flowPiece2_exec hT hC (fun _ => ⟨gn, hd⟩) (by rw [hft]; simp [flowTypes2]) hK hK0 hS r1 fs (fun _ => ⟨hΦ, hcf⟩) h2
  refine ⟨sch, hs, ?_⟩
  obtain ⟨a1, -⟩ := nsForcingStep2_holds hT hC hd hK hK0 hft hs d fs hS hΦ hcf
  have n1 : C.flowType ≠ "navier_stokes" := by rw [hft]; simp
  have e : flowStep2 C K sch d fs S = nsForcingStep2 C K sch d fs S := by
    unfold flowStep2
    rw [if_neg n1, if_pos hft]
  have hstep : (timeStep2 C K sch d fs S).1 = { (flowStep2 C K sch d fs S).1 with time := (flowStep2 C K sch d fs S).1.time + d } := by
    unfold timeStep2 Out2.andThen
    rw [e, a1]
  rw [hstep]
  obtain ⟨w3, h3, rfl⟩ := h3
  have l3 := (locLayer_exec h3).1
  constructor <;> intro c hc <;> rw [l3 c hc] <;> dsimp only <;> rest2 r2, c, hc
  rw [r2.time c hc, r2.dt c hc]

/-! ## A whole driver -/

/-- The ranks hold what the run on the global grid gives. -/
def CEnds2 (gy gx : ℕ) (C : Cfg2) (A : B → Ib2) (pr : C2) (ref : RefC2 B) (w : C2 → RkC2 T B) : Prop :=
  ∃ S dt, CHolds2 gy gx C A ref S ∧ CRep2 C A pr S dt w

theorem cRounds2 (hT : mkCart2 gy gx py px false = .ok T) (hC : Good2 gy gx T C) {gn : PyNum} (hd : doublingInit2 gn T = .ok C.d)
    (hft : C.flowType = "navier_stokes_with_forcing") (hcfl : 0 ≤ C.cfl) {tol : ℝ} (htol : 0 < tol) (hK : K.Local) (hK0 : ∀ a, K.upd a (fun _ _ => 0) = 0)
    (hA : ∀ b, (A b).Ok) (hm : ∀ b, Valid2 T (A b).m) (hpr : Valid2 T pr) (b : Bool) (p : Prog2 B) :
    ∀ (q : C2 → Prog2 B) {ref : RefC2 B} {S : CSt2 T B} {dt : ℝ} {w : C2 → RkC2 T B}, (∀ c ∈ ranks2 T, Follows2 A pr c p (q c)) → CHolds2 gy gx C A ref S →
      Proper2 (C.params gy gx) K C.cfl tol A p ref → Tracked2 T (C.params gy gx) K C.cfl tol A p ref → CRep2 C A pr S dt w →
      Rounds b (ranks2 T) (CEnds2 gy gx C A pr (cRef2 (C.params gy gx) K C.cfl tol A p ref)) (cCodes2 C K tol A q) w := by
  obtain ⟨e1, e2, -, -, hper, -, -⟩ := construct2_ok hT
  have hgx0 : T.gx ≠ 0 := NeZero.ne _
  have hgy0 : T.gy ≠ 0 := NeZero.ne _
  have hdx' : simDx2 T C.xr = (C.params gy gx).dx := params_dx hT C
  have hdx : 0 < (C.params gy gx).dx := by
    rw [← hdx']; unfold simDx2
    exact div_pos hC.xr (by exact_mod_cast Nat.pos_of_ne_zero hgx0)
  have hny := hC.ny
  have hnx := hC.nx
  have hg : 1 ≤ C.g := by rw [hC.g]; omega
  have hft' : C.flowType ∈ flowTypes2 := by rw [hft]; simp [flowTypes2]
  obtain ⟨sd, hsd⟩ := scheds2_exist T C.d
  obtain ⟨gd, hgd⟩ := complete_schedule_exists (multiMsgs2 T 2 false ([0, 1] : List (Fin 2)))
  have one : ∀ (o : CScheds2), o.Done T C.d → ∀ (p : Prog2 B) {ref : RefC2 B} {S : CSt2 T B}, CHolds2 gy gx C A ref S → Proper2 (C.params gy gx) K C.cfl tol A p ref →
      Tracked2 T (C.params gy gx) K C.cfl tol A p ref → CHolds2 gy gx C A (cRef2 (C.params gy gx) K C.cfl tol A p ref) (cRun2 C K tol A (fun _ => o) p 0 S).1 :=
    fun o ho p ref S h1 h2 h3 => (cRun2_holds hT hC hd hft hcfl htol hK hK0 hA (fun _ => ho) p 0 h1 h2 h3).2
  have none : ∀ (o : CScheds2), o.Done T C.d → ∀ (p : Prog2 B) {ref : RefC2 B} {S : CSt2 T B}, CHolds2 gy gx C A ref S → Proper2 (C.params gy gx) K C.cfl tol A p ref →
      Tracked2 T (C.params gy gx) K C.cfl tol A p ref → (cRun2 C K tol A (fun _ => o) p 0 S).2 = none :=
    fun o ho p ref S h1 h2 h3 => (cRun2_holds hT hC hd hft hcfl htol hK hK0 hA (fun _ => ho) p 0 h1 h2 h3).1
  have hval : ∀ {ref : RefC2 B} {S : CSt2 T B}, CHolds2 gy gx C A ref S → ∀ b0, ∀ c ∈ (S.ib b0).v.addr, Valid2 T c :=
    fun h b0 c hc => mem_ranks2.1 ((h.ib b0).stores.addr.2 c hc)
  have hvalX : ∀ {k : ℕ} {b0 : B} {X : LagField ℝ}, Inside2 gy gx k (C.params gy gx).dx (A b0) X →
      (∃ l, (A b0).mapping T (simDx2 T C.xr) X = .ok l) ∧ ∀ c ∈ ((A b0).vbf T (simDx2 T C.xr)).addrOf X, Valid2 T c := by
    intro k b0 X hi
    obtain ⟨addr, h1, -, h2, -⟩ := owned_of_inside2 hT (by omega) (by omega) hdx hi
    rw [← hdx'] at h1
    refine ⟨⟨addr, h1⟩, ?_⟩
    change ∀ c ∈ okOr [] ((A b0).mapping T (simDx2 T C.xr) X), Valid2 T c
    rw [h1]
    exact h2
  induction p with
  | stop =>
    intro q ref S dt w hq h hp ht hr
    refine .stop ?_ ⟨S, dt, h, hr⟩
    intro r
    unfold cCodes2 onRanks
    split
    · rename_i hc
      have : q r = .stop := hq r hc
      dsimp only
      rw [this]; rfl
    · rfl
  | interact b0 X U k ih =>
    intro q ref S dt w hq h hp ht hr
    have hsplit : ∀ c, ∃ X' U' k', c ∈ ranks2 T → q c = .interact b0 X' U' k' ∧ (c = (A b0).m → X' = X ∧ U' = U) ∧ Follows2 A pr c k k' := by
      intro c
      by_cases hc : c ∈ ranks2 T
      · obtain ⟨X', U', k', h⟩ := hq c hc; exact ⟨X', U', k', fun _ => h⟩
      · exact ⟨X, U, k, fun h => absurd h hc⟩
    choose X' U' k' hk using hsplit
    have hcode : cCodes2 (T := T) C K tol A q = onRanks (ranks2 T) fun r => interactCode2 C A r true b0 (X' r) (U' r) (.run (spreadProg2 C (A b0) b0 r) (cCode2 C K tol A r (k' r))) := by
      refine onRanks_congr fun r hr => ?_
      rw [(hk r hr).1]; rfl
    rw [hcode]
    obtain ⟨⟨l, hl⟩, hX⟩ := hvalX hp.1
    refine interact2_rounds hper hg hA hm (fun r hr => (hk r hr).2.1) (hval h b0) hX hr ?_
    intro w1 s hs r1
    refine Rounds.run (spreadPieces2 C (A b0) b0) (spreadPieces2_pieces hper C (A b0) b0) (fun r hr => spread2_prog hper C (A b0) b0 hr) ?_
    intro w2 h2
    have r2 := spread2_exec hper r1 h2
    simp only [Function.update_self, Function.update_idem] at r2
    rw [hC.g] at hs
    have h' := one ⟨sd, s⟩ ⟨hsd, hs⟩ (.interact b0 X U .stop) h ⟨hp.1, hp.2.1, trivial⟩ ⟨ht.1, trivial⟩
    unfold cRun2 at h'
    rw [fullInteract2_eq hl] at h'
    exact ih k' (fun c hc => (hk c hc).2.2) h' hp.2.2 ht.2 r2
  | forces b0 X U k ih =>
    intro q ref S dt w hq h hp ht hr
    have hsplit : ∀ c, ∃ X' U' k', c ∈ ranks2 T → q c = .forces b0 X' U' k' ∧ (c = (A b0).m → X' = X ∧ U' = U) ∧ ∀ f f', (c = (A b0).m → f' = f) → Follows2 A pr c (k f) (k' f') := by
      intro c
      by_cases hc : c ∈ ranks2 T
      · obtain ⟨X', U', k', h⟩ := hq c hc; exact ⟨X', U', k', fun _ => h⟩
      · exact ⟨X, U, k, fun h => absurd h hc⟩
    choose X' U' k' hk using hsplit
    have hcode : cCodes2 (T := T) C K tol A q = onRanks (ranks2 T) fun r => interactCode2 C A r false b0 (X' r) (U' r)
        (.read fun s => cCode2 C K tol A r (k' r (forcesHere2 (A b0).N (s.ib b0).rk.v.gforce))) := by
      refine onRanks_congr fun r hr => ?_
      rw [(hk r hr).1]; rfl
    rw [hcode]
    obtain ⟨⟨l, hl⟩, hX⟩ := hvalX hp.1
    refine interact2_rounds hper hg hA hm (fun r hr => (hk r hr).2.1) (hval h b0) hX hr ?_
    intro w1 s hs r1
    refine Rounds.read ?_
    rw [hC.g] at hs
    have h' := one ⟨sd, s⟩ ⟨hsd, hs⟩ (.forces b0 X U fun _ => .stop) h ⟨hp.1, hp.2.1, trivial⟩ ⟨ht.1, trivial⟩
    unfold cRun2 at h'
    rw [lagInteract2_eq hl] at h'
    refine ih (refForceField (A b0).N (refLag2 (C.params gy gx).dx (A b0) ref.F.u X U (ref.hist b0))) (fun c => k' c (forcesHere2 (A b0).N ((w1 c).ib b0).rk.v.gforce)) (fun c hc => (hk c hc).2.2 _ _ ?_) h' hp.2.2 ht.2 r1
    intro hcm
    have hgf := (r1.ib b0).gforce
    change ((w1 (A b0).m).ib b0).rk.v.gforce = _ at hgf
    rw [hcm, hgf]
    funext k i
    unfold forcesHere2 refForceField
    split
    · rename_i hki
      have := (h'.ib b0).stores.force k hki.1 i hki.2
      refine this.trans ?_
      simp only [cRef2, refForces2, Function.update_self]
    · rfl
  | advance b0 d k ih =>
    intro q ref S dt w hq h hp ht hr
    have hsplit : ∀ c, ∃ k', c ∈ ranks2 T → q c = .advance b0 d k' ∧ Follows2 A pr c k k' := by
      intro c
      by_cases hc : c ∈ ranks2 T
      · obtain ⟨k', h⟩ := hq c hc; exact ⟨k', fun _ => h⟩
      · exact ⟨k, fun h => absurd h hc⟩
    choose k' hk using hsplit
    have hcode : cCodes2 (T := T) C K tol A q = onRanks (ranks2 T) fun r => .run (advanceIns2 b0 d) (cCode2 C K tol A r (k' r)) := by
      refine onRanks_congr fun r hr => ?_
      rw [(hk r hr).1]; rfl
    rw [hcode]
    refine Rounds.run (advancePieces2 T b0 d) (advancePieces2_pieces b0 d) (fun r hr => advance2_prog b0 d hr) ?_
    intro w1 h1
    exact ih k' (fun c hc => (hk c hc).2) (one ⟨sd, gd⟩ ⟨hsd, hgd⟩ (.advance b0 d .stop) h trivial trivial) hp ht (advance2_exec hA hm hr h1)
  | flow d fs k ih =>
    intro q ref S dt w hq h hp ht hr
    have hsplit : ∀ c, ∃ k', c ∈ ranks2 T → q c = .flow d fs k' ∧ Follows2 A pr c k k' := by
      intro c
      by_cases hc : c ∈ ranks2 T
      · obtain ⟨k', h⟩ := hq c hc; exact ⟨k', fun _ => h⟩
      · exact ⟨k, fun h => absurd h hc⟩
    choose k' hk using hsplit
    have hcode : cCodes2 (T := T) C K tol A q = onRanks (ranks2 T) fun r => .run (liftProg simPart2 Pkt.embVals (layersProg (stepPiece2 C K tol d fs) r)) (cCode2 C K tol A r (k' r)) := by
      refine onRanks_congr fun r hr => ?_
      rw [(hk r hr).1]; rfl
    rw [hcode]
    refine Rounds.run ((stepPiece2 C K tol d fs).map (liftPiece simPart2 Pkt.embVals)) (liftPieces_pieces _ _ (stepPiece2_pieces hT hg (fun _ => ⟨gn, hd⟩) hft' tol d fs))
      (fun r _ => layersProg_lift _ _ _ _) ?_
    intro w1 h1
    obtain ⟨h1, p1⟩ := liftPieces_exec h1
    obtain ⟨sch, hsch, r1⟩ := stepPiece2_exec hT hC hd hft hK hK0 h.sim (forceClean2_holds hT h.force h.conf) h.conf hr.sim h1
    have r1 := hr.setSim p1 r1
    have h' := one ⟨sch, gd⟩ ⟨hsch, hgd⟩ (.flow d fs .stop) h trivial trivial
    have hn := none ⟨sch, gd⟩ ⟨hsch, hgd⟩ (.flow d fs .stop) h trivial trivial
    unfold cRun2 at h' hn
    dsimp only at h' hn
    generalize timeStep2 C K sch d fs S.sim = res at h' hn r1
    obtain ⟨S', e⟩ := res
    cases e with
    | some e => cases hn
    | none => exact ih k' (fun c hc => (hk c hc).2) h' hp ht r1
  | stableDt pre k ih =>
    intro q ref S dt w hq h hp ht hr
    have hsplit : ∀ c, ∃ k', c ∈ ranks2 T → q c = .stableDt pre k' ∧ ∀ x, Follows2 A pr c (k x) (k' x) := by
      intro c
      by_cases hc : c ∈ ranks2 T
      · obtain ⟨k', h⟩ := hq c hc; exact ⟨k', fun _ => h⟩
      · exact ⟨k, fun h => absurd h hc⟩
    choose k' hk using hsplit
    have hcode : cCodes2 (T := T) C K tol A q = onRanks (ranks2 T) fun r => .run (liftProg simPart2 Pkt.embVals (layersProg (dtPiece2 C tol (.stable pre)) r))
        (.read fun s => cCode2 C K tol A r (k' r s.sim.dt)) := by
      refine onRanks_congr fun r hr => ?_
      rw [(hk r hr).1]; rfl
    rw [hcode]
    refine Rounds.run ((dtPiece2 C tol (.stable pre)).map (liftPiece simPart2 Pkt.embVals)) (liftPieces_pieces _ _ (stablePiece2_pieces hT hg (fun _ => ⟨gn, hd⟩) hft' K tol pre))
      (fun r _ => layersProg_lift _ _ _ _) ?_
    intro w1 h1
    obtain ⟨h1, p1⟩ := liftPieces_exec h1
    obtain ⟨a1, a2, a3⟩ := pickDt2_holds hT hC hcfl htol h.sim (.stable pre)
    have r1 := dtPiece2_exec tol hr.sim h1 a1
    have hdt := r1.dt
    have r1 := hr.setSim p1 r1
    refine Rounds.read ?_
    have hcode' : (onRanks (ranks2 T) fun r => cCode2 (T := T) C K tol A r (k' r (w1 r).sim.dt)) =
        onRanks (ranks2 T) fun r => cCode2 C K tol A r (k' r (refDt2 (C.params gy gx) C.cfl tol ref.F (.stable pre))) := by
      refine onRanks_congr fun r hr => ?_
      rw [show (w1 r).sim.dt = _ from hdt r hr]
    rw [hcode']
    exact ih _ _ (S := { S with sim := (pickDt2 C tol S.sim (.stable pre)).1 }) (fun c hc => (hk c hc).2 _) ⟨⟨a2.om, a2.u, a2.green⟩, h.time, h.force, h.conf, h.fresh, h.ib, h.log⟩ hp ht r1
  | deviation b0 k ih =>
    intro q ref S dt w hq h hp ht hr
    have hsplit : ∀ c, ∃ k', c ∈ ranks2 T → q c = .deviation b0 k' ∧ ∀ x, Follows2 A pr c (k x) (k' x) := by
      intro c
      by_cases hc : c ∈ ranks2 T
      · obtain ⟨k', h⟩ := hq c hc; exact ⟨k', fun _ => h⟩
      · exact ⟨k, fun h => absurd h hc⟩
    choose k' hk using hsplit
    have hcode : cCodes2 (T := T) C K tol A q = onRanks (ranks2 T) fun r => .run (liftProg .whole Pkt.embVals (layersProg (devPiece2 (A b0) b0) r))
        (.read fun s => cCode2 C K tol A r (k' r s.val)) := by
      refine onRanks_congr fun r hr => ?_
      rw [(hk r hr).1]; rfl
    rw [hcode]
    refine Rounds.run ((devPiece2 (A b0) b0).map (liftPiece .whole Pkt.embVals)) (liftPieces_pieces _ _ (devPiece2_pieces _ _)) (fun r _ => layersProg_lift _ _ _ _) ?_
    intro w1 h1
    obtain ⟨h1, -⟩ := liftPieces_exec h1
    obtain ⟨r1, v1⟩ := dev2_exec (hm b0) hr h1
    refine Rounds.read ?_
    have hcode' : (onRanks (ranks2 T) fun r => cCode2 (T := T) C K tol A r (k' r (w1 r).val)) =
        onRanks (ranks2 T) fun r => cCode2 C K tol A r (k' r (refDeviation 2 (A b0).N (ref.hist b0))) := by
      refine onRanks_congr fun r hr => ?_
      rw [show (w1 r).val = _ from v1 r hr]
      have : gridDeviation 2 (ranks2 T) (A b0).N (S.ib b0).v (A b0).m = refDeviation 2 (A b0).N (ref.hist b0) :=
        gridDeviation_rms ((A b0).vbf T (C.params gy gx).dx) (ranks2_nodup T) (h.ib b0).stores (A b0).m
      rw [this]
    rw [hcode']
    exact ih _ _ (fun c hc => (hk c hc).2 _) h hp ht r1
  | maxVort k ih =>
    intro q ref S dt w hq h hp ht hr
    have hsplit : ∀ c, ∃ k', c ∈ ranks2 T → q c = .maxVort k' ∧ ∀ x, Follows2 A pr c (k x) (k' x) := by
      intro c
      by_cases hc : c ∈ ranks2 T
      · obtain ⟨k', h⟩ := hq c hc; exact ⟨k', fun _ => h⟩
      · exact ⟨k, fun h => absurd h hc⟩
    choose k' hk using hsplit
    have hcode : cCodes2 (T := T) C K tol A q = onRanks (ranks2 T) fun r => .run (liftProg .whole Pkt.embVals (layersProg (maxPiece2 C) r))
        (.read fun s => cCode2 C K tol A r (k' r s.val)) := by
      refine onRanks_congr fun r hr => ?_
      rw [(hk r hr).1]; rfl
    rw [hcode]
    refine Rounds.run ((maxPiece2 C).map (liftPiece .whole Pkt.embVals)) (liftPieces_pieces _ _ (maxPiece2_pieces _)) (fun r _ => layersProg_lift _ _ _ _) ?_
    intro w1 h1
    obtain ⟨h1, -⟩ := liftPieces_exec h1
    have hmax : maxVorticity2 C S.sim = .ok (sSup {x | ∃ G, Dom2 gy gx G ∧ x = ref.F.om G}) := by
      have hM := maxOm2_greatest (gy := gy) (gx := gx) (by omega) (by omega) ref.F.om
      have hset : {x | ∃ G, Dom2 gy gx G ∧ x = ref.F.om G} = {x | ∃ G, InDomain2 T G ∧ x = ref.F.om G} := by
        ext x
        simp only [Set.mem_setOf_eq]
        constructor
        · rintro ⟨G, hG, rfl⟩; exact ⟨G, (dom2_iff hT G).1 hG, rfl⟩
        · rintro ⟨G, hG, rfl⟩; exact ⟨G, (dom2_iff hT G).2 hG, rfl⟩
      have hB : Blocks2 T C.g ref.F.om S.sim.prim := by rw [hC.g]; exact holdsX2_blocks h.sim.om
      apply maxVorticity2_global hT C (by rw [hC.g]; omega) (by rw [hft]; simp) S.sim hB
      rw [← hset]; exact hM
    obtain ⟨r1, v1⟩ := max2_exec hr hmax h1
    refine Rounds.read ?_
    have hcode' : (onRanks (ranks2 T) fun r => cCode2 (T := T) C K tol A r (k' r (w1 r).val)) =
        onRanks (ranks2 T) fun r => cCode2 C K tol A r (k' r (sSup {x | ∃ G, Dom2 gy gx G ∧ x = ref.F.om G})) := by
      refine onRanks_congr fun r hr => ?_
      rw [show (w1 r).val = _ from v1 r hr]
    rw [hcode']
    exact ih _ _ (fun c hc => (hk c hc).2 _) h hp ht r1
  | ghost k ih =>
    intro q ref S dt w hq h hp ht hr
    have hsplit : ∀ c, ∃ k', c ∈ ranks2 T → q c = .ghost k' ∧ Follows2 A pr c k k' := by
      intro c
      by_cases hc : c ∈ ranks2 T
      · obtain ⟨k', h⟩ := hq c hc; exact ⟨k', fun _ => h⟩
      · exact ⟨k, fun h => absurd h hc⟩
    choose k' hk using hsplit
    have hcode : cCodes2 (T := T) C K tol A q = onRanks (ranks2 T) fun r => .run (liftProg simPart2 Pkt.embVals (layersProg (ghostPiece2 C) r)) (cCode2 C K tol A r (k' r)) := by
      refine onRanks_congr fun r hr => ?_
      rw [(hk r hr).1]; rfl
    rw [hcode]
    refine Rounds.run ((ghostPiece2 C).map (liftPiece simPart2 Pkt.embVals)) (liftPieces_pieces _ _ (ghostPiece2_pieces hg)) (fun r _ => layersProg_lift _ _ _ _) ?_
    intro w1 h1
    obtain ⟨h1, p1⟩ := liftPieces_exec h1
    obtain ⟨s, hs, r1⟩ := ghostPiece2_exec hg hr.sim h1
    have r1 := hr.setSim p1 r1
    rw [hC.g] at hs
    exact ih k' (fun c hc => (hk c hc).2) (one ⟨sd, s⟩ ⟨hsd, hs⟩ (.ghost .stop) h trivial trivial) hp ht r1
  | out x k ih =>
    intro q ref S dt w hq h hp ht hr
    have hsplit : ∀ c, ∃ x' k', c ∈ ranks2 T → q c = .out x' k' ∧ (c = pr → x' = x) ∧ Follows2 A pr c k k' := by
      intro c
      by_cases hc : c ∈ ranks2 T
      · obtain ⟨x', k', h⟩ := hq c hc; exact ⟨x', k', fun _ => h⟩
      · exact ⟨x, k, fun h => absurd h hc⟩
    choose x' k' hk using hsplit
    have hcode : cCodes2 (T := T) C K tol A q = onRanks (ranks2 T) fun r => .run [.loc fun s => { s with log := s.log ++ [x' r] }] (cCode2 C K tol A r (k' r)) := by
      refine onRanks_congr fun r hr => ?_
      rw [(hk r hr).1]; rfl
    rw [hcode]
    refine Rounds.run [locLayer (ranks2 T) fun r s => { s with log := s.log ++ [x' r] }] ?_ ?_ ?_
    · intro L hL
      rw [List.mem_singleton.1 hL]; exact locLayer_piece _ _
    · intro r hr
      simp only [layersProg, List.flatMap_cons, List.flatMap_nil, List.append_nil]
      unfold locLayer
      rw [if_pos hr]
    intro w1 h1
    obtain ⟨v, h1, rfl⟩ := h1
    obtain ⟨i1, o1⟩ := locLayer_exec h1
    have hs : ∀ c, (w1 c).sim = (w c).sim ∧ (w1 c).ib = (w c).ib := by
      intro c
      by_cases hc : c ∈ ranks2 T
      · rw [i1 c hc]; exact ⟨rfl, rfl⟩
      · rw [o1 c hc]; exact ⟨rfl, rfl⟩
    have r1 : CRep2 C A pr { S with log := S.log ++ [x] } dt w1 := by
      refine ⟨?_, ?_, ?_, ?_, ?_, ?_⟩
      · simp only [(hs _).1]; exact hr.sim
      · intro b; simp only [(hs _).2]; exact hr.ib b
      · intro b c hc; rw [(hs _).2]; exact hr.row b c hc
      · intro b c hc; rw [(hs _).2]; exact hr.col b c hc
      · intro b c hc; rw [(hs _).2]; exact hr.time b c hc
      · have hpr' := mem_ranks2.2 hpr
        rw [i1 pr hpr', (hk pr hpr').2.1 rfl, hr.log]
    exact ih k' (fun c hc => (hk c hc).2.2) (one ⟨sd, gd⟩ ⟨hsd, hgd⟩ (.out x .stop) h trivial trivial) hp ht r1

/-- At the start every rank holds its share of `S`; numbers left over from earlier calls do not matter. -/
def StartsC2 (C : Cfg2) (A : B → Ib2) (pr : C2) (S : CSt2 T B) (w : C2 → RkC2 T B) : Prop := ∃ dt, CRep2 C A pr S dt w

/-- **C86** Flow and bodies, constructed, initialised and driven by any program, on ranks which are synchronised by nothing but their messages and each of which decides
by itself what it does next: they cannot get stuck, they cannot run forever, and when all ranks have returned, every inner cell of every rank holds the vorticity,
velocity and forcing of the run on the global grid, the master of each body the forces, and rank `pr` has printed the same numbers; MPI may buffer messages or not. -/
theorem coupled2_async {a : SimArgs2} {xr : ℝ} (hxr : 0 < xr) {nu cfl : ℝ} (hcfl : 0 ≤ cfl) {tol : ℝ} (htol : 0 < tol) (hK : K.Local)
    (hK0 : ∀ r, K.upd r (fun _ _ => 0) = 0) {X0 : B → LagField ℝ} {t0 : B → ℝ} {time : ℝ} {om : ℝ → ℝ → ℝ} {u : Fin 2 → ℝ → ℝ → ℝ}
    (h : Setup2 a xr nu cfl A X0 t0 time om u S) (hm : ∀ b, Valid2 T (A b).m) (hpr : Valid2 T pr) (p : Prog2 B)
    (hp : Proper2 ⟨a.gy, a.gx, xr, nu, widthOf a.width, a.freeStream⟩ K cfl tol A p (refStart2 (xr / a.gx) X0 t0 time om u))
    (ht : Tracked2 T ⟨a.gy, a.gx, xr, nu, widthOf a.width, a.freeStream⟩ K cfl tol A p (refStart2 (xr / a.gx) X0 t0 time om u))
    (q : C2 → Prog2 B) (hq : ∀ c, Valid2 T c → Follows2 A pr c p (q c)) (b : Bool) (hw : StartsC2 (simCfg2 a T xr nu cfl) A pr S w) :
    let X := DConf.start (cCodes2 (simCfg2 a T xr nu cfl) K tol A q) w
    let ref := cRef2 ⟨a.gy, a.gx, xr, nu, widthOf a.width, a.freeStream⟩ K cfl tol A p (refStart2 (xr / a.gx) X0 t0 time om u)
    (∀ Y, DStar b X Y → ¬ Y.Done → ∃ Z, DStep b Y Z) ∧ (∀ f : ℕ → _, f 0 = X → ¬ ∀ n, DStep b (f n) (f (n + 1))) ∧ (∃ Y, DStar b X Y ∧ Y.Done) ∧
    ∀ Y, DStar b X Y → Y.Done → (Y.cf.st pr).log = ref.log ∧
      (∀ c, Valid2 T c → (Y.cf.st c).sim.time = ref.time ∧ ∀ x, Inner2 T ((2 : ℕ) : ℤ) x →
        (Y.cf.st c).sim.prim x = ref.F.om (globalIx2 T ((2 : ℕ) : ℤ) c x) ∧
        ∀ j, (Y.cf.st c).sim.vel j x = ref.F.u j (globalIx2 T ((2 : ℕ) : ℤ) c x) ∧ (Y.cf.st c).sim.forcing j x = ref.Φ j (globalIx2 T ((2 : ℕ) : ℤ) c x)) ∧
      ∀ b', (∀ k < 2, ∀ i < (A b').N, ((Y.cf.st (A b').m).ib b').rk.v.gforce k i = (ref.hist b').F k i) ∧
        ∀ c, Valid2 T c → ((Y.cf.st c).ib b').time = (ref.hist b').t := by
  intro X ref
  obtain ⟨hT, -⟩ := simCheck2_cart' h.fit.built
  have hgood := h.fit.good hxr nu cfl
  obtain ⟨gn, hd⟩ := h.fit.dbl xr nu cfl (by change a.flowType ≠ _; rw [h.flowType]; simp)
  obtain ⟨o, ho⟩ := cscheds2_exist T (simCfg2 a T xr nu cfl).d
  obtain ⟨-, hstart, hA⟩ := coupled2_holds hxr hcfl htol hK hK0 h ho .stop trivial trivial
  obtain ⟨dt, hw⟩ := hw
  have hrounds := cRounds2 hT hgood hd h.flowType hcfl htol hK hK0 hA hm hpr b p q (fun c hc => hq c (mem_ranks2.1 hc)) hstart hp ht hw
  have hfine := rounds_sound (fun r hr => by unfold cCodes2 onRanks; rw [if_neg hr]) hrounds
  refine ⟨fun Y hY hd => hfine.noStuck hY hd, fun f h0 => hfine.ends f h0, hfine.exists_end, fun Y hY hYd => ?_⟩
  obtain ⟨S', dt', h1, h2⟩ := hfine.result hY hYd
  refine ⟨h2.log.trans h1.log, ?_, ?_⟩
  · intro c hc
    have hcr := mem_ranks2.2 hc
    refine ⟨(h2.sim.time c hcr).trans h1.time, fun x hx => ⟨?_, fun j => ⟨?_, ?_⟩⟩⟩
    · exact (congrFun (h2.sim.prim c hcr) x).trans (h1.sim.om c x hc (inArr_of_inner2 hx) (Or.inl hx))
    · exact (congrFun (h2.sim.vel c hcr j) x).trans (h1.sim.u j c x hc (inArr_of_inner2 hx) (Or.inl hx))
    · exact (congrFun (h2.sim.forcing c hcr j) x).trans ((h1.force j c x hc).1 hx)
  · intro b'
    refine ⟨fun k hk i hi => ?_, fun c hc => ?_⟩
    · exact (congrFun (congrFun (h2.ib b').gforce k) i).trans ((h1.ib b').stores.force k hk i hi)
    · exact (h2.time b' c (mem_ranks2.2 hc)).trans (h1.ib b').stores.time

end

/-! ## The hypotheses can be met -/

omit [DecidableEq B] in
/-- Every state can be dealt out to the ranks. -/
theorem startsC2_exists (C : Cfg2) (A : B → Ib2) (pr : C2) (S : CSt2 T B) : ∃ w : C2 → RkC2 T B, StartsC2 C A pr S w := by
  refine ⟨fun c => ⟨⟨S.sim.prim c, fun j => S.sim.vel j c, S.sim.buf c, S.sim.stream c, fun j => S.sim.forcing j c, S.sim.time, S.sim.solver.dbl c, S.sim.solver.four,
      S.sim.solver.conv, S.sim.solver.green, 0, fun _ => 7, fun _ => 0, fun _ => 0, fun _ => 0, fun _ => []⟩,
    fun b => ⟨⟨⟨(S.ib b).v.addr, [], (S.ib b).v.cnt c, true, (S.ib b).v.posM c, (S.ib b).v.velM c, (S.ib b).v.force c, (S.ib b).v.lpos c, (S.ib b).v.lvel c,
      (S.ib b).v.gposM, (S.ib b).v.gvelM, (S.ib b).v.gforce⟩, fun _ => [], fun _ => []⟩, (S.ib b).row c, (S.ib b).col c, (S.ib b).v.time⟩, 7, fun _ => [], S.log⟩, 0, ?_, ?_, ?_, ?_, ?_, rfl⟩
  · constructor <;> intros <;> rfl
  · intro b
    constructor <;> intros <;> rfl
  · intros; rfl
  · intros; rfl
  · intros; rfl

/-- The driver `exProg2` on a rank which is not the master of the body: it has no positions and velocities, and no forces, and prints nothing sensible. -/
noncomputable def exProgOther2 : Prog2 Unit :=
  .stableDt 0.5 fun dt => .interact () (fun _ _ => 0) (fun _ _ => 5) <| .advance () dt <| .flow dt (fun _ => 1) <| .deviation () fun _ => .out 42 <|
    .ghost <| .forces () (fun _ _ => 0) (fun _ _ => 5) fun _ => .interact () (fun _ _ => 0) (fun _ _ => 5) <| .flow (dt / 2) (fun _ => 1) .stop

/-- Rank (0, 1) is the master, rank (0, 0) knows nothing of the body: the two ranks follow the driver. -/
theorem exFollows2 (c : C2) : Follows2 (fun _ : Unit => exBody2) (0, 1) c exProg2 (if c = (0, 1) then exProg2 else exProgOther2) := by
  by_cases h : c = (0, 1)
  · rw [if_pos h]
    unfold exProg2
    refine ⟨_, rfl, fun dt => ⟨_, _, _, rfl, fun _ => ⟨rfl, rfl⟩, _, rfl, _, rfl, _, rfl, fun e => ⟨_, _, rfl, fun _ => rfl, _, rfl, _, _, _, rfl, fun _ => ⟨rfl, rfl⟩, fun f f' hf =>
      ⟨_, _, _, rfl, fun hm => ⟨rfl, ?_⟩, _, rfl, rfl⟩⟩⟩⟩
    rw [hf hm]
  · rw [if_neg h]
    unfold exProg2 exProgOther2
    have hm : ∀ {P : Prop}, c = exBody2.m → P := fun e => absurd e h
    exact ⟨_, rfl, fun dt => ⟨_, _, _, rfl, hm, _, rfl, _, rfl, _, rfl, fun e => ⟨_, _, rfl, fun e => absurd e h, _, rfl, _, _, _, rfl, hm, fun f f' _ =>
      ⟨_, _, _, rfl, hm, _, rfl, rfl⟩⟩⟩⟩

/-- All hypotheses of `coupled2_async` can be met: on two ranks, with initial vorticity and velocity as given, the run of these two drivers ends with what `exProg2` gives on the
global grid. -/
example [NeZero (⟨16, 8, 1, 2, 16, 4, false⟩ : Cart2).gy] [NeZero (⟨16, 8, 1, 2, 16, 4, false⟩ : Cart2).gx] [NeZero (⟨16, 8, 1, 1, 16, 8, false⟩ : Cart2).gy]
    [NeZero (⟨16, 8, 1, 1, 16, 8, false⟩ : Cart2).gx] (nu : ℝ) {cfl : ℝ} (hcfl : 0 ≤ cfl) {K : Kern2} (hK : K.Local) (hK0 : ∀ r, K.upd r (fun _ _ => 0) = 0) (om : ℝ → ℝ → ℝ)
    (u : Fin 2 → ℝ → ℝ → ℝ) (b : Bool) :
    ∃ w : C2 → RkC2 ⟨16, 8, 1, 2, 16, 4, false⟩ Unit, ∃ Y,
      DStar b (DConf.start (cCodes2 (simCfg2 ⟨16, 8, 1, 2, "navier_stokes_with_forcing", true, 2, .int 2⟩ ⟨16, 8, 1, 2, 16, 4, false⟩ 8 nu cfl) K 1e-10 (fun _ => exBody2)
        fun c => if c = (0, 1) then exProg2 else exProgOther2) w) Y ∧ Y.Done ∧
      (Y.cf.st (0, 1)).log = (cRef2 ⟨16, 8, 8, nu, 2, true⟩ K cfl 1e-10 (fun _ => exBody2) exProg2 (refStart2 1 (fun _ => exPos2) (fun _ => 0) 0 om u)).log := by
  obtain ⟨⟨S, hS⟩, -⟩ := exSetup2 nu cfl om u
  obtain ⟨w, hw⟩ := startsC2_exists (simCfg2 ⟨16, 8, 1, 2, "navier_stokes_with_forcing", true, 2, .int 2⟩ ⟨16, 8, 1, 2, 16, 4, false⟩ 8 nu cfl) (fun _ => exBody2) (0, 1) S
  have e : (8 : ℝ) / ((8 : ℕ) : ℝ) = 1 := by norm_num
  obtain ⟨p1, p2⟩ := exProper2 ⟨16, 8, 8, nu, 2, true⟩ ⟨rfl, rfl, e⟩ K cfl 1e-10 ⟨16, 8, 1, 2, 16, 4, false⟩ (refStart2 1 (fun _ => exPos2) (fun _ => 0) 0 om u) rfl
  rw [← e] at p1 p2
  have hv : Valid2 (⟨16, 8, 1, 2, 16, 4, false⟩ : Cart2) (0, 1) := by unfold Valid2; norm_num
  obtain ⟨-, -, ⟨Y, hY, hd⟩, hres⟩ := coupled2_async (by norm_num : (0 : ℝ) < 8) hcfl (by norm_num : (0 : ℝ) < 1e-10) hK hK0 hS (fun _ => hv) hv exProg2 p1 p2
    (fun c => if c = (0, 1) then exProg2 else exProgOther2) (fun c _ => exFollows2 c) b hw
  refine ⟨w, Y, hY, hd, ?_⟩
  rw [(hres Y hY hd).1, ← e]
  rfl

end Sopht
