import Verif.AsyncSim3D
import Verif.AsyncSim2DProps

/-! # 3D simulations run by ranks at their own speed (C83) -/

namespace Sopht

set_option linter.unusedSimpArgs false

variable {T : Cart3}

/-- The ranks hold the state `S`, and `dt`. -/
structure Rep3 (S : Sim3 T) (dt : ℝ) (w : C3 → Rk3 T) : Prop where
  sc : ∀ c ∈ ranks3 T, (w c).sc = S.sc c
  om : ∀ c ∈ ranks3 T, ∀ j, (w c).om j = S.om j c
  vel : ∀ c ∈ ranks3 T, ∀ j, (w c).vel j = S.vel j c
  buf : ∀ c ∈ ranks3 T, (w c).buf = S.buf c
  bufV : ∀ c ∈ ranks3 T, ∀ j, (w c).bufV j = S.bufV j c
  stream : ∀ c ∈ ranks3 T, ∀ j, (w c).stream j = S.stream j c
  forcing : ∀ c ∈ ranks3 T, ∀ j, (w c).forcing j = S.forcing j c
  time : ∀ c ∈ ranks3 T, (w c).time = S.time
  dbl : ∀ c ∈ ranks3 T, (w c).dbl = S.solver.dbl c
  four : ∀ c ∈ ranks3 T, (w c).four = S.solver.four
  conv : ∀ c ∈ ranks3 T, (w c).conv = S.solver.conv
  green : ∀ c ∈ ranks3 T, (w c).green = S.solver.green
  dt : ∀ c ∈ ranks3 T, (w c).dt = dt

variable {b : Bool} {S : Sim3 T} {dt : ℝ} {w w' : C3 → Rk3 T} {C : Cfg3} {K : Kern3}

/-- closes the parts of the state that a piece leaves alone -/
macro "rest3 " h:term:max ", " c:term:max ", " hc:term:max : tactic =>
  `(tactic| try (first | exact ($h).sc $c $hc | exact ($h).om $c $hc | exact ($h).vel $c $hc | exact ($h).buf $c $hc | exact ($h).bufV $c $hc | exact ($h).stream $c $hc |
    exact ($h).forcing $c $hc | exact ($h).time $c $hc | exact ($h).dbl $c $hc | exact ($h).four $c $hc | exact ($h).conv $c $hc | exact ($h).green $c $hc |
    exact ($h).dt $c $hc))

/-! ## Lock-step calls, one component at a time -/

/-- The transported field. -/
def Sim3.fld (S : Sim3 T) : Option (Fin 3) → World C3 C3 ℝ
  | none => S.sc
  | some j => S.om j
/-- Write it. -/
def Sim3.setFld (S : Sim3 T) (k : Option (Fin 3)) (a : World C3 C3 ℝ) : Sim3 T := match k with
  | none => { S with sc := a }
  | some j => { S with om := Function.update S.om j a }

/-- Diffusion of one field. -/
noncomputable def callDiffF3 (C : Cfg3) (K : Kern3) (sch : Sched3) (dt : ℝ) (k : Option (Fin 3)) (S : Sim3 T) : Sim3 T :=
  let d := diffusionStep3 T C.g C.full (K.diff (C.nu * dt / simDx3 T C.xr / simDx3 T C.xr)) sch.1 sch.2 ⟨S.fld k, S.buf⟩
  Sim3.setFld { S with buf := d.flux } k d.field

/-- Advection of one field. -/
noncomputable def callAdvF3 (C : Cfg3) (K : Kern3) (sch : Sched3) (dt : ℝ) (k : Option (Fin 3)) (S : Sim3 T) : Sim3 T :=
  let a := advectionStep3 T C.g C.full K.adv (dt / simDx3 T C.xr) sch.1 sch.2 (asFam S.vel) ⟨S.fld k, S.buf⟩
  Sim3.setFld { S with buf := a.2.flux, vel := ofFam a.1 } k a.2.field

theorem callDiffV3_eq (sch : Scheds3) : callDiffV3 C K sch dt S =
    callDiffF3 C K (sch.diff 2) dt (some 2) (callDiffF3 C K (sch.diff 1) dt (some 1) (callDiffF3 C K (sch.diff 0) dt (some 0) S)) := rfl

theorem callAdvV3_eq (sch : Scheds3) : callAdvV3 C K sch dt S =
    callAdvF3 C K (sch.adv 2) dt (some 2) (callAdvF3 C K (sch.adv 1) dt (some 1) (callAdvF3 C K (sch.adv 0) dt (some 0) S)) := rfl

theorem scalarStep3_eq (sch : Scheds3) : scalarStep3 C K sch dt S = callDiffF3 C K (sch.diff 0) dt none (callAdvF3 C K (sch.adv 0) dt none S) := rfl

theorem Rep3.fld (h : Rep3 S dt w) (k : Option (Fin 3)) {c : C3} (hc : c ∈ ranks3 T) : (w c).fld k = S.fld k c := by
  cases k with
  | none => exact h.sc c hc
  | some j => exact h.om c hc j

theorem diffPiece3_exec (hR : Rep3 S dt w) (k : Option (Fin 3)) (h : ExecSeq b (diffPiece3 C K k) w w') :
    ∃ sch : Sched3, Complete (multiMsgs3 T C.g C.full [()]) sch.2 ∧ Rep3 (callDiffF3 C K sch dt k S) dt w' := by
  obtain ⟨w1, h1, w2, h2, rfl⟩ := h
  obtain ⟨s1, s, hc, hin, -⟩ := exchLayer_exec (ranks3_nodup T) partU3 _ ((ghost3_all_matched T C.g C.full).vec [()]) (by intro c s; rfl) h1
  have hl := (locLayer_exec h2).1
  refine ⟨(s1, s), hc, ?_⟩
  have hA : ∀ (e : List Ev), ∀ c ∈ ranks3 T, runNet (allMsgs (ranks3 T) (vecPosts [()] (posts3 T C.g C.full)))
      (fun r i => (w r).fld k i.2) e c = runNet (multiMsgs3 T C.g C.full [()]) (fun r i => S.fld k r i.2) e c := by
    intro e
    refine runNet_congr _ (fun r hr => ?_) e
    rw [hR.fld k hr]
  have hw : ∀ c ∈ ranks3 T, w' c = _ := fun c hc => (hl c hc).trans (by rw [hin c hc])
  cases k <;> constructor <;> intro c hc <;> rw [hw c hc] <;> dsimp only [partU3, callDiffF3, diffusionStep3, Rk3.setFld, Sim3.setFld] <;> rest3 hR, c, hc
  · rw [hA s c hc, hA (s1 c) c hc, hR.dt c hc, hR.buf c hc]
    rfl
  · rw [hA s c hc, hA (s1 c) c hc, hR.dt c hc, hR.buf c hc]
    rfl
  · rename_i k
    intro j
    by_cases e : j = k
    · subst e
      rw [Function.update_self, Function.update_self, hA s c hc, hA (s1 c) c hc, hR.dt c hc, hR.buf c hc]
      rfl
    · rw [Function.update_of_ne e, Function.update_of_ne e]
      exact hR.om c hc j
  · rw [hA s c hc, hA (s1 c) c hc, hR.dt c hc, hR.buf c hc]
    rfl

theorem advPiece3_exec (hR : Rep3 S dt w) (k : Option (Fin 3)) (h : ExecSeq b (advPiece3 C K k) w w') :
    ∃ sch : Sched3, Complete (multiMsgs3 T C.g C.full [none, some (0 : Fin 3), some 1, some 2]) sch.2 ∧ Rep3 (callAdvF3 C K sch dt k S) dt w' := by
  obtain ⟨w1, h1, w2, h2, rfl⟩ := h
  obtain ⟨s1, s, hc, hin, -⟩ := exchLayer_exec (ranks3_nodup T) partA3 _ ((ghost3_all_matched T C.g C.full).vec [none, some (0 : Fin 3), some 1, some 2]) (by intro c s; rfl) h1
  have hl := (locLayer_exec h2).1
  refine ⟨(s1, s), hc, ?_⟩
  have hA : ∀ (e : List Ev), ∀ c ∈ ranks3 T, runNet (allMsgs (ranks3 T) (vecPosts [none, some (0 : Fin 3), some 1, some 2] (posts3 T C.g C.full)))
      (fun r => advArrays3 ((w r).fld k) (w r).vel) e c =
      runNet (multiMsgs3 T C.g C.full [none, some (0 : Fin 3), some 1, some 2]) (fun r => advArrays3 (S.fld k r) fun j => S.vel j r) e c := by
    intro e
    refine runNet_congr _ (fun r hr => ?_) e
    rw [hR.fld k hr, funext (hR.vel r hr)]
  have hw : ∀ c ∈ ranks3 T, w' c = _ := fun c hc => (hl c hc).trans (by rw [hin c hc])
  cases k <;> constructor <;> intro c hc <;> rw [hw c hc] <;> dsimp only [partA3, callAdvF3, advectionStep3, Rk3.setFld, Sim3.setFld] <;> rest3 hR, c, hc
  · rw [hA s c hc, hA (s1 c) c hc, hR.dt c hc]
    rfl
  · intro j
    rw [hA s c hc]
    rfl
  · rw [hA s c hc, hA (s1 c) c hc, hR.dt c hc]
    rfl
  · rename_i k
    intro j
    by_cases e : j = k
    · subst e
      rw [Function.update_self, Function.update_self, hA s c hc, hA (s1 c) c hc, hR.dt c hc]
      rfl
    · rw [Function.update_of_ne e, Function.update_of_ne e]
      exact hR.om c hc j
  · intro j
    rw [hA s c hc]
    rfl
  · rw [hA s c hc, hA (s1 c) c hc, hR.dt c hc]
    rfl

theorem diffVPiece3_exec (hR : Rep3 S dt w) (h : ExecSeq b (allComps3 (diffPiece3 C K)) w w') :
    ∃ d : Fin 3 → Sched3, (∀ i, Complete (multiMsgs3 T C.g C.full [()]) (d i).2) ∧ ∀ sch : Scheds3, sch.diff = d → Rep3 (callDiffV3 C K sch dt S) dt w' := by
  unfold allComps3 at h
  obtain ⟨w1, h1, h⟩ := execSeq_append h
  obtain ⟨w2, h2, h3⟩ := execSeq_append h
  obtain ⟨s0, c0, r0⟩ := diffPiece3_exec hR _ h1
  obtain ⟨s1, c1, r1⟩ := diffPiece3_exec r0 _ h2
  obtain ⟨s2, c2, r2⟩ := diffPiece3_exec r1 _ h3
  refine ⟨![s0, s1, s2], fun i => by fin_cases i; exacts [c0, c1, c2], fun sch hs => ?_⟩
  rw [callDiffV3_eq, hs]
  exact r2

theorem advVPiece3_exec (hR : Rep3 S dt w) (h : ExecSeq b (allComps3 (advPiece3 C K)) w w') :
    ∃ d : Fin 3 → Sched3, (∀ i, Complete (multiMsgs3 T C.g C.full [none, some (0 : Fin 3), some 1, some 2]) (d i).2) ∧
      ∀ sch : Scheds3, sch.adv = d → Rep3 (callAdvV3 C K sch dt S) dt w' := by
  unfold allComps3 at h
  obtain ⟨w1, h1, h⟩ := execSeq_append h
  obtain ⟨w2, h2, h3⟩ := execSeq_append h
  obtain ⟨s0, c0, r0⟩ := advPiece3_exec hR _ h1
  obtain ⟨s1, c1, r1⟩ := advPiece3_exec r0 _ h2
  obtain ⟨s2, c2, r2⟩ := advPiece3_exec r1 _ h3
  refine ⟨![s0, s1, s2], fun i => by fin_cases i; exacts [c0, c1, c2], fun sch hs => ?_⟩
  rw [callAdvV3_eq, hs]
  exact r2

theorem untri3_tri3 (u : C3 → ℝ × ℝ × ℝ) : tri3 (untri3 u) = u := rfl

theorem untri3_unzip3 (u : C3 → C3 → ℝ × ℝ × ℝ) (c : C3) (j : Fin 3) : untri3 (u c) j = unzip3 u j c := by
  fin_cases j <;> rfl

theorem updPiece3_exec (forced : Bool) (hR : Rep3 S dt w) (h : ExecSeq b (updPiece3 C K forced) w w') :
    ∃ sch : Sched3, Complete (multiMsgs3 T C.g C.full ([0, 1, 2] : List (Fin 3))) sch.2 ∧
      Rep3 (let r := callUpd3 (T := T) C K sch dt S.om (if forced then S.forcing else S.bufV)
        if forced then { S with om := r.1, forcing := r.2 } else { S with om := r.1, bufV := r.2 }) dt w' := by
  obtain ⟨w1, h1, w2, h2, rfl⟩ := h
  obtain ⟨s1, s, hc, hin, -⟩ := exchLayer_exec (ranks3_nodup T) partF3 _ ((ghost3_all_matched T C.g C.full).vec ([0, 1, 2] : List (Fin 3))) (by intro c s; rfl) h1
  have hl := (locLayer_exec h2).1
  refine ⟨(s1, s), hc, ?_⟩
  have hA : ∀ (e : List Ev), ∀ c ∈ ranks3 T, runNet (allMsgs (ranks3 T) (vecPosts ([0, 1, 2] : List (Fin 3)) (posts3 T C.g C.full)))
      (fun r i => (w r).src forced i.1 i.2) e c = runNet (multiMsgs3 T C.g C.full ([0, 1, 2] : List (Fin 3))) (asFam (if forced then S.forcing else S.bufV)) e c := by
    intro e
    refine runNet_congr _ (fun r hr => ?_) e
    funext i
    cases forced with
    | true => exact congrFun (hR.forcing r hr i.1) i.2
    | false => exact congrFun (hR.bufV r hr i.1) i.2
  have ho : ∀ c ∈ ranks3 T, tri3 (w c).om = zip3 S.om c := by
    intro c hc
    funext p
    unfold tri3 zip3
    rw [hR.om c hc, hR.om c hc, hR.om c hc]
  have hw : ∀ c ∈ ranks3 T, w' c = _ := fun c hc => (hl c hc).trans (by rw [hin c hc])
  cases forced <;> simp only [Bool.false_eq_true, if_false, if_true] at hA ⊢ <;> constructor <;> intro c hc <;> rw [hw c hc] <;>
    dsimp only [partF3, callUpd3, Rk3.setSrc] <;> rest3 hR, c, hc
  · intro j
    rw [untri3_tri3, hA s c hc, hA (s1 c) c hc, hR.dt c hc, ho c hc, ← untri3_unzip3]
    rfl
  · intro j
    rw [hA s c hc]
    rfl
  · intro j
    rw [untri3_tri3, hA s c hc, hA (s1 c) c hc, hR.dt c hc, ho c hc, ← untri3_unzip3]
    rfl
  · intro j
    rw [hA s c hc]
    rfl

theorem curlPiece3_exec (hR : Rep3 S dt w) (h : ExecSeq b (curlPiece3 C K) w w') :
    ∃ sch : Sched3, Complete (multiMsgs3 T C.g C.full ([0, 1, 2] : List (Fin 3))) sch.2 ∧ Rep3 (callCurl3 C K sch S) dt w' := by
  obtain ⟨w1, h1, w2, h2, rfl⟩ := h
  obtain ⟨s1, s, hc, hin, -⟩ := exchLayer_exec (ranks3_nodup T) partF3 _ ((ghost3_all_matched T C.g C.full).vec ([0, 1, 2] : List (Fin 3))) (by intro c s; rfl) h1
  have hl := (locLayer_exec h2).1
  refine ⟨(s1, s), hc, ?_⟩
  have hA : ∀ (e : List Ev), ∀ c ∈ ranks3 T, runNet (allMsgs (ranks3 T) (vecPosts ([0, 1, 2] : List (Fin 3)) (posts3 T C.g C.full)))
      (fun r i => (w r).stream i.1 i.2) e c = runNet (multiMsgs3 T C.g C.full ([0, 1, 2] : List (Fin 3))) (asFam S.stream) e c := by
    intro e
    refine runNet_congr _ (fun r hr => ?_) e
    funext i
    exact congrFun (hR.stream r hr i.1) i.2
  have ho : ∀ c ∈ ranks3 T, tri3 (w c).vel = zip3 S.vel c := by
    intro c hc
    funext p
    unfold tri3 zip3
    rw [hR.vel c hc, hR.vel c hc, hR.vel c hc]
  have hw : ∀ c ∈ ranks3 T, w' c = _ := fun c hc => (hl c hc).trans (by rw [hin c hc])
  constructor <;> intro c hc <;> rw [hw c hc] <;> dsimp only [partF3, callCurl3] <;> rest3 hR, c, hc
  · intro j
    rw [untri3_tri3, hA s c hc, hA (s1 c) c hc, ho c hc, ← untri3_unzip3]
    rfl
  · intro j
    rw [hA s c hc]
    rfl

theorem crossPiece3_exec (hR : Rep3 S dt w) (h : ExecSeq b crossPiece3 w w') : Rep3 { S with bufV := cross3 S.vel S.om } dt w' := by
  obtain ⟨w1, h1, rfl⟩ := h
  have hl := (locLayer_exec h1).1
  constructor <;> intro c hc <;> rw [hl c hc] <;> dsimp only <;> rest3 hR, c, hc
  intro j
  simp only [hR.vel c hc, hR.om c hc]
  fin_cases j <;> rfl

theorem penPiece3_exec (hR : Rep3 S dt w) (h : ExecSeq b (penPiece3 C) w w') (hok : (callPen3 C S).2 = none) : Rep3 (callPen3 C S).1 dt w' := by
  obtain ⟨w1, h1, rfl⟩ := h
  have hl := (locLayer_exec h1).1
  unfold callPen3 at hok ⊢
  dsimp only at hok ⊢
  split at hok
  · cases hok
  · constructor <;> intro c hc <;> rw [hl c hc] <;> dsimp only <;> rest3 hR, c, hc
    intro j
    rw [show (w c).om = fun j => S.om j c from funext (hR.om c hc)]

theorem freePiece3_exec (hR : Rep3 S dt w) (fs : Fin 3 → ℝ) (h : ExecSeq b (freePiece3 C fs) w w') : Rep3 (freeStream3 C fs S) dt w' := by
  obtain ⟨w1, h1, rfl⟩ := h
  have hl := (locLayer_exec h1).1
  unfold freeStream3
  split
  · rename_i hf
    constructor <;> intro c hc <;> rw [hl c hc] <;> (try dsimp only) <;> rw [if_pos hf] <;> (try dsimp only) <;> rest3 hR, c, hc
    intro j
    rw [hR.vel c hc]
  · rename_i hf
    constructor <;> intro c hc <;> rw [hl c hc] <;> rw [if_neg hf] <;> rest3 hR, c, hc

/-! ## The filter -/

/-- The state with component `j` of the vorticity and the filter buffers replaced. -/
def flt3 (S : Sim3 T) (j : Fin 3) (v : World C3 C3 ℝ) (f : FilterBufs ℝ) : Sim3 T :=
  { S with om := Function.update S.om j v, bufV := ![f.flux, f.fieldBuf, S.bufV 2] }

theorem flt3_self (S : Sim3 T) (j : Fin 3) : flt3 S j (S.om j) ⟨S.bufV 1, S.bufV 0⟩ = S := by
  unfold flt3
  rw [Function.update_eq_self]
  have : ![S.bufV 0, S.bufV 1, S.bufV 2] = S.bufV := by
    funext i
    fin_cases i <;> rfl
  dsimp only
  rw [this]

variable {j : Fin 3} {v : World C3 C3 ℝ} {f : FilterBufs ℝ}

theorem filterPassPiece3_exec (a : Fin 3) (hR : Rep3 (flt3 S j v f) dt w) (h : ExecSeq b (filterPassPiece3 C a) w w') :
    ∃ sch : Sched3, Complete (multiMsgs3 T C.g C.full [()]) sch.2 ∧ Rep3 (flt3 S j v (filterPass T C.g 1 C.full a sch f)) dt w' := by
  obtain ⟨w1, h1, w2, h2, rfl⟩ := h
  obtain ⟨s1, s, hc, hin, -⟩ := exchLayer_exec (ranks3_nodup T) partU3 _ ((ghost3_all_matched T C.g C.full).vec [()]) (by intro c s; rfl) h1
  have hl := (locLayer_exec h2).1
  refine ⟨(s1, s), hc, ?_⟩
  have hA : ∀ (e : List Ev), ∀ c ∈ ranks3 T, runNet (allMsgs (ranks3 T) (vecPosts [()] (posts3 T C.g C.full)))
      (fun r i => (w r).bufV 1 i.2) e c = runNet (multiMsgs3 T C.g C.full [()]) (fun r i => f.fieldBuf r i.2) e c := by
    intro e
    refine runNet_congr _ (fun r hr => ?_) e
    rw [hR.bufV r hr 1]
    rfl
  have hw : ∀ c ∈ ranks3 T, w' c = _ := fun c hc => (hl c hc).trans (by rw [hin c hc])
  have h0 : ∀ c ∈ ranks3 T, (w c).bufV 0 = f.flux c := fun c hc => hR.bufV c hc 0
  have h2 : ∀ c ∈ ranks3 T, (w c).bufV 2 = S.bufV 2 c := fun c hc => hR.bufV c hc 2
  constructor <;> intro c hc <;> rw [hw c hc] <;> dsimp only [partU3, flt3, filterPass] <;> rest3 hR, c, hc
  intro i
  fin_cases i
  · simp only [Fin.zero_eta, Fin.isValue, ne_eq, zero_ne_one, not_false_eq_true, Function.update_of_ne, Function.update_self]
    rw [hA s c hc, hA (s1 c) c hc, h0 c hc]
    rfl
  · simp only [Fin.mk_one, Fin.isValue, Function.update_self]
    rw [hA s c hc, hA (s1 c) c hc, h0 c hc]
    rfl
  · simp only [Function.update_of_ne (show (⟨2, by omega⟩ : Fin 3) ≠ 1 by decide), Function.update_of_ne (show (⟨2, by omega⟩ : Fin 3) ≠ 0 by decide)]
    exact h2 c hc

theorem filterClearPiece3_exec (hR : Rep3 (flt3 S j v f) dt w) (h : ExecSeq b (filterClearPiece3 C) w w') :
    Rep3 (flt3 S j v ⟨f.fieldBuf, fun c => clearSides3 T C.g 1 c (f.flux c)⟩) dt w' := by
  obtain ⟨w1, h1, rfl⟩ := h
  have hl := (locLayer_exec h1).1
  constructor <;> intro c hc <;> rw [hl c hc] <;> dsimp only [flt3] <;> rest3 hR, c, hc
  intro i
  have h0 := hR.bufV c hc 0
  have h1 := hR.bufV c hc 1
  have h2 := hR.bufV c hc 2
  fin_cases i
  · simp only [Fin.zero_eta, Fin.isValue, Function.update_self]
    rw [h0]
    rfl
  · exact h1
  · exact h2

theorem filterCopyPiece3_exec (hR : Rep3 (flt3 S j v f) dt w) (h : ExecSeq b (filterCopyPiece3 j) w w') : Rep3 (flt3 S j v ⟨v, f.flux⟩) dt w' := by
  obtain ⟨w1, h1, rfl⟩ := h
  have hl := (locLayer_exec h1).1
  constructor <;> intro c hc <;> rw [hl c hc] <;> dsimp only [flt3] <;> rest3 hR, c, hc
  intro i
  have h0 := hR.bufV c hc 0
  have h1 := hR.om c hc j
  have h2 := hR.bufV c hc 2
  fin_cases i
  · exact h0
  · simp only [Fin.mk_one, Fin.isValue, Function.update_self]
    rw [h1]
    unfold flt3
    simp
  · exact h2

theorem filterSubPiece3_exec (hR : Rep3 (flt3 S j v f) dt w) (h : ExecSeq b (filterSubPiece3 j) w w') : Rep3 (flt3 S j (saxpbyFilter v f.flux) f) dt w' := by
  obtain ⟨w1, h1, rfl⟩ := h
  have hl := (locLayer_exec h1).1
  constructor <;> intro c hc <;> rw [hl c hc] <;> dsimp only [flt3] <;> rest3 hR, c, hc
  intro i
  have h0 := hR.bufV c hc 0
  have h1 := hR.om c hc
  by_cases e : i = j
  · subst e
    rw [Function.update_self, Function.update_self, h0, h1 i]
    unfold flt3 saxpbyFilter
    simp
  · rw [Function.update_of_ne e, Function.update_of_ne e, h1 i]
    unfold flt3
    dsimp only
    rw [Function.update_of_ne e]

/-- a sequence of passes: schedules can be collected -/
theorem passes_exec {L : List (Piece3 T)} {step : (ℕ → Sched3) → ℕ → FilterBufs ℝ → FilterBufs ℝ} {m : ℕ} (hloc : ∀ s s' i f, (∀ k, k < m → s (m * i + k) = s' (m * i + k)) → step s i f = step s' i f)
    {P : Sched3 → Prop}
    (hstep : ∀ f w w' i, Rep3 (flt3 S j v f) dt w → ExecSeq b L w w' → ∃ s : ℕ → Sched3, (∀ k, P (s k)) ∧ Rep3 (flt3 S j v (step s i f)) dt w')
    (hP : ∃ s, P s) (n : ℕ) (hR : Rep3 (flt3 S j v f) dt w) (h : ExecSeq b ((List.range n).flatMap fun _ => L) w w') :
    ∃ s : ℕ → Sched3, (∀ k, P (s k)) ∧ Rep3 (flt3 S j v ((List.range n).foldl (fun f i => step s i f) f)) dt w' := by
  induction n generalizing w' with
  | zero =>
    obtain ⟨s, hs⟩ := hP
    have : w' = w := h
    rw [this]
    exact ⟨fun _ => s, fun _ => hs, hR⟩
  | succ n ih =>
    rw [List.range_succ, List.flatMap_append] at h
    obtain ⟨w1, h1, h2⟩ := execSeq_append h
    obtain ⟨s, hs, r⟩ := ih h1
    rw [List.flatMap_singleton] at h2
    obtain ⟨s', hs', r'⟩ := hstep _ _ _ n r h2
    refine ⟨fun k => if k < m * n then s k else s' k, fun k => by dsimp only; split; exacts [hs k, hs' k], ?_⟩
    rw [List.range_succ, List.foldl_append]
    have e : (List.range n).foldl (fun f i => step (fun k => if k < m * n then s k else s' k) i f) f = (List.range n).foldl (fun f i => step s i f) f := by
      apply List.foldl_ext
      intro a i hi
      apply hloc
      intro k hk
      have hi := List.mem_range.1 hi
      rw [if_pos]
      calc m * i + k < m * i + m := by omega
        _ = m * (i + 1) := by ring
        _ ≤ m * n := Nat.mul_le_mul_left _ hi
    rw [e]
    simp only [List.foldl_cons, List.foldl_nil]
    rw [hloc _ s' n _ (fun k hk => by rw [if_neg (by omega)])]
    exact r'

theorem filterCompPiece3_exec (order : ℕ) (ty : String) (hR : Rep3 (flt3 S j v f) dt w) (h : ExecSeq b (filterCompPiece3 C order ty j) w w') :
    ∃ sch : Fin 3 → ℕ → Sched3, (∀ a k, Complete (multiMsgs3 T C.g C.full [()]) (sch a k).2) ∧
      Rep3 (flt3 S j (scalarFilter3 (T := T) C order ty sch v f).1 (scalarFilter3 (T := T) C order ty sch v f).2) dt w' := by
  have hP : ∃ s : Sched3, Complete (multiMsgs3 T C.g C.full [()]) s.2 := by
    obtain ⟨s, hs⟩ := complete_schedule_exists (multiMsgs3 T C.g C.full [()])
    exact ⟨(fun _ => [], s), hs⟩
  unfold filterCompPiece3 at h
  unfold scalarFilter3
  split at h
  · rename_i hty
    simp only [if_pos hty]
    obtain ⟨w1, h1, h⟩ := execSeq_append h
    obtain ⟨w2, h2, h⟩ := execSeq_append h
    obtain ⟨w3, h3, h4⟩ := execSeq_append h
    have r1 := filterClearPiece3_exec hR h1
    have r2 := filterCopyPiece3_exec r1 h2
    obtain ⟨s, hs, r3⟩ := passes_exec (m := 3)
      (step := fun sch i b => filterPass T C.g 1 C.full 2 (sch (3 * i + 2)) (filterPass T C.g 1 C.full 1 (sch (3 * i + 1)) (filterPass T C.g 1 C.full 0 (sch (3 * i)) b)))
      (by intro s s' i f h; have a := h 0 (by omega); have b := h 1 (by omega); have c := h 2 (by omega); rw [Nat.add_zero] at a; simp only [a, b, c])
      (P := fun s => Complete (multiMsgs3 T C.g C.full [()]) s.2) (by
        intro f w w' i hR h
        obtain ⟨w1, h1, h⟩ := execSeq_append h
        obtain ⟨w2, h2, h3⟩ := execSeq_append h
        obtain ⟨s0, c0, r0⟩ := filterPassPiece3_exec 0 hR h1
        obtain ⟨s1, c1, r1⟩ := filterPassPiece3_exec 1 r0 h2
        obtain ⟨s2, c2, r2⟩ := filterPassPiece3_exec 2 r1 h3
        refine ⟨fun k => if k = 3 * i then s0 else if k = 3 * i + 1 then s1 else s2, fun k => by dsimp only; split; exacts [c0, by split; exacts [c1, c2]], ?_⟩
        dsimp only
        rw [if_neg (show ¬ 3 * i + 2 = 3 * i by omega), if_neg (show ¬ 3 * i + 2 = 3 * i + 1 by omega), if_neg (show ¬ 3 * i + 1 = 3 * i by omega), if_pos rfl, if_pos rfl]
        exact r2) hP order r2 h3
    have r4 := filterSubPiece3_exec r3 h4
    exact ⟨fun _ => s, fun _ => hs, r4⟩
  · rename_i hty
    simp only [if_neg hty]
    obtain ⟨w1, h1, h⟩ := execSeq_append h
    have r1 := filterClearPiece3_exec hR h1
    have dir : ∀ (a : Fin 3) {v f w w'}, Rep3 (flt3 S j v f) dt w →
        ExecSeq b (filterCopyPiece3 j ++ ((List.range order).flatMap (fun _ => filterPassPiece3 C a) ++ filterSubPiece3 j)) w w' →
        ∃ s : ℕ → Sched3, (∀ k, Complete (multiMsgs3 T C.g C.full [()]) (s k).2) ∧
          Rep3 (flt3 S j (convolutionDir T C.g 1 C.full order a s v f).1 (convolutionDir T C.g 1 C.full order a s v f).2) dt w' := by
      intro a v f w w' hR h
      obtain ⟨w2, h2, h⟩ := execSeq_append h
      obtain ⟨w3, h3, h4⟩ := execSeq_append h
      have r2 := filterCopyPiece3_exec hR h2
      obtain ⟨s, hs, r3⟩ := passes_exec (m := 1) (step := fun sch i b => filterPass T C.g 1 C.full a (sch i) b)
        (by intro s s' i f h; have a := h 0 (by omega); simp only [Nat.one_mul, Nat.add_zero] at a; simp only [a])
        (P := fun s => Complete (multiMsgs3 T C.g C.full [()]) s.2) (by
          intro f w w' i hR h
          obtain ⟨s0, c0, r0⟩ := filterPassPiece3_exec a hR h
          exact ⟨fun _ => s0, fun _ => c0, r0⟩) hP order r2 h3
      exact ⟨s, hs, filterSubPiece3_exec r3 h4⟩
    simp only [List.flatMap_cons, List.flatMap_nil, List.append_nil] at h
    obtain ⟨w2, h2, h⟩ := execSeq_append h
    obtain ⟨w3, h3, h4⟩ := execSeq_append h
    obtain ⟨s0, c0, r2⟩ := dir 0 r1 h2
    obtain ⟨s1, c1, r3⟩ := dir 1 r2 h3
    obtain ⟨s2, c2, r4⟩ := dir 2 r3 h4
    refine ⟨![s0, s1, s2], fun a => by fin_cases a; exacts [c0, c1, c2], r4⟩

theorem filterPiece3_exec (hR : Rep3 S dt w) (h : ExecSeq b (filterPiece3 C) w w') :
    ∃ d : Fin 3 → Fin 3 → ℕ → Sched3, (∀ i a k, Complete (multiMsgs3 T C.g C.full [()]) (d i a k).2) ∧
      ∀ sch : Scheds3, sch.flt = d → Rep3 (callFilter3 C sch S) dt w' := by
  unfold filterPiece3 at h
  unfold callFilter3
  split at h
  · rename_i e
    rw [e]
    obtain ⟨s, hs⟩ := scheds3_exist T C.g C.full
    have : w' = w := h
    rw [this]
    exact ⟨s.flt, hs.flt, fun _ _ => hR⟩
  · rename_i order ty e
    rw [e]
    obtain ⟨w1, h1, h⟩ := execSeq_append h
    obtain ⟨w2, h2, h3⟩ := execSeq_append h
    rw [← flt3_self S 0] at hR
    obtain ⟨s0, c0, r0⟩ := filterCompPiece3_exec order ty hR h1
    generalize hS0 : flt3 S 0 (scalarFilter3 (T := T) C order ty s0 (S.om 0) ⟨S.bufV 1, S.bufV 0⟩).1 (scalarFilter3 (T := T) C order ty s0 (S.om 0) ⟨S.bufV 1, S.bufV 0⟩).2 = S0 at r0
    rw [← flt3_self S0 1] at r0
    obtain ⟨s1, c1, r1⟩ := filterCompPiece3_exec order ty r0 h2
    generalize hS1 : flt3 S0 1 (scalarFilter3 (T := T) C order ty s1 (S0.om 1) ⟨S0.bufV 1, S0.bufV 0⟩).1 (scalarFilter3 (T := T) C order ty s1 (S0.om 1) ⟨S0.bufV 1, S0.bufV 0⟩).2 = S1 at r1
    rw [← flt3_self S1 2] at r1
    obtain ⟨s2, c2, r2⟩ := filterCompPiece3_exec order ty r1 h3
    refine ⟨![s0, s1, s2], fun i => by fin_cases i; exacts [c0, c1, c2], fun sch hs => ?_⟩
    dsimp only
    rw [hs]
    have e0 : S0.om 1 = S.om 1 ∧ (⟨S0.bufV 1, S0.bufV 0⟩ : FilterBufs ℝ) = (scalarFilter3 (T := T) C order ty s0 (S.om 0) ⟨S.bufV 1, S.bufV 0⟩).2 := by
      rw [← hS0]; exact ⟨rfl, rfl⟩
    have e1 : S1.om 2 = S.om 2 ∧ (⟨S1.bufV 1, S1.bufV 0⟩ : FilterBufs ℝ) = (scalarFilter3 (T := T) C order ty s1 (S0.om 1) ⟨S0.bufV 1, S0.bufV 0⟩).2 := by
      rw [← hS1, ← hS0]; exact ⟨rfl, rfl⟩
    convert r2 using 1
    rw [e1.1, e1.2, e0.1, e0.2, ← hS1, e0.1, e0.2, ← hS0]
    unfold flt3 vectorFilter
    dsimp only
    congr 1
    funext i
    fin_cases i <;> simp [Function.update] <;> rfl


/-! ## The Poisson solver -/

/-- entry `y * m + x` of the concatenation of lists of length `m` is entry `x` of list `y` -/
theorem flatMap_getElem? {β : Type} {m n : ℕ} {F : ℤ → List β} (hF : ∀ a, (F a).length = m) {y x : ℕ} (hy : y < n) (hx : x < m) :
    ((irange n).flatMap F)[y * m + x]? = (F y)[x]? := by
  unfold irange
  rw [List.flatMap_map]
  induction n generalizing y F with
  | zero => omega
  | succ n ih =>
    rw [List.range_succ_eq_map, List.flatMap_cons, List.flatMap_map]
    cases y with
    | zero =>
      rw [List.getElem?_append_left (by rw [hF]; omega)]
      simp
    | succ y =>
      rw [List.getElem?_append_right (by rw [hF]; nlinarith), hF, show (y + 1) * m + x - m = y * m + x by rw [Nat.add_mul]; omega]
      have := ih (F := fun a => F (a + 1)) (fun a => hF _) (y := y) (by omega)
      simpa using this

/-- a block survives being sent as a packet -/
theorem decBlk3_enc (D : C3 → ℝ) {q : C3} (h1 : 0 ≤ q.1) (h2 : q.1 < 2 * T.nz) (h3 : 0 ≤ q.2.1) (h4 : q.2.1 < 2 * T.ny) (h5 : 0 ≤ q.2.2) (h6 : q.2.2 < 2 * T.nx) :
    decBlk3 T (encBlk3 T D) q = D q := by
  unfold decBlk3 encBlk3 subIx
  obtain ⟨z, hz⟩ := Int.eq_ofNat_of_zero_le h1
  obtain ⟨y, hy⟩ := Int.eq_ofNat_of_zero_le h3
  obtain ⟨x, hx⟩ := Int.eq_ofNat_of_zero_le h5
  obtain ⟨q1, q2, q3⟩ := q
  dsimp only at *
  subst hz hy hx
  have e : (((z : ℤ) * (2 * T.ny) + y) * (2 * T.nx) + x).toNat = z * (2 * T.ny * (2 * T.nx)) + (y * (2 * T.nx) + x) := by
    rw [show (((z : ℤ) * (2 * T.ny) + y) * (2 * T.nx) + x) = ((z * (2 * T.ny * (2 * T.nx)) + (y * (2 * T.nx) + x) : ℕ) : ℤ) by push_cast; ring]
    exact Int.toNat_natCast _
  rw [e]
  have hz : z < 2 * T.nz := by exact_mod_cast h2
  have hy : y < 2 * T.ny := by exact_mod_cast h4
  have hx : x < 2 * T.nx := by exact_mod_cast h6
  have hlen : ∀ n : ℕ, (irange n).length = n := fun n => by unfold irange; simp
  rw [List.getD_eq_getElem?_getD, List.getElem?_map]
  rw [flatMap_getElem? (m := 2 * T.ny * (2 * T.nx)) (fun a => by simp [List.length_flatMap, hlen]) hz
    (by calc y * (2 * T.nx) + x < y * (2 * T.nx) + 2 * T.nx := by omega
          _ = (y + 1) * (2 * T.nx) := by ring
          _ ≤ 2 * T.ny * (2 * T.nx) := Nat.mul_le_mul_right _ hy)]
  rw [flatMap_getElem? (m := 2 * T.nx) (fun a => by simp [hlen]) hy hx]
  unfold irange
  simp [hx]

theorem asm3_congr [NeZero T.gz] [NeZero T.gy] [NeZero T.gx] (hZ : T.gz = T.pz * T.nz) (hY : T.gy = T.py * T.ny) (hX : T.gx = T.px * T.nx) {D D' : World C3 C3 ℝ}
    (h : ∀ c ∈ ranks3 T, ∀ q : C3, 0 ≤ q.1 → q.1 < 2 * T.nz → 0 ≤ q.2.1 → q.2.1 < 2 * T.ny → 0 ≤ q.2.2 → q.2.2 < 2 * T.nx → D c q = D' c q) (x : Dbl3 T) :
    asm3 T D x = asm3 T D' x := by
  have n0 : T.gz ≠ 0 := NeZero.ne _
  have n1 : T.gy ≠ 0 := NeZero.ne _
  have n2 : T.gx ≠ 0 := NeZero.ne _
  have hz : 0 < T.nz := Nat.pos_of_ne_zero (by rintro e; rw [e] at hZ; omega)
  have hy : 0 < T.ny := Nat.pos_of_ne_zero (by rintro e; rw [e] at hY; omega)
  have hx : 0 < T.nx := Nat.pos_of_ne_zero (by rintro e; rw [e] at hX; omega)
  haveI : NeZero (2 * T.gz) := ⟨by omega⟩
  haveI : NeZero (2 * T.gy) := ⟨by omega⟩
  haveI : NeZero (2 * T.gx) := ⟨by omega⟩
  have l0 := ZMod.val_lt x.1
  have l1 := ZMod.val_lt x.2.1
  have l2 := ZMod.val_lt x.2.2
  unfold asm3
  apply h
  · rw [mem_ranks3]
    refine ⟨by positivity, ?_, by positivity, ?_, by positivity, ?_⟩
    · dsimp only
      rw [Int.ediv_lt_iff_lt_mul (by positivity)]
      calc (x.1.val : ℤ) < ((2 * T.gz : ℕ) : ℤ) := by exact_mod_cast l0
        _ = (T.pz : ℤ) * (2 * T.nz) := by rw [hZ]; push_cast; ring
    · dsimp only
      rw [Int.ediv_lt_iff_lt_mul (by positivity)]
      calc (x.2.1.val : ℤ) < ((2 * T.gy : ℕ) : ℤ) := by exact_mod_cast l1
        _ = (T.py : ℤ) * (2 * T.ny) := by rw [hY]; push_cast; ring
    · dsimp only
      rw [Int.ediv_lt_iff_lt_mul (by positivity)]
      calc (x.2.2.val : ℤ) < ((2 * T.gx : ℕ) : ℤ) := by exact_mod_cast l2
        _ = (T.px : ℤ) * (2 * T.nx) := by rw [hX]; push_cast; ring
  · exact Int.emod_nonneg _ (by positivity)
  · exact Int.emod_lt_of_pos _ (by positivity)
  · exact Int.emod_nonneg _ (by positivity)
  · exact Int.emod_lt_of_pos _ (by positivity)
  · exact Int.emod_nonneg _ (by positivity)
  · exact Int.emod_lt_of_pos _ (by positivity)

variable [NeZero T.gz] [NeZero T.gy] [NeZero T.gx] {gz gy gx pz py px : ℕ}

/-- The solve of one component. -/
noncomputable def callSolveJ3 (C : Cfg3) (j : Fin 3) (s : List Ev × List Ev) (S : Sim3 T) : Sim3 T :=
  let r := solve3 T C.g S.solver (S.stream j) (S.om j) s.1 s.2
  { S with solver := r.1, stream := Function.update S.stream j r.2 }

theorem solvePiece3_exec (hT : mkCart3 gz gy gx pz py px false = .ok T) (hE : EvenTopo3 T) (j : Fin 3) (hR : Rep3 S dt w) (h : ExecSeq b (solvePiece3 C j) w w') :
    ∃ s : List Ev × List Ev, (Complete (toMsgs3 T C.g) s.1 ∧ Complete (fromMsgs3 T C.g) s.2) ∧ Rep3 (callSolveJ3 C j s S) dt w' := by
  obtain ⟨-, -, -, -, -, -, -, hZ, hY, hX⟩ := construct3_ok hT
  obtain ⟨m1, m2⟩ := doubling3_matched hE C.g
  obtain ⟨w1, h1, w2, h2, w3, h3, w4, h4, w5, h5, rfl⟩ := h
  obtain ⟨e1, s1, c1, i1, -⟩ := exchLayer_exec (ranks3_nodup T) partD3 _ m1 (by intro c s; rfl) h1
  have i2 := (collLayer_exec (ranks3_nodup T) partM3 _ _ _ (by intro c d s m; rfl) h2).1
  have i3 := (locLayer_exec h3).1
  obtain ⟨e2, s2, c2, i4, -⟩ := exchLayer_exec (ranks3_nodup T) partD3 _ m2 (by intro c s; rfl) h4
  have i5 := (locLayer_exec h5).1
  refine ⟨(s1, s2), ⟨c1, c2⟩, ?_⟩
  have hA : ∀ c ∈ ranks3 T, runNet (allMsgs (ranks3 T) fun c => okPosts (toPosts3 T C.g (distDims3 T) c)) (fun r => Sum.elim ((w r).om j) fun _ => 0) s1 c =
      runNet (toMsgs3 T C.g) (joinW (S.om j) fun _ _ => 0) s1 c := by
    refine runNet_congr _ (fun r hr => ?_) s1
    rw [hR.om r hr]
    rfl
  have r1 : Rep3 S dt w1 := by
    constructor <;> intro c hc <;> rw [i1 c hc] <;> dsimp only [partD3] <;> rest3 hR, c, hc
  have d1 : ∀ c ∈ ranks3 T, (fun q => (w1 c).wD (.inr q)) = copyTo3 T C.g (S.om j) (fun _ _ => 0) s1 c := by
    intro c hc
    rw [i1 c hc]
    dsimp only [partD3]
    rw [hA c hc]
    rfl
  have r2 : Rep3 { S with solver := { S.solver with dbl := copyTo3 T C.g (S.om j) (fun _ _ => 0) s1 } } dt w2 := by
    constructor <;> intro c hc <;> rw [i2 c hc] <;> dsimp only [partM3] <;> rest3 r1, c, hc
    exact d1 c hc
  have d2 : ∀ c ∈ ranks3 T, ∀ r ∈ ranks3 T, (w2 c).mb r = encBlk3 T (copyTo3 T C.g (S.om j) (fun _ _ => 0) s1 r) := by
    intro c hc r hr
    rw [i2 c hc]
    dsimp only [partM3]
    rw [if_pos ⟨hr, rfl⟩, d1 r hr]
  have hasm : ∀ c ∈ ranks3 T, (fun x => ((asm3 T (fun r => decBlk3 T ((w2 c).mb r)) x : ℝ) : ℂ)) =
      fun x => ((asm3 T (copyTo3 T C.g (S.om j) (fun _ _ => 0) s1) x : ℝ) : ℂ) := by
    intro c hc
    funext x
    rw [asm3_congr hZ.symm hY.symm hX.symm (D' := copyTo3 T C.g (S.om j) (fun _ _ => 0) s1)]
    intro r hr q q1 q2 q3 q4 q5 q6
    rw [d2 c hc r hr, decBlk3_enc _ q1 q2 q3 q4 q5 q6]
  have r3 : Rep3 { S with solver := (callSolveJ3 C j (s1, s2) S).solver } dt w3 := by
    constructor <;> intro c hc <;> rw [i3 c hc] <;> dsimp only [callSolveJ3, solve3] <;> rest3 r2, c, hc
    · rw [hasm c hc, r2.green c hc]
    · rw [hasm c hc]
    · rw [hasm c hc, r2.green c hc]
  have hB : ∀ c ∈ ranks3 T, runNet (allMsgs (ranks3 T) fun c => okPosts (fromPosts3 T C.g (distDims3 T) c)) (fun r => Sum.elim ((w3 r).stream j) (w3 r).dbl) s2 c =
      runNet (fromMsgs3 T C.g) (joinW (S.stream j) (callSolveJ3 C j (s1, s2) S).solver.dbl) s2 c := by
    refine runNet_congr _ (fun r hr => ?_) s2
    rw [r3.stream r hr, r3.dbl r hr]
    rfl
  have hw : ∀ c ∈ ranks3 T, w' c = _ := fun c hc => (i5 c hc).trans (by rw [i4 c hc])
  constructor <;> intro c hc <;> rw [hw c hc] <;> dsimp only [partD3] <;> rest3 r3, c, hc
  intro i
  rw [hB c hc]
  unfold callSolveJ3
  dsimp only
  by_cases e : i = j
  · subst e
    rw [Function.update_self, Function.update_self]
    rfl
  · rw [Function.update_of_ne e, Function.update_of_ne e]
    exact r3.stream c hc i

theorem callSolve3_eq (hE : EvenTopo3 T) (s : Fin 3 → List Ev × List Ev) :
    callSolve3 C s S = (callSolveJ3 C 2 (s 2) (callSolveJ3 C 1 (s 1) (callSolveJ3 C 0 (s 0) S)), none) := by
  have n1 : ((ranks3 T).findSome? fun c => errOf (toPosts3 T C.g (distDims3 T) c)) = none := by
    rw [List.findSome?_eq_none_iff]
    intro c hc
    obtain ⟨⟨l, hl⟩, -⟩ := doubling3_no_error hE C.g (mem_ranks3.1 hc)
    rw [hl]; rfl
  have n2 : ((ranks3 T).findSome? fun c => errOf (fromPosts3 T C.g (distDims3 T) c)) = none := by
    rw [List.findSome?_eq_none_iff]
    intro c hc
    obtain ⟨-, ⟨l, hl⟩⟩ := doubling3_no_error hE C.g (mem_ranks3.1 hc)
    rw [hl]; rfl
  unfold callSolve3
  rw [n1]
  dsimp only
  rw [n2]
  unfold callSolveJ3 vectorSolve3
  dsimp only
  congr 2
  funext i
  fin_cases i <;> rfl

/-! ## The time step -/

omit [NeZero T.gz] [NeZero T.gy] [NeZero T.gx] in
theorem dtPiece3_exec (tol : ℝ) {rule : DtRule} {dt0 : ℝ} (hR : Rep3 S dt0 w) (h : ExecSeq b (dtPiece3 C tol rule) w w') {dt : ℝ} (hok : (pickDt3 C tol S rule).2 = .ok dt) :
    Rep3 (pickDt3 C tol S rule).1 dt w' := by
  cases rule with
  | fixed d =>
    obtain ⟨w1, h1, rfl⟩ := h
    have hl := (locLayer_exec h1).1
    cases hok
    constructor <;> intro c hc <;> rw [hl c hc] <;> dsimp only [pickDt3] <;> rest3 hR, c, hc
  | stable pre =>
    obtain ⟨w1, h1, w2, h2, rfl⟩ := h
    have i1 := (collLayer_exec (ranks3_nodup T) partM3 _ _ _ (by intro c d s m; rfl) h1).1
    have i2 := (locLayer_exec h2).1
    have hw : ∀ c ∈ ranks3 T, w' c = _ := fun c hc => (i2 c hc).trans (by rw [i1 c hc])
    constructor <;> intro c hc <;> rw [hw c hc] <;> dsimp only [partM3, pickDt3, stableDt3] <;> rest3 hR, c, hc
    · rw [hR.vel c hc, hR.vel c hc, hR.vel c hc]
    · dsimp only [pickDt3, stableDt3] at hok
      cases hv : allreduce min (ranks3 T) (fun c => do
          let m ← amax ((innerCells3 T C.g).map fun p => |S.vel 0 c p| + |S.vel 1 c p| + |S.vel 2 c p|)
          .ok (minInf (C.cfl * simDx3 T C.xr / (m + tol)) (divInf (0.9 * simDx3 T C.xr ^ 2 / (2 * 3)) (C.nu + tol)))) with
      | error e => rw [hv] at hok; cases hok
      | ok v =>
        rw [hv] at hok
        cases hok
        have hv' := allreduce_okOr min hv
        rw [allreduce_congr min (y := fun c => Except.ok (okOr 0 (do
          let m ← amax ((innerCells3 T C.g).map fun p => |S.vel 0 c p| + |S.vel 1 c p| + |S.vel 2 c p|)
          .ok (minInf (C.cfl * simDx3 T C.xr / (m + tol)) (divInf (0.9 * simDx3 T C.xr ^ 2 / (2 * 3)) (C.nu + tol)))))), hv']
        · rfl
        · intro r hr
          rw [if_pos ⟨hr, rfl⟩, hR.vel r hr, hR.vel r hr, hR.vel r hr]
          rfl

theorem nsPiece3_exec (hT : mkCart3 gz gy gx pz py px false = .ok T) (hC : Good3 T C) (hxr : 0 < C.xr)
    (hK : K.Local) {F : Fields3} (hS : SimHolds3 C F S) (hR : Rep3 S dt w) (fs : Fin 3 → ℝ) (h : ExecSeq b (nsPiece3 C K fs) w w') (sf : Sched3)
    (hsf : Complete (multiMsgs3 T C.g C.full ([0, 1, 2] : List (Fin 3))) sf.2) :
    ∃ sch : Scheds3, sch.Done T C.g C.full ∧ sch.force = sf ∧ Rep3 (nsStep3 C K sch dt fs S).1 dt w' := by
  unfold nsPiece3 at h
  obtain ⟨w1, h1, h⟩ := execSeq_append h
  obtain ⟨w2, h2, h⟩ := execSeq_append h
  obtain ⟨w3, h3, h⟩ := execSeq_append h
  obtain ⟨w4, h4, h⟩ := execSeq_append h
  obtain ⟨w5, h5, h⟩ := execSeq_append h
  obtain ⟨w6, h6, h⟩ := execSeq_append h
  obtain ⟨w7, h7, h8⟩ := execSeq_append h
  obtain ⟨v1, s1, h6⟩ := execSeq_append h6
  obtain ⟨v2, s2, s3⟩ := execSeq_append h6
  clear h h6
  obtain ⟨sd0, hsd0⟩ := scheds3_exist T C.g C.full
  have r1 := crossPiece3_exec hR h1
  obtain ⟨su, cu, r2⟩ := updPiece3_exec false r1 h2
  obtain ⟨sd, cd, r3⟩ := diffVPiece3_exec r2 h3
  have r3' := r3 { sd0 with upd := su, diff := sd } rfl
  obtain ⟨sl, cl, r4⟩ := filterPiece3_exec r3' h4
  have r4' : Rep3 (vorticityStep3 C K { sd0 with upd := su, diff := sd, flt := sl } dt S) dt w4 := r4 { sd0 with upd := su, diff := sd, flt := sl } rfl
  have hok : (callPen3 C (vorticityStep3 C K { sd0 with upd := su, diff := sd, flt := sl } dt S)).2 = none := by
    have := (nsStep3_holds (sch := { sd0 with upd := su, diff := sd, flt := sl }) hT hC hxr hK
      ⟨hsd0.force, cu, hsd0.adv, cd, cl, hsd0.solve, hsd0.curl⟩ dt fs hS).1
    unfold nsStep3 flowVelocity3 at this
    cases e : (callPen3 C (vorticityStep3 C K { sd0 with upd := su, diff := sd, flt := sl } dt S)).2 with
    | none => rfl
    | some er =>
      simp only [Out3.andThen, e] at this
      cases this
  have r5 := penPiece3_exec r4' h5 hok
  obtain ⟨t0, c0, r60⟩ := solvePiece3_exec hT hC.even 0 r5 s1
  obtain ⟨t1, c1, r61⟩ := solvePiece3_exec hT hC.even 1 r60 s2
  obtain ⟨t2, c2, r62⟩ := solvePiece3_exec hT hC.even 2 r61 s3
  obtain ⟨sc, cc, r7⟩ := curlPiece3_exec r62 h7
  have r8 := freePiece3_exec r7 fs h8
  refine ⟨⟨sf, su, sd0.adv, sd, sl, ![t0, t1, t2], sc⟩, ⟨hsf, cu, hsd0.adv, cd, cl, fun i => by fin_cases i; exacts [c0, c1, c2], cc⟩, rfl, ?_⟩
  have e : vorticityStep3 C K ⟨sf, su, sd0.adv, sd, sl, ![t0, t1, t2], sc⟩ dt S = vorticityStep3 C K { sd0 with upd := su, diff := sd, flt := sl } dt S := rfl
  unfold nsStep3 flowVelocity3
  rw [e]
  simp only [Out3.andThen, hok]
  rw [callSolve3_eq hC.even]
  exact r8

theorem flowPiece3_exec (hT : mkCart3 gz gy gx pz py px false = .ok T) (hNS : isNS C.flowType = true → Good3 T C) (hxr : 0 < C.xr)
    (hft : C.flowType ∈ flowTypes3) (hK : K.Local) (hK0 : ∀ a, K.upd a (fun _ _ => 0) = 0) {F : Fields3} (hS : SimHolds3 C F S) (hR : Rep3 S dt w) (fs : Fin 3 → ℝ)
    {Φ : Fin 3 → C3 → ℝ} (hΦ : C.flowType = "navier_stokes_with_forcing" → HoldsForce3 T C.g Φ S.forcing ∧ Confined3 gz gy gx Φ)
    (h : ExecSeq b (flowPiece3 C K fs) w w') : ∃ sch : Scheds3, sch.Done T C.g C.full ∧ Rep3 (flowStep3 C K sch dt (some fs) S).1 dt w' := by
  obtain ⟨sd, hsd⟩ := scheds3_exist T C.g C.full
  unfold flowStep3
  unfold flowPiece3 at h
  simp only [flowTypes3, List.mem_cons, List.not_mem_nil, or_false] at hft
  rcases hft with h1 | h1 | h1 | h1
  · have hp : isNS C.flowType = false := by rw [h1]; rfl
    have n3 : C.flowType ≠ "passive_vector" := by rw [h1]; simp
    simp only [hp, Bool.false_eq_true, if_false, if_neg n3] at h ⊢
    obtain ⟨w1, h1', h2'⟩ := execSeq_append h
    obtain ⟨sa, ca, r1⟩ := advPiece3_exec hR _ h1'
    obtain ⟨sf, cf, r2⟩ := diffPiece3_exec r1 _ h2'
    exact ⟨{ sd with adv := fun _ => sa, diff := fun _ => sf }, ⟨hsd.force, hsd.upd, fun _ => ca, fun _ => cf, hsd.flt, hsd.solve, hsd.curl⟩, r2⟩
  · have hp : isNS C.flowType = false := by rw [h1]; rfl
    simp only [hp, Bool.false_eq_true, if_false, if_pos h1] at h ⊢
    obtain ⟨w1, h1', h2'⟩ := execSeq_append h
    obtain ⟨sa, ca, r1⟩ := advVPiece3_exec hR h1'
    obtain ⟨sf, cf, r2⟩ := diffVPiece3_exec (r1 { sd with adv := sa } rfl) h2'
    exact ⟨{ sd with adv := sa, diff := sf }, ⟨hsd.force, hsd.upd, ca, cf, hsd.flt, hsd.solve, hsd.curl⟩, r2 { sd with adv := sa, diff := sf } rfl⟩
  · have hp : isNS C.flowType = true := by rw [h1]; rfl
    simp only [hp, if_true, if_pos h1] at h ⊢
    obtain ⟨sch, hs, -, r⟩ := nsPiece3_exec hT (hNS hp) hxr hK hS hR fs h sd.force hsd.force
    exact ⟨sch, hs, r⟩
  · have hp : isNS C.flowType = true := by rw [h1]; rfl
    have n1 : C.flowType ≠ "navier_stokes" := by rw [h1]; simp
    simp only [hp, if_true, if_neg n1] at h ⊢
    have hC := hNS hp
    obtain ⟨f1, f2⟩ := hΦ h1
    obtain ⟨w1, h1', h⟩ := execSeq_append h
    obtain ⟨w2, h2, h3⟩ := execSeq_append h
    obtain ⟨sf, cf, r1⟩ := updPiece3_exec true hR h1'
    have hu := callUpd3_holdsX hT hC.g hC.gz hC.gy hC.gx hC.nz hC.ny hC.nx hK hK0 cf dt hS.om f1 f2
    have s2 : SimHolds3 C { F with om := refUpd3 (C.params gz gy gx) K dt Φ F.om } { S with om := (callUpd3 (T := T) C K sf dt S.om S.forcing).1, forcing := (callUpd3 (T := T) C K sf dt S.om S.forcing).2 } :=
      ⟨hS.sc, hu, hS.u, hS.green⟩
    obtain ⟨sch, hs, hsf, r2⟩ := nsPiece3_exec hT hC hxr hK s2 r1 fs h2 sf cf
    obtain ⟨n2, -⟩ := nsStep3_holds hT hC hxr hK hs dt fs s2
    refine ⟨sch, hs, ?_⟩
    unfold nsForcingStep3
    dsimp only
    rw [hsf]
    unfold Out3.andThen
    rw [n2]
    obtain ⟨w3, h3, rfl⟩ := h3
    have hl := (locLayer_exec h3).1
    constructor <;> intro c hc <;> rw [hl c hc] <;> dsimp only <;> rest3 r2, c, hc
    intro j; rfl

/-! ## Simulations -/

/-- The iteration of a driver with message schedules added. -/
def AIter3.withScheds (x : AIter3) (sch : Scheds3) : StepIn3 := ⟨x.rule, some x.fs, x.force, sch⟩

theorem iterPiece3_exec (hT : mkCart3 gz gy gx pz py px false = .ok T) (hNS : isNS C.flowType = true → Good3 T C) (hPS : isNS C.flowType = false → GoodPassive3 T C)
    (hxr : 0 < C.xr) (hft : C.flowType ∈ flowTypes3) (hcfl : 0 ≤ C.cfl) (hnu : 0 ≤ C.nu) {tol : ℝ} (htol : 0 < tol) (hK : K.Local) (hK0 : ∀ a, K.upd a (fun _ _ => 0) = 0)
    {F : Fields3} (hS : SimHolds3 C F S)
    {dt0 : ℝ} (hR : Rep3 S dt0 w) (x : AIter3) {Φ : Fin 3 → C3 → ℝ} (hΦ : C.flowType = "navier_stokes_with_forcing" → HoldsForce3 T C.g Φ x.force ∧ Confined3 gz gy gx Φ)
    (h : ExecSeq b (iterPiece3 C K tol x) w w') :
    ∃ sch : Scheds3, sch.Done T C.g C.full ∧ ∃ dt, Rep3 (iterate3 C K (x.withScheds sch) (pickDt3 C tol S x.rule)).1 dt w' := by
  have hg : 1 ≤ C.g := by
    cases hp : isNS C.flowType with
    | true => exact (hNS hp).g
    | false => rw [(hPS hp).g]; omega
  obtain ⟨w1, h1, h⟩ := execSeq_append h
  obtain ⟨w2, h2, h⟩ := execSeq_append h
  obtain ⟨w3, h3, h4⟩ := execSeq_append h
  obtain ⟨d1, d2, -⟩ := pickDt3_holds hT hg hcfl hxr hnu htol hS x.rule
  have r1 := dtPiece3_exec tol hR h1 d1
  obtain ⟨v, h2, rfl⟩ := h2
  have l2 := (locLayer_exec h2).1
  have r2 : Rep3 { (pickDt3 C tol S x.rule).1 with forcing := x.force } (refDt3 (C.params gz gy gx) C.cfl tol F x.rule) w2 := by
    constructor <;> intro c hc <;> rw [l2 c hc] <;> dsimp only <;> rest3 r1, c, hc
    intro j; rfl
  have s2 : SimHolds3 C F { (pickDt3 C tol S x.rule).1 with forcing := x.force } := ⟨d2.sc, d2.om, d2.u, d2.green⟩
  obtain ⟨sch, hs, r3⟩ := flowPiece3_exec hT hNS hxr hft hK hK0 s2 r2 x.fs hΦ h3
  refine ⟨sch, hs, refDt3 (C.params gz gy gx) C.cfl tol F x.rule, ?_⟩
  have hm : Means3 gz gy gx T C (x.withScheds sch) ⟨x.rule, x.fs, Φ⟩ := ⟨rfl, fun _ => rfl, hs, hΦ⟩
  have ok := (iterate3_holds hT hNS hPS hxr hft hK hK0 hm d1 d2).1
  obtain ⟨v, h4, rfl⟩ := h4
  have l4 := (locLayer_exec h4).1
  unfold iterate3 at ok ⊢
  rw [d1] at ok ⊢
  simp only at ok ⊢
  unfold timeStep3 Out3.andThen at ok ⊢
  dsimp only [AIter3.withScheds] at ok ⊢
  cases e : (flowStep3 C K sch (refDt3 (C.params gz gy gx) C.cfl tol F x.rule) (some x.fs) { (pickDt3 C tol S x.rule).1 with forcing := x.force }).2 with
  | some er => rw [e] at ok; cases ok
  | none =>
    simp only
    constructor <;> intro c hc <;> rw [l4 c hc] <;> dsimp only <;> rest3 r3, c, hc
    rw [r3.time c hc, r3.dt c hc]

/-- The driver loop `xs` on the ranks is the loop `ys` on the global grid: same rules for `dt`, same free stream, and, if there is forcing, the ranks write its values and it
vanishes in the outermost cells. -/
structure Drives3 (gz gy gx : ℕ) (T : Cart3) (C : Cfg3) (x : AIter3) (y : StepSpec3) : Prop where
  rule : x.rule = y.rule
  fs : x.fs = y.fs
  force : C.flowType = "navier_stokes_with_forcing" → HoldsForce3 T C.g y.Φ x.force ∧ Confined3 gz gy gx y.Φ

/-- **C83** A driver loop run by ranks at their own speed ends in a state of the lock-step model, for some message schedules. -/
theorem simLoop3_async (hT : mkCart3 gz gy gx pz py px false = .ok T) (hNS : isNS C.flowType = true → Good3 T C) (hPS : isNS C.flowType = false → GoodPassive3 T C)
    (hxr : 0 < C.xr) (hft : C.flowType ∈ flowTypes3) (hcfl : 0 ≤ C.cfl) (hnu : 0 ≤ C.nu) {tol : ℝ} (htol : 0 < tol) (hK : K.Local) (hK0 : ∀ a, K.upd a (fun _ _ => 0) = 0)
    {xs : List AIter3} {ys : List StepSpec3} (hxy : List.Forall₂ (Drives3 gz gy gx T C) xs ys) {F : Fields3} (hS : SimHolds3 C F S) {dt0 : ℝ} (hR : Rep3 S dt0 w)
    (h : ExecSeq b (simPieces3 C K tol xs) w w') :
    ∃ zs : List StepIn3, List.Forall₂ (Means3 gz gy gx T C) zs ys ∧ (∃ schs, zs = List.zipWith AIter3.withScheds xs schs) ∧ ∃ dt, Rep3 (simLoop3 C K tol zs S).1 dt w' := by
  have hg : 1 ≤ C.g := by
    cases hp : isNS C.flowType with
    | true => exact (hNS hp).g
    | false => rw [(hPS hp).g]; omega
  induction hxy generalizing F S dt0 w with
  | nil => exact ⟨[], .nil, ⟨[], rfl⟩, dt0, by rw [show w' = w from h]; exact hR⟩
  | @cons x y xs ys hxy _ ih =>
    obtain ⟨w1, h1, h2⟩ := execSeq_append h
    obtain ⟨sch, hs, dt, r⟩ := iterPiece3_exec hT hNS hPS hxr hft hcfl hnu htol hK hK0 hS hR x hxy.force h1
    have hm : Means3 gz gy gx T C (x.withScheds sch) y := ⟨hxy.rule, fun _ => by rw [← hxy.fs]; rfl, hs, hxy.force⟩
    obtain ⟨d1, d2, -⟩ := pickDt3_holds hT hg hcfl hxr hnu htol hS x.rule
    obtain ⟨i1, i2, -⟩ := iterate3_holds hT hNS hPS hxr hft hK hK0 hm d1 d2
    obtain ⟨zs, hz, ⟨schs, hzs⟩, dt', r'⟩ := ih i2 r h2
    refine ⟨x.withScheds sch :: zs, .cons hm hz, ⟨sch :: schs, by rw [hzs]; rfl⟩, dt', ?_⟩
    unfold simLoop3 Out3.andThen
    change Rep3 (match (iterate3 C K (x.withScheds sch) (pickDt3 C tol S x.rule)).2 with
      | some e => ((iterate3 C K (x.withScheds sch) (pickDt3 C tol S x.rule)).1, some e)
      | none => simLoop3 C K tol zs (iterate3 C K (x.withScheds sch) (pickDt3 C tol S x.rule)).1).1 dt' w'
    rw [i1]
    exact r'

/-- all members of a list of layers are pieces -/
theorem all_pieces_append {R S M : Type} [DecidableEq R] {ranks : List R} {A B : List (R → List (AIns R S M))} (hA : ∀ L ∈ A, Piece ranks L) (hB : ∀ L ∈ B, Piece ranks L) :
    ∀ L ∈ A ++ B, Piece ranks L := fun L hL => (List.mem_append.1 hL).elim (hA L) (hB L)

theorem all_pieces_flatMap {R S M κ : Type} [DecidableEq R] {ranks : List R} {l : List κ} {A : κ → List (R → List (AIns R S M))} (hA : ∀ k ∈ l, ∀ L ∈ A k, Piece ranks L) :
    ∀ L ∈ l.flatMap A, Piece ranks L := by
  intro L hL
  obtain ⟨k, hk, hL⟩ := List.mem_flatMap.1 hL
  exact hA k hk L hL

theorem simPieces3_pieces (hE : isNS C.flowType = true → EvenTopo3 T) (tol : ℝ) (xs : List AIter3) : ∀ L ∈ simPieces3 (T := T) C K tol xs, Piece (ranks3 T) L := by
  have hm {κ : Type} (comps : List κ) : AllMatched (ranks3 T) (vecPosts comps (posts3 T C.g C.full)) := (ghost3_all_matched T C.g C.full).vec comps
  have hloc : ∀ f : C3 → Rk3 T → Rk3 T, ∀ L ∈ ([locLayer (ranks3 T) f] : List (Piece3 T)), Piece (ranks3 T) L := by
    intro f L hL
    rw [List.mem_singleton.1 hL]
    exact locLayer_piece _ _
  have hadv : ∀ k, ∀ L ∈ advPiece3 (T := T) C K k, Piece (ranks3 T) L := by
    intro k L hL
    simp only [advPiece3, List.mem_cons, List.not_mem_nil, or_false] at hL
    rcases hL with rfl | rfl
    · exact exchLayer_piece _ _ (hm _) _
    · exact locLayer_piece _ _
  have hdiff : ∀ k, ∀ L ∈ diffPiece3 (T := T) C K k, Piece (ranks3 T) L := by
    intro k L hL
    simp only [diffPiece3, List.mem_cons, List.not_mem_nil, or_false] at hL
    rcases hL with rfl | rfl
    · exact exchLayer_piece _ _ (hm _) _
    · exact locLayer_piece _ _
  have hcurl : ∀ L ∈ curlPiece3 (T := T) C K, Piece (ranks3 T) L := by
    intro L hL
    simp only [curlPiece3, List.mem_cons, List.not_mem_nil, or_false] at hL
    rcases hL with rfl | rfl
    · exact exchLayer_piece _ _ (hm _) _
    · exact locLayer_piece _ _
  have hupd : ∀ f, ∀ L ∈ updPiece3 (T := T) C K f, Piece (ranks3 T) L := by
    intro f L hL
    simp only [updPiece3, List.mem_cons, List.not_mem_nil, or_false] at hL
    rcases hL with rfl | rfl
    · exact exchLayer_piece _ _ (hm _) _
    · exact locLayer_piece _ _
  have hpass : ∀ a, ∀ L ∈ filterPassPiece3 (T := T) C a, Piece (ranks3 T) L := by
    intro a L hL
    simp only [filterPassPiece3, List.mem_cons, List.not_mem_nil, or_false] at hL
    rcases hL with rfl | rfl
    · exact exchLayer_piece _ _ (hm _) _
    · exact locLayer_piece _ _
  have hcomp : ∀ o ty j, ∀ L ∈ filterCompPiece3 (T := T) C o ty j, Piece (ranks3 T) L := by
    intro o ty j
    unfold filterCompPiece3
    split
    · exact all_pieces_append (hloc _) (all_pieces_append (hloc _) (all_pieces_append
        (all_pieces_flatMap fun _ _ => all_pieces_append (hpass _) (all_pieces_append (hpass _) (hpass _))) (hloc _)))
    · exact all_pieces_append (hloc _) (all_pieces_flatMap fun a _ => all_pieces_append (hloc _) (all_pieces_append (all_pieces_flatMap fun _ _ => hpass _) (hloc _)))
  have hflt : ∀ L ∈ filterPiece3 (T := T) C, Piece (ranks3 T) L := by
    unfold filterPiece3
    split
    · intro L hL; cases hL
    · exact all_pieces_append (hcomp _ _ _) (all_pieces_append (hcomp _ _ _) (hcomp _ _ _))
  have hsolve : isNS C.flowType = true → ∀ j, ∀ L ∈ solvePiece3 (T := T) C j, Piece (ranks3 T) L := by
    intro hn j L hL
    obtain ⟨m1, m2⟩ := doubling3_matched (hE hn) C.g
    simp only [solvePiece3, List.mem_cons, List.not_mem_nil, or_false] at hL
    rcases hL with rfl | rfl | rfl | rfl | rfl
    · exact exchLayer_piece _ _ m1 _
    · exact collLayer_piece (ranks3_nodup T) _ _ _ _ (by intro c d s m; rfl)
    · exact locLayer_piece _ _
    · exact exchLayer_piece _ _ m2 _
    · exact locLayer_piece _ _
  have hns : isNS C.flowType = true → ∀ fs, ∀ L ∈ nsPiece3 (T := T) C K fs, Piece (ranks3 T) L := by
    intro hn fs
    unfold nsPiece3 allComps3
    exact all_pieces_append (hloc _) (all_pieces_append (hupd _) (all_pieces_append (all_pieces_append (hdiff _) (all_pieces_append (hdiff _) (hdiff _)))
      (all_pieces_append hflt (all_pieces_append (hloc _) (all_pieces_append (all_pieces_append (hsolve hn _) (all_pieces_append (hsolve hn _) (hsolve hn _)))
        (all_pieces_append hcurl (hloc _)))))))
  have hflow : ∀ fs, ∀ L ∈ flowPiece3 (T := T) C K fs, Piece (ranks3 T) L := by
    intro fs
    unfold flowPiece3 allComps3
    split
    · rename_i e
      split
      · exact hns e fs
      · exact all_pieces_append (hupd _) (all_pieces_append (hns e fs) (hloc _))
    · split
      · exact all_pieces_append (all_pieces_append (hadv _) (all_pieces_append (hadv _) (hadv _))) (all_pieces_append (hdiff _) (all_pieces_append (hdiff _) (hdiff _)))
      · exact all_pieces_append (hadv _) (hdiff _)
  have hdt : ∀ rule, ∀ L ∈ dtPiece3 (T := T) C tol rule, Piece (ranks3 T) L := by
    intro rule L hL
    cases rule with
    | fixed dt => exact hloc _ L hL
    | stable pre =>
      simp only [dtPiece3, List.mem_cons, List.not_mem_nil, or_false] at hL
      rcases hL with rfl | rfl
      · exact collLayer_piece (ranks3_nodup T) _ _ _ _ (by intro c d s m; rfl)
      · exact locLayer_piece _ _
  exact all_pieces_flatMap fun x _ => all_pieces_append (hdt _) (all_pieces_append (hloc _) (all_pieces_append (hflow _) (hloc _)))

/-- The rank states in which a simulation starts: the fields of the initial state, anything in exchange buffers, mailboxes and the variable `dt`. -/
def Starts3 (S : Sim3 T) (w : C3 → Rk3 T) : Prop := ∃ dt, Rep3 S dt w

/-- **C83** A 3D simulation (constructor, initialisation from the coordinates, any number of iterations with given or stable time steps, every flow type, filter or not) whose
ranks are synchronised by nothing but their messages: it cannot get stuck, it cannot run forever, and when all ranks have returned, every inner cell of every rank holds
the value of the run on the global grid; MPI may buffer messages or not. -/
theorem sim3_async {a : SimArgs3} (h : Fit3 a T) {xr : ℝ} (hxr : 0 < xr) {nu : ℝ} (hnu : 0 ≤ nu) {cfl : ℝ} (hcfl : 0 ≤ cfl) {tol : ℝ} (htol : 0 < tol)
    {K : Kern3} (hK : K.Local) (hK0 : ∀ r, K.upd r (fun _ _ => 0) = 0) (time : ℝ) (dbl0 : World C3 C3 ℝ) (conv0 : Dbl3 T → ℂ)
    (sc : ℝ → ℝ → ℝ → ℝ) (om u : Fin 3 → ℝ → ℝ → ℝ → ℝ) {xs : List AIter3} {ys : List StepSpec3}
    (hxy : List.Forall₂ (Drives3 a.gz a.gy a.gx T (simCfg3 a xr nu cfl)) xs ys) (b : Bool) {w : C3 → Rk3 T}
    (hw : Starts3 (initFrom3 T a.g xr time dbl0 conv0 sc om u) w) :
    let prog := simProg3 (T := T) (simCfg3 a xr nu cfl) K tol xs
    let ref := refRun3 a.flowType ⟨a.gz, a.gy, a.gx, xr, nu, widthOf a.width, a.freeStream, filterNums (filterInUse a)⟩ K cfl tol ys
      (fieldsFrom3 (xr / a.gx) sc om u, time)
    NoStuck b prog ∧ (∃ N, ∀ w n D, ARun b n (AConf.start prog w) D → n ≤ N) ∧ (∃ w', AExec b prog w w') ∧
    ∀ w', AExec b prog w w' → ∀ c, Valid3 T c → (w' c).time = ref.2 ∧ ∀ p, Inner3 T a.g p →
      (w' c).sc p = ref.1.sc (globalIx3 T a.g c p) ∧
      ∀ j, (w' c).om j p = ref.1.om j (globalIx3 T a.g c p) ∧ (w' c).vel j p = ref.1.u j (globalIx3 T a.g c p) := by
  obtain ⟨hT, hft⟩ := simCheck3_cart h.built
  have hNS : isNS (simCfg3 a xr nu cfl).flowType = true → Good3 T (simCfg3 a xr nu cfl) := fun hn => h.good xr nu cfl hn
  have hPS : isNS (simCfg3 a xr nu cfl).flowType = false → GoodPassive3 T (simCfg3 a xr nu cfl) :=
    fun hn => ⟨(h.passive hn).1, (h.passive hn).2.1, (h.passive hn).2.2.1, (h.passive hn).2.2.2⟩
  have hp := simPieces3_pieces (K := K) (fun hn => (hNS hn).even) tol xs
  obtain ⟨t1, t2⟩ := pieces_terminate hp b
  refine ⟨t1, t2, pieces_exec_exists hp b w, fun w' hw' c hc => ?_⟩
  have hseq := layers_exec (fun L hL => (hp L hL).layer) hw'
  obtain ⟨dt0, hR⟩ := hw
  have hinit := initFrom3_holds hT (simCfg3 a xr nu cfl) time dbl0 conv0 sc om u
  obtain ⟨zs, hz, -, dt, r⟩ := simLoop3_async hT hNS hPS hxr hft hcfl hnu htol hK hK0 hxy hinit hR hseq
  obtain ⟨r1, r2, r3⟩ := sim3_run h hxr hnu hcfl htol hK hK0 time dbl0 conv0 sc om u hz
  refine ⟨(r.time c (mem_ranks3.2 hc)).trans r2, fun p hp => ?_⟩
  obtain ⟨q1, q2⟩ := r3 c p hc hp
  exact ⟨by rw [r.sc c (mem_ranks3.2 hc)]; exact q1, fun j => ⟨by rw [r.om c (mem_ranks3.2 hc)]; exact (q2 j).1, by rw [r.vel c (mem_ranks3.2 hc)]; exact (q2 j).2⟩⟩

/-! ## The hypotheses can be met -/

omit [NeZero T.gz] [NeZero T.gy] [NeZero T.gx] in
/-- every initial state can be held by ranks -/
example (S : Sim3 T) : ∃ w, Starts3 S w :=
  ⟨fun c => ⟨S.sc c, fun j => S.om j c, fun j => S.vel j c, S.buf c, fun j => S.bufV j c, fun j => S.stream j c, fun j => S.forcing j c, S.time, S.solver.dbl c, S.solver.four,
    S.solver.conv, S.solver.green, 0, fun _ => 7, fun _ => 0, fun _ => 0, fun _ => 0, fun _ => []⟩, 0, by constructor <;> intros <;> rfl⟩

/-- a driver iteration with stable `dt`, free stream and forcing in one cell of an 8×8×4 grid -/
example (T : Cart3) (C : Cfg3) : ∃ x y, Drives3 8 8 4 T C x y ∧ y.Φ 0 (5, 4, 2) = 3 ∧ y.rule = .stable 0.5 :=
  ⟨⟨.stable 0.5, ![1, 0, 0], fun j c p => if j = 0 ∧ globalIx3 T C.g c p = (5, 4, 2) then 3 else 0⟩,
    ⟨.stable 0.5, ![1, 0, 0], fun j G => if j = 0 ∧ G = (5, 4, 2) then 3 else 0⟩,
    ⟨rfl, rfl, fun _ => ⟨fun _ _ _ _ _ _ => rfl, by
      intro j G h
      dsimp only
      split
      · rename_i h'
        exfalso; apply h
        rw [h'.2]; simp [Away3]
      · rfl⟩⟩, by simp, rfl⟩

end Sopht
