import Verif.Sim3DRun
import Verif.Restart2D

/-! # Restarting a 3D simulation from a checkpoint (C75)

See `Restart2D`.  Flows with vorticity: the penalty zone must be at least 3 cells plus the order of the filter wide. -/

namespace Sopht

set_option linter.unusedSimpArgs false

/-! ## Model: the arrays of a simulator as registered for checkpointing -/

section
variable {T : Cart3}

/-- The arrays of a simulator: reference 0 is `vorticity_field` (`primary_vector_field`), 1 `velocity_field`, 2 `primary_scalar_field` (F3D.py:170-196), ghost
cells included. -/
noncomputable def simHeap3 (g : ℕ) (S : Sim3 T) : Heap C3 C3 ℝ where
  eul r := if r = 0 then ⟨[3, T.nz + 2 * g, T.ny + 2 * g, T.nx + 2 * g], fun k => S.om (Fin.ofNat 3 k)⟩
    else if r = 1 then ⟨[3, T.nz + 2 * g, T.ny + 2 * g, T.nx + 2 * g], fun k => S.vel (Fin.ofNat 3 k)⟩
    else ⟨[T.nz + 2 * g, T.ny + 2 * g, T.nx + 2 * g], fun _ => S.sc⟩
  lag _ := ⟨[], fun _ => 0⟩

/-- What is checkpointed: velocity, and vorticity (or passive vector) or the passive scalar. -/
def simSaved3 (flowType : String) : List (String × ℕ) :=
  if flowType = "passive_scalar" then [("scalar", 2), ("velocity", 1)] else [("vorticity", 0), ("velocity", 1)]

/-- `io.define_eulerian_grid(…)`, `io.add_as_eulerian_fields_for_io(vorticity=…, velocity=…)` (flow_past_freely_rotating_rod_case.py:187-197). -/
noncomputable def simIO3 (ft : String) (g : ℕ) (origin dx : List ℚ) (gs : List ℕ) (S : Sim3 T) : MPIIO × Except PyErr Unit :=
  addEulerian (ioGeo3 T g) (simHeap3 g S) (defineEulerianGrid {} origin dx gs) (simSaved3 ft)

/-- `io.save(…, time=flow_sim.time)` (flow_past_freely_rotating_rod_case.py:267-270); `order` is the order in which the ranks happen to write. -/
noncomputable def saveSim3 (ft : String) (g : ℕ) (origin dx : List ℚ) (gs : List ℕ) (order : String → List C3) (S : Sim3 T) : Except PyErr (H5 ℝ C3 ℝ) :=
  match simIO3 ft g origin dx gs S with
  | (_, .error e) => .error e
  | (io, .ok ()) => save (ioGeo3 T g) order (simHeap3 g S) io S.time

/-- `flow_sim.time = io.load(…)` (flow_past_freely_rotating_rod_case.py:220): `load` writes into the arrays of the simulator. -/
noncomputable def loadSim3 (ft : String) (g : ℕ) (origin dx : List ℚ) (gs : List ℕ) (file : H5 ℝ C3 ℝ) (S : Sim3 T) : Except PyErr (Sim3 T) :=
  match simIO3 ft g origin dx gs S with
  | (_, .error e) => .error e
  | (io, .ok ()) =>
    match load (ioGeo3 T g) file io (simHeap3 g S) with
    | (_, .error e) => .error e
    | (h, .ok t) => .ok { S with
        sc := (h.eul 2).comp 0
        om := fun j => (h.eul 0).comp j
        vel := fun j => (h.eul 1).comp j
        time := t }

end

/-! ## Helpers: which cells a step looks at -/

/-- Vorticity and velocity agree in every cell of the grid (not necessarily beyond its sides). -/
def AgreeDom3 (gz gy gx : ℕ) (F F' : Fields3) : Prop := ∀ G, Dom3 gz gy gx G → ∀ j, F.om j G = F'.om j G ∧ F.u j G = F'.u j G

/-- What is checkpointed of `F` in the domain, `F'` otherwise. -/
noncomputable def overlay3 (ft : String) (gz gy gx : ℕ) (F F' : Fields3) : Fields3 where
  sc G := if ft = "passive_scalar" ∧ Dom3 gz gy gx G then F.sc G else F'.sc G
  om j G := if ft ≠ "passive_scalar" ∧ Dom3 gz gy gx G then F.om j G else F'.om j G
  u j G := if Dom3 gz gy gx G then F.u j G else F'.u j G

/-- At least `k` cells away from the sides, along each axis. -/
def Deep3 (gz gy gx : ℕ) (k : ℤ × ℤ × ℤ) (G : C3) : Prop :=
  k.1 ≤ G.1 ∧ G.1 + k.1 < gz ∧ k.2.1 ≤ G.2.1 ∧ G.2.1 + k.2.1 < gy ∧ k.2.2 ≤ G.2.2 ∧ G.2.2 + k.2.2 < gx

theorem overlay3_agree {ft : String} (hft : ft ≠ "passive_scalar") (gz gy gx : ℕ) (F F' : Fields3) : AgreeDom3 gz gy gx (overlay3 ft gz gy gx F F') F := by
  intro G hG j
  simp [overlay3, hG, hft]

theorem deep3_cross {gz gy gx : ℕ} {k : ℤ} {G d : C3} (h : Deep3 gz gy gx (k + 1, k + 1, k + 1) G) (hd : Cross3 1 d) :
    Deep3 gz gy gx (k, k, k) (G.1 + d.1, G.2.1 + d.2.1, G.2.2 + d.2.2) := by
  unfold Deep3 Cross3 at *
  dsimp only at *
  omega

theorem deep3_succ {gz gy gx : ℕ} {k : ℤ} {G : C3} (h : Deep3 gz gy gx (k + 1, k + 1, k + 1) G) : Deep3 gz gy gx (k, k, k) G := by
  unfold Deep3 at *
  dsimp only at *
  omega

theorem deep3_dom {gz gy gx : ℕ} {k : ℤ} (hk : 0 ≤ k) {G : C3} (h : Deep3 gz gy gx (k, k, k) G) : Dom3 gz gy gx G := by
  unfold Deep3 Dom3 at *
  dsimp only at *
  omega

theorem refUpd3_deep {P : Params3} {K : Kern3} (hK : K.Local) (dt : ℝ) {F F' : Fields3} (h : AgreeDom3 P.gz P.gy P.gx F F') (j : Fin 3) {G : C3}
    (hG : Deep3 P.gz P.gy P.gx (1, 1, 1) G) :
    refUpd3 P K dt (crossF F.u F.om) F.om j G = refUpd3 P K dt (crossF F'.u F'.om) F'.om j G := by
  have hD := deep3_dom (by norm_num) hG
  unfold refUpd3
  rw [if_pos hD, if_pos hD, (h G hD j).1]
  congr 2
  apply hK.upd
  intro i d hd
  have := h _ (deep3_dom (le_refl 0) (deep3_cross (k := 0) (by simpa using hG) hd))
  unfold crossF
  match i with
  | 0 => simp [(this 0).1, (this 1).1, (this 2).1, (this 0).2, (this 1).2, (this 2).2]
  | 1 => simp [(this 0).1, (this 1).1, (this 2).1, (this 0).2, (this 1).2, (this 2).2]
  | 2 => simp [(this 0).1, (this 1).1, (this 2).1, (this 0).2, (this 1).2, (this 2).2]

theorem refDiff3_deep {P : Params3} {K : Kern3} (hK : K.Local) (dt : ℝ) {f f' : C3 → ℝ} (h : ∀ G, Deep3 P.gz P.gy P.gx (1, 1, 1) G → f G = f' G) {G : C3}
    (hG : Deep3 P.gz P.gy P.gx (2, 2, 2) G) : refDiff3 P K dt f G = refDiff3 P K dt f' G := by
  have e := h G (deep3_succ (k := 1) (by simpa using hG))
  unfold refDiff3
  split_ifs
  · rw [e]
    congr 1
    apply hK.diff
    intro i d hd
    exact h _ (deep3_cross (k := 1) (by simpa using hG) hd)
  · exact e

/-- the depth needed grows by one along the axis of the filter -/
theorem serialLap_deep {gz gy gx : ℕ} (a : Fin 3) {k : ℤ × ℤ × ℤ} {f f' : C3 → ℝ} (h : ∀ G, Deep3 gz gy gx k G → f G = f' G) {G : C3}
    (hG : Deep3 gz gy gx (k + axisStep a) G) : serialLap gz gy gx 1 false a f G = serialLap gz gy gx 1 false a f' G := by
  obtain ⟨k1, k2, k3⟩ := k
  obtain ⟨G1, G2, G3⟩ := G
  have e0 : f (G1, G2, G3) = f' (G1, G2, G3) := by
    apply h
    match a with
    | 0 => simp [axisStep, Deep3] at hG ⊢; omega
    | 1 => simp [axisStep, Deep3] at hG ⊢; omega
    | 2 => simp [axisStep, Deep3] at hG ⊢; omega
  have e1 : f ((G1, G2, G3) + axisStep a) = f' ((G1, G2, G3) + axisStep a) := by
    apply h
    match a with
    | 0 => simp [axisStep, Deep3] at hG ⊢; omega
    | 1 => simp [axisStep, Deep3] at hG ⊢; omega
    | 2 => simp [axisStep, Deep3] at hG ⊢; omega
  have e2 : f ((G1, G2, G3) - axisStep a) = f' ((G1, G2, G3) - axisStep a) := by
    apply h
    match a with
    | 0 => simp [axisStep, Deep3] at hG ⊢; omega
    | 1 => simp [axisStep, Deep3] at hG ⊢; omega
    | 2 => simp [axisStep, Deep3] at hG ⊢; omega
  unfold serialLap contIx3
  simp only [Bool.false_eq_true, if_false]
  rw [e0, e1, e2]

theorem deep3_anti {gz gy gx : ℕ} {k k' : ℤ × ℤ × ℤ} (h1 : k.1 ≤ k'.1) (h2 : k.2.1 ≤ k'.2.1) (h3 : k.2.2 ≤ k'.2.2) {G : C3} (h : Deep3 gz gy gx k' G) :
    Deep3 gz gy gx k G := by
  unfold Deep3 at *
  omega

/-- the multiplicative filter -/
theorem serialMultiplicative_deep {gz gy gx : ℕ} (p : ℕ) {k : ℤ} {f f' : C3 → ℝ} (h : ∀ G, Deep3 gz gy gx (k, k, k) G → f G = f' G) {G : C3}
    (hG : Deep3 gz gy gx (k + p, k + p, k + p) G) : serialMultiplicative gz gy gx 1 false p f G = serialMultiplicative gz gy gx 1 false p f' G := by
  have key : ∀ (n : ℕ) G, Deep3 gz gy gx (k + n, k + n, k + n) G →
      ((fun F => serialLap gz gy gx 1 false 2 (serialLap gz gy gx 1 false 1 (serialLap gz gy gx 1 false 0 F)))^[n] f) G =
      ((fun F => serialLap gz gy gx 1 false 2 (serialLap gz gy gx 1 false 1 (serialLap gz gy gx 1 false 0 F)))^[n] f') G := by
    intro n
    induction n with
    | zero => intro G hG; exact h G (by simpa using hG)
    | succ n ih =>
      intro G hG
      rw [Function.iterate_succ_apply', Function.iterate_succ_apply']
      refine serialLap_deep 2 (k := (k + n, k + n + 1, k + n + 1)) (fun G hG => ?_) (deep3_anti ?_ ?_ ?_ hG)
      · refine serialLap_deep 1 (k := (k + n, k + n, k + n + 1)) (fun G hG => ?_) (deep3_anti ?_ ?_ ?_ hG)
        · refine serialLap_deep 0 (k := (k + n, k + n, k + n)) (fun G hG => ih G hG) (deep3_anti ?_ ?_ ?_ hG) <;> simp [axisStep]
        all_goals simp [axisStep]
      all_goals simp [axisStep]; try omega
  unfold serialMultiplicative
  rw [h G (deep3_anti (by simp) (by simp) (by simp) hG), key p G hG]

/-- one direction of the convolution filter -/
theorem serialConvDir_deep {gz gy gx : ℕ} (p : ℕ) (a : Fin 3) {k : ℤ × ℤ × ℤ} {f f' : C3 → ℝ} (h : ∀ G, Deep3 gz gy gx k G → f G = f' G) {G : C3}
    (hG : Deep3 gz gy gx (k + p • axisStep a) G) : serialConvDir gz gy gx 1 false p a f G = serialConvDir gz gy gx 1 false p a f' G := by
  have key : ∀ (n : ℕ) G, Deep3 gz gy gx (k + n • axisStep a) G →
      ((serialLap gz gy gx 1 false a)^[n] f) G = ((serialLap gz gy gx 1 false a)^[n] f') G := by
    intro n
    induction n with
    | zero => intro G hG; exact h G (by simpa using hG)
    | succ n ih =>
      intro G hG
      rw [Function.iterate_succ_apply', Function.iterate_succ_apply']
      refine serialLap_deep a (fun G hG => ih G hG) ?_
      rw [succ_nsmul, ← add_assoc] at hG
      exact hG
  unfold serialConvDir
  have h0 : Deep3 gz gy gx k G := by
    refine deep3_anti ?_ ?_ ?_ hG
    all_goals
      match a with
      | 0 => simp [axisStep]
      | 1 => simp [axisStep]
      | 2 => simp [axisStep]
  rw [h G h0, key p G hG]

theorem serialConvolution_deep {gz gy gx : ℕ} (p : ℕ) {k : ℤ} {f f' : C3 → ℝ} (h : ∀ G, Deep3 gz gy gx (k, k, k) G → f G = f' G) {G : C3}
    (hG : Deep3 gz gy gx (k + p, k + p, k + p) G) : serialConvolution gz gy gx 1 false p f G = serialConvolution gz gy gx 1 false p f' G := by
  unfold serialConvolution
  refine serialConvDir_deep p 2 (k := (k, k + p, k + p)) (fun G hG => ?_) (deep3_anti ?_ ?_ ?_ hG)
  · refine serialConvDir_deep p 1 (k := (k, k, k + p)) (fun G hG => ?_) (deep3_anti ?_ ?_ ?_ hG)
    · refine serialConvDir_deep p 0 (k := (k, k, k)) h (deep3_anti ?_ ?_ ?_ hG) <;> simp [axisStep]
    all_goals simp [axisStep]
  all_goals simp [axisStep]

/-- Order of the filter, 0 if there is none. -/
def fltOrder : Option (ℕ × String) → ℕ
  | none => 0
  | some (o, _) => o

theorem refFilter3_deep {P : Params3} {k : ℤ} {f f' : C3 → ℝ} (h : ∀ G, Deep3 P.gz P.gy P.gx (k, k, k) G → f G = f' G) {G : C3}
    (hG : Deep3 P.gz P.gy P.gx (k + fltOrder P.flt, k + fltOrder P.flt, k + fltOrder P.flt) G) : refFilter3 P f G = refFilter3 P f' G := by
  unfold refFilter3
  rcases hf : P.flt with _ | ⟨o, ty⟩
  · rw [hf] at hG
    exact h G (by simpa [fltOrder] using hG)
  · rw [hf] at hG
    dsimp only
    split_ifs
    · exact serialMultiplicative_deep o h hG
    · exact serialConvolution_deep o h hG

theorem serialPen3_inner {gz gy gx w r : ℕ} (hw : r + 1 ≤ w) (hz : w + r ≤ gz) (hy : w + r ≤ gy) (hx : w + r ≤ gx) {f f' : C3 → ℝ}
    (h : ∀ G, Deep3 gz gy gx (r, r, r) G → f G = f' G) : serialPen3 false gz gy gx w f = serialPen3 false gz gy gx w f' := by
  have lx : ∀ z y : ℤ, r ≤ z → z + r < gz → r ≤ y → y + r < gy →
      serialPen1 false gx w (fun j => f (z, y, j)) = serialPen1 false gx w (fun j => f' (z, y, j)) := by
    intro z y h1 h2 h3 h4
    apply serialPen1_inner (by omega) (by omega)
    · exact h _ ⟨h1, h2, h3, h4, by dsimp only; omega, by dsimp only; omega⟩
    · intro j h5 h6
      exact h _ ⟨h1, h2, h3, h4, by dsimp only; omega, by dsimp only; omega⟩
  have ly : ∀ z x : ℤ, r ≤ z → z + r < gz →
      serialPen1 false gy w (fun y => serialPen1 false gx w (fun j => f (z, y, j)) x) = serialPen1 false gy w (fun y => serialPen1 false gx w (fun j => f' (z, y, j)) x) := by
    intro z x h1 h2
    apply serialPen1_inner (by omega) (by omega)
    · rw [lx _ _ h1 h2 (by omega) (by omega)]
    · intro j h5 h6
      rw [lx _ _ h1 h2 (by omega) (by omega)]
  unfold serialPen3
  dsimp only
  funext G
  rw [serialPen1_inner (U := fun z => serialPen1 false gy w (fun y => serialPen1 false gx w (fun j => f (z, y, j)) G.2.2) G.2.1)
    (U' := fun z => serialPen1 false gy w (fun y => serialPen1 false gx w (fun j => f' (z, y, j)) G.2.2) G.2.1) (by omega) (by omega)]
  · rw [ly _ _ (by omega) (by omega)]
  · intro j h3 h4
    rw [ly _ _ (by omega) (by omega)]

/-- Penalty zone wide enough for the grid and the filter. -/
structure Wide3 (P : Params3) : Prop where
  w : fltOrder P.flt + 3 ≤ P.w
  z : P.w + fltOrder P.flt + 2 ≤ P.gz
  y : P.w + fltOrder P.flt + 2 ≤ P.gy
  x : P.w + fltOrder P.flt + 2 ≤ P.gx

theorem refVort3_agree {P : Params3} (hW : Wide3 P) {K : Kern3} (hK : K.Local) (dt : ℝ) {F F' : Fields3} (h : AgreeDom3 P.gz P.gy P.gx F F') :
    refVort3 P K dt F = refVort3 P K dt F' := by
  obtain ⟨h1, h2, h3, h4⟩ := hW
  funext j
  unfold refVort3
  apply serialPen3_inner (r := 2 + fltOrder P.flt) (by omega) (by omega) (by omega) (by omega)
  intro G hG
  refine refFilter3_deep (k := 2) (fun G hG => refDiff3_deep hK dt (fun G hG => refUpd3_deep hK dt h j hG) hG) ?_
  push_cast at hG
  exact hG

theorem maxVel3_agree {gz gy gx : ℕ} {F F' : Fields3} (h : AgreeDom3 gz gy gx F F') : maxVel3 gz gy gx F.u = maxVel3 gz gy gx F'.u := by
  unfold maxVel3
  congr 1
  ext x
  constructor
  · rintro ⟨G, hG, rfl⟩; exact ⟨G, hG, by rw [(h G hG 0).2, (h G hG 1).2, (h G hG 2).2]⟩
  · rintro ⟨G, hG, rfl⟩; exact ⟨G, hG, by rw [(h G hG 0).2, (h G hG 1).2, (h G hG 2).2]⟩

theorem refDt3_agree {P : Params3} {F F' : Fields3} (h : AgreeDom3 P.gz P.gy P.gx F F') (cfl tol : ℝ) (r : DtRule) : refDt3 P cfl tol F r = refDt3 P cfl tol F' r := by
  cases r with
  | fixed dt => rfl
  | stable pre => unfold refDt3; rw [maxVel3_agree h]

/-- a whole run does not see what lies beyond the sides -/
theorem refRun3_agree {ft : String} (hns : isNS ft = true) {P : Params3} (hW : Wide3 P)
    {K : Kern3} (hK : K.Local) (cfl tol : ℝ) (ys : List StepSpec3) {F F' : Fields3} (h : AgreeDom3 P.gz P.gy P.gx F F') (t : ℝ) :
    AgreeDom3 P.gz P.gy P.gx (refRun3 ft P K cfl tol ys (F, t)).1 (refRun3 ft P K cfl tol ys (F', t)).1 ∧
    (refRun3 ft P K cfl tol ys (F, t)).2 = (refRun3 ft P K cfl tol ys (F', t)).2 := by
  induction ys generalizing F F' t with
  | nil => exact ⟨h, rfl⟩
  | cons y ys ih =>
    unfold refRun3
    dsimp only
    rw [refDt3_agree h]
    apply ih
    have ns : ∀ dt {F F' : Fields3}, AgreeDom3 P.gz P.gy P.gx F F' → AgreeDom3 P.gz P.gy P.gx (refNS3 P K dt y.fs F) (refNS3 P K dt y.fs F') := by
      intro dt F F' h G hG j
      unfold refNS3
      dsimp only
      rw [refVort3_agree hW hK dt h]
      exact ⟨rfl, rfl⟩
    unfold refStep3
    split_ifs with h1 h2 h3
    · exact ns _ h
    · apply ns
      intro G hG j
      refine ⟨?_, (h G hG j).2⟩
      dsimp only
      unfold refUpd3
      rw [(h G hG j).1]
    · rw [h3] at hns; cases hns
    · simp [isNS, h1, h2] at hns

theorem refRun3_append (ft : String) (P : Params3) (K : Kern3) (cfl tol : ℝ) (ys ys' : List StepSpec3) (s : Fields3 × ℝ) :
    refRun3 ft P K cfl tol (ys ++ ys') s = refRun3 ft P K cfl tol ys' (refRun3 ft P K cfl tol ys s) := by
  induction ys generalizing s with
  | nil => rfl
  | cons y ys ih =>
    rw [List.cons_append]
    conv_lhs => unfold refRun3
    conv_rhs => arg 6; unfold refRun3
    exact ih _

/-- passive flows keep everything beyond the sides, the velocity, and what is not transported -/
theorem refRun3_passive {ft : String} (hft : ft ∈ flowTypes3) (hps : isNS ft = false) {P : Params3} {K : Kern3} (cfl tol : ℝ) (ys : List StepSpec3) (F : Fields3) (t : ℝ) :
    (∀ G, ¬ (ft = "passive_scalar" ∧ Dom3 P.gz P.gy P.gx G) → (refRun3 ft P K cfl tol ys (F, t)).1.sc G = F.sc G) ∧
    (∀ j G, ¬ (ft ≠ "passive_scalar" ∧ Dom3 P.gz P.gy P.gx G) → (refRun3 ft P K cfl tol ys (F, t)).1.om j G = F.om j G) ∧
    (refRun3 ft P K cfl tol ys (F, t)).1.u = F.u := by
  induction ys generalizing F t with
  | nil => exact ⟨fun _ _ => rfl, fun _ _ _ => rfl, rfl⟩
  | cons y ys ih =>
    unfold refRun3
    dsimp only
    have n1 : ft ≠ "navier_stokes" := by rintro rfl; cases hps
    have n2 : ft ≠ "navier_stokes_with_forcing" := by rintro rfl; cases hps
    obtain ⟨h1, h2, h3⟩ := ih (refStep3 ft P K (refDt3 P cfl tol F y.rule) y.fs y.Φ F) (t + refDt3 P cfl tol F y.rule)
    simp only [flowTypes3, List.mem_cons, List.not_mem_nil, or_false] at hft
    have hc : ft = "passive_scalar" ∨ ft = "passive_vector" := by tauto
    rcases hc with hc | hc
    · have e : refStep3 ft P K (refDt3 P cfl tol F y.rule) y.fs y.Φ F = refScalar3 P K (refDt3 P cfl tol F y.rule) F := by
        unfold refStep3
        rw [if_neg n1, if_neg n2, if_neg (by rw [hc]; simp)]
      rw [e] at h1 h2 h3 ⊢
      refine ⟨fun G hG => ?_, fun j G hG => ?_, h3⟩
      · rw [h1 G hG]
        have hG' : ¬ Dom3 P.gz P.gy P.gx G := fun hD => hG ⟨hc, hD⟩
        unfold refScalar3 refDiff3 refAdv3
        dsimp only
        rw [if_neg (fun hc => hG' hc.1), if_neg hG']
      · rw [h2 j G hG]; rfl
    · have n4 : ft ≠ "passive_scalar" := by rw [hc]; simp
      have e : refStep3 ft P K (refDt3 P cfl tol F y.rule) y.fs y.Φ F = refVector3 P K (refDt3 P cfl tol F y.rule) F := by
        unfold refStep3
        rw [if_neg n1, if_neg n2, if_pos hc]
      rw [e] at h1 h2 h3 ⊢
      refine ⟨fun G hG => ?_, fun j G hG => ?_, h3⟩
      · rw [h1 G hG]; rfl
      · rw [h2 j G hG]
        have hG' : ¬ Dom3 P.gz P.gy P.gx G := fun hD => hG ⟨n4, hD⟩
        unfold refVector3 refDiff3 refAdv3
        dsimp only
        rw [if_neg (fun hc => hG' hc.1), if_neg hG']

/-! ## Saving and loading -/

variable {T T' : Cart3} {gz gy gx pz py px pz' py' px' : ℕ}

theorem simIO3_ok (ft : String) (g : ℕ) (origin dx : List ℚ) (gs : List ℕ) (S : Sim3 T) : ∃ io, simIO3 ft g origin dx gs S = (io, .ok ()) := by
  unfold simIO3 simSaved3 defineEulerianGrid
  split_ifs <;>
  · unfold addEulerian addEulerian addEulerian addEulField
    simp [simHeap3, ioGeo3]

theorem ofNat3 (j : Fin 3) : Fin.ofNat 3 (j : ℕ) = j := by
  match j with
  | 0 => rfl
  | 1 => rfl
  | 2 => rfl

/-- a checkpoint written by one decomposition and loaded by another: the inner cells get the saved fields, the rest stays -/
theorem saveload3 (hT : mkCart3 gz gy gx pz py px false = .ok T) (hT' : mkCart3 gz gy gx pz' py' px' false = .ok T') (ft : String) (g : ℕ) (origin dx : List ℚ)
    {order : String → List C3} (ho : ∀ s c, c ∈ order s ↔ Valid3 T c) {F : Fields3} {S : Sim3 T}
    (hsc : HoldsX3 T g F.sc S.sc) (hom : ∀ j, HoldsX3 T g (F.om j) (S.om j)) (hu : ∀ j, HoldsX3 T g (F.u j) (S.vel j)) (S' : Sim3 T') :
    ∃ file S2, saveSim3 ft g origin dx [gz, gy, gx] order S = .ok file ∧ loadSim3 ft g origin dx [gz, gy, gx] file S' = .ok S2 ∧ S2.time = S.time ∧
      S2.solver = S'.solver ∧
      ∀ c p, Valid3 T' c →
        (ft = "passive_scalar" ∧ Inner3 T' g p → S2.sc c p = F.sc (globalIx3 T' g c p)) ∧
        (¬ (ft = "passive_scalar" ∧ Inner3 T' g p) → S2.sc c p = S'.sc c p) ∧
        (ft ≠ "passive_scalar" ∧ Inner3 T' g p → ∀ j, S2.om j c p = F.om j (globalIx3 T' g c p)) ∧
        (¬ (ft ≠ "passive_scalar" ∧ Inner3 T' g p) → ∀ j, S2.om j c p = S'.om j c p) ∧
        (Inner3 T' g p → ∀ j, S2.vel j c p = F.u j (globalIx3 T' g c p)) ∧ (¬ Inner3 T' g p → ∀ j, S2.vel j c p = S'.vel j c p) := by
  obtain ⟨io, hio⟩ := simIO3_ok ft g origin dx [gz, gy, gx] S
  obtain ⟨io', hio'⟩ := simIO3_ok ft g origin dx [gz, gy, gx] S'
  obtain ⟨file, f1, h'', f2, -, f3, f4⟩ := eul_roundtrip3 hT hT' g g (origin := origin) (dx := dx) (fields := simSaved3 ft)
    (fields' := simSaved3 ft) (by unfold simSaved3; split_ifs <;> decide) (by unfold simSaved3; split_ifs <;> decide) (by unfold simSaved3; split_ifs <;> decide)
    (h := simHeap3 g S) (h' := simHeap3 g S') hio hio'
    (by
      intro x hx
      refine ⟨x, hx, rfl, ?_⟩
      have : x = ("scalar", 2) ∨ x = ("vorticity", 0) ∨ x = ("velocity", 1) := by
        unfold simSaved3 at hx
        split_ifs at hx <;> simp at hx <;> tauto
      rcases this with rfl | rfl | rfl <;> simp [simHeap3])
    (fun s k => if s = "scalar" then F.sc else if s = "vorticity" then F.om (Fin.ofNat 3 k) else F.u (Fin.ofNat 3 k))
    (by
      intro x hx k hk c p hc hp
      have : x = ("scalar", 2) ∨ x = ("vorticity", 0) ∨ x = ("velocity", 1) := by
        unfold simSaved3 at hx
        split_ifs at hx <;> simp at hx <;> tauto
      rcases this with rfl | rfl | rfl
      · exact holdsX3_holds hsc c p hc hp
      · exact holdsX3_holds (hom _) c p hc hp
      · exact holdsX3_holds (hu _) c p hc hp) ho S.time
  have n0 : ncomp (ioGeo3 T' g) ((simHeap3 g S').eul 0) = 3 := by simp [ncomp, simHeap3, ioGeo3]
  have n1 : ncomp (ioGeo3 T' g) ((simHeap3 g S').eul 1) = 3 := by simp [ncomp, simHeap3, ioGeo3]
  have n2 : ncomp (ioGeo3 T' g) ((simHeap3 g S').eul 2) = 1 := by simp [ncomp, simHeap3, ioGeo3]
  refine ⟨file, { S' with
        sc := (h''.eul 2).comp 0
        om := fun j => (h''.eul 0).comp j
        vel := fun j => (h''.eul 1).comp j
        time := S.time }, ?_, ?_, rfl, rfl, ?_⟩
  · unfold saveSim3; rw [hio]; exact f1
  · unfold loadSim3; rw [hio']; dsimp only; rw [f2]
  · intro c p hc
    have hvel : ("velocity", 1) ∈ simSaved3 ft := by unfold simSaved3; split_ifs <;> simp
    have av := fun j : Fin 3 => f4 ("velocity", 1) hvel j (by rw [n1]; exact j.2) c p hc
    have ev : ∀ j : Fin 3, ((simHeap3 g S').eul 1).comp j = S'.vel j := by
      intro j; change S'.vel (Fin.ofNat 3 j) = _; rw [ofNat3]
    have eo : ∀ j : Fin 3, ((simHeap3 g S').eul 0).comp j = S'.om j := by
      intro j; change S'.om (Fin.ofNat 3 j) = _; rw [ofNat3]
    have es : ((simHeap3 g S').eul 2).comp 0 = S'.sc := rfl
    by_cases hf : ft = "passive_scalar"
    · have hs : ("scalar", 2) ∈ simSaved3 ft := by unfold simSaved3; rw [if_pos hf]; simp
      have as := f4 ("scalar", 2) hs 0 (by rw [n2]; norm_num) c p hc
      have e0 : h''.eul 0 = (simHeap3 g S').eul 0 := f3 0 (by unfold simSaved3; rw [if_pos hf]; decide)
      refine ⟨fun h => as.1 h.2, fun h => ?_, fun h => absurd hf h.1, fun _ j => ?_, fun h j => ?_, fun h j => ?_⟩
      · exact (as.2 (fun hi => h ⟨hf, hi⟩)).trans (by rw [es])
      · dsimp only; rw [e0, eo]
      · refine ((av j).1 h).trans ?_
        rw [if_neg (by decide), if_neg (by decide), ofNat3]
      · exact ((av j).2 h).trans (by rw [ev])
    · have hs : ("vorticity", 0) ∈ simSaved3 ft := by unfold simSaved3; rw [if_neg hf]; simp
      have as := fun j : Fin 3 => f4 ("vorticity", 0) hs j (by rw [n0]; exact j.2) c p hc
      have e0 : h''.eul 2 = (simHeap3 g S').eul 2 := f3 2 (by unfold simSaved3; rw [if_neg hf]; decide)
      refine ⟨fun h => absurd h.1 hf, fun h => ?_, fun h j => ?_, fun h j => ?_, fun h j => ?_, fun h j => ?_⟩
      · dsimp only; rw [e0, es]
      · refine ((as j).1 h.2).trans ?_
        rw [if_neg (by decide), if_pos rfl, ofNat3]
      · exact ((as j).2 (fun hi => h ⟨hf, hi⟩)).trans (by rw [eo])
      · refine ((av j).1 h).trans ?_
        rw [if_neg (by decide), if_neg (by decide), ofNat3]
      · exact ((av j).2 h).trans (by rw [ev])

variable [NeZero T.gz] [NeZero T.gy] [NeZero T.gx] [NeZero T'.gz] [NeZero T'.gy] [NeZero T'.gx]

/-- after loading into a newly set up simulator the ranks hold the saved fields in the domain, and the new simulator's own otherwise -/
theorem loaded3_holds (hT : mkCart3 gz gy gx pz py px false = .ok T) (hT' : mkCart3 gz gy gx pz' py' px' false = .ok T') (ft : String) (origin dx : List ℚ)
    {order : String → List C3} (ho : ∀ s c, c ∈ order s ↔ Valid3 T c) {C C' : Cfg3} (hg : C'.g = C.g) {F : Fields3} {S : Sim3 T} (h : SimHolds3 C F S)
    {F' : Fields3} {S' : Sim3 T'} (h' : SimHolds3 C' F' S') :
    ∃ file S2, saveSim3 ft C.g origin dx [gz, gy, gx] order S = .ok file ∧ loadSim3 ft C.g origin dx [gz, gy, gx] file S' = .ok S2 ∧ S2.time = S.time ∧
      SimHolds3 C' (overlay3 ft gz gy gx F F') S2 := by
  obtain ⟨file, S2, f1, f2, f3, f4, f5⟩ := saveload3 hT hT' ft C.g origin dx ho h.sc h.om h.u S'
  rw [← hg] at f5
  have dom : ∀ c p, Valid3 T' c → Inner3 T' C'.g p → Dom3 gz gy gx (globalIx3 T' C'.g c p) := fun c p hc hi => (dom3_iff hT' _).2 (inner_inDomain3 hT' hc hi)
  have out : ∀ c p, FaceOut3 T' C'.g c p → ¬ Dom3 gz gy gx (globalIx3 T' C'.g c p) := fun c p hp hD => hp.2 ((dom3_iff hT' _).1 hD)
  refine ⟨file, S2, f1, f2, f3, ⟨?_, ?_, ?_, ?_⟩⟩
  · intro c p hc ha hp
    unfold overlay3
    dsimp only
    by_cases hi : ft = "passive_scalar" ∧ Inner3 T' C'.g p
    · rw [(f5 c p hc).1 hi, if_pos ⟨hi.1, dom c p hc hi.2⟩]
    · rw [(f5 c p hc).2.1 hi, h'.sc c p hc ha hp, if_neg]
      rintro ⟨h1, h2⟩
      rcases hp with hp | hp
      · exact hi ⟨h1, hp⟩
      · exact out c p hp h2
  · intro j c p hc ha hp
    unfold overlay3
    dsimp only
    by_cases hi : ft ≠ "passive_scalar" ∧ Inner3 T' C'.g p
    · rw [(f5 c p hc).2.2.1 hi, if_pos ⟨hi.1, dom c p hc hi.2⟩]
    · rw [(f5 c p hc).2.2.2.1 hi, h'.om j c p hc ha hp, if_neg]
      rintro ⟨h1, h2⟩
      rcases hp with hp | hp
      · exact hi ⟨h1, hp⟩
      · exact out c p hp h2
  · intro j c p hc ha hp
    unfold overlay3
    dsimp only
    by_cases hi : Inner3 T' C'.g p
    · rw [(f5 c p hc).2.2.2.2.1 hi, if_pos (dom c p hc hi)]
    · rw [(f5 c p hc).2.2.2.2.2 hi, h'.u j c p hc ha hp, if_neg]
      intro h2
      rcases hp with hp | hp
      · exact hi hp
      · exact out c p hp h2
  · rw [f4]; exact h'.green

/-! ## C75 -/

theorem restart3_core {a a' : SimArgs3} (hsame : a' = { a with pz := a'.pz, py := a'.py, px := a'.px }) (h : Fit3 a T) (h' : Fit3 a' T')
    {xr : ℝ} (hxr : 0 < xr) {nu : ℝ} (hnu : 0 ≤ nu) {cfl : ℝ} (hcfl : 0 ≤ cfl) {tol : ℝ} (htol : 0 < tol)
    {K : Kern3} (hK : K.Local) (hK0 : ∀ r, K.upd r (fun _ _ => 0) = 0) (time time' : ℝ) (dbl0 dbl0' : World C3 C3 ℝ) (conv0 : Dbl3 T → ℂ) (conv0' : Dbl3 T' → ℂ)
    (sc sc' : ℝ → ℝ → ℝ → ℝ) (om u om' u' : Fin 3 → ℝ → ℝ → ℝ → ℝ) (origin dx : List ℚ) {order : String → List C3} (ho : ∀ s c, c ∈ order s ↔ Valid3 T c)
    {xs₁ xs₂ xs₂' : List StepIn3} {ys₁ ys₂ : List StepSpec3}
    (h1 : List.Forall₂ (Means3 a.gz a.gy a.gx T (simCfg3 a xr nu cfl)) xs₁ ys₁) (h2 : List.Forall₂ (Means3 a.gz a.gy a.gx T (simCfg3 a xr nu cfl)) xs₂ ys₂)
    (h2' : List.Forall₂ (Means3 a'.gz a'.gy a'.gx T' (simCfg3 a' xr nu cfl)) xs₂' ys₂) :
    let start := initFrom3 T a.g xr time dbl0 conv0 sc om u
    let ref := refRun3 a.flowType ⟨a.gz, a.gy, a.gx, xr, nu, widthOf a.width, a.freeStream, filterNums (filterInUse a)⟩ K cfl tol
    let r1 := ref ys₁ (fieldsFrom3 (xr / a.gx) sc om u, time)
    let r2 := ref ys₂ (overlay3 a.flowType a.gz a.gy a.gx r1.1 (fieldsFrom3 (xr / a.gx) sc' om' u'), r1.2)
    let out := simLoop3 (simCfg3 a xr nu cfl) K tol (xs₁ ++ xs₂) start
    ∃ file S, saveSim3 a.flowType a.g origin dx [a.gz, a.gy, a.gx] order (simLoop3 (simCfg3 a xr nu cfl) K tol xs₁ start).1 = .ok file ∧
      loadSim3 a.flowType a.g origin dx [a.gz, a.gy, a.gx] file (initFrom3 T' a.g xr time' dbl0' conv0' sc' om' u') = .ok S ∧
      let out' := simLoop3 (simCfg3 a' xr nu cfl) K tol xs₂' S
      out.2 = none ∧ out'.2 = none ∧ out.1.time = (ref ys₂ r1).2 ∧ out'.1.time = r2.2 ∧
      (∀ c p, Valid3 T c → Inner3 T a.g p → out.1.sc c p = (ref ys₂ r1).1.sc (globalIx3 T a.g c p) ∧
        ∀ j, out.1.om j c p = (ref ys₂ r1).1.om j (globalIx3 T a.g c p) ∧ out.1.vel j c p = (ref ys₂ r1).1.u j (globalIx3 T a.g c p)) ∧
      (∀ c p, Valid3 T' c → Inner3 T' a.g p → out'.1.sc c p = r2.1.sc (globalIx3 T' a.g c p) ∧
        ∀ j, out'.1.om j c p = r2.1.om j (globalIx3 T' a.g c p) ∧ out'.1.vel j c p = r2.1.u j (globalIx3 T' a.g c p)) := by
  obtain ⟨hT, hft⟩ := simCheck3_cart h.built
  obtain ⟨hT', hft'⟩ := simCheck3_cart h'.built
  have eg : a'.gz = a.gz ∧ a'.gy = a.gy ∧ a'.gx = a.gx ∧ a'.g = a.g := by rw [hsame]; exact ⟨rfl, rfl, rfl, rfl⟩
  have eP : (simCfg3 a' xr nu cfl).params a'.gz a'.gy a'.gx = (simCfg3 a xr nu cfl).params a.gz a.gy a.gx ∧ (simCfg3 a' xr nu cfl).flowType = a.flowType := by
    rw [hsame]; exact ⟨rfl, rfl⟩
  have hT'' : mkCart3 a.gz a.gy a.gx a'.pz a'.py a'.px false = .ok T' := by rw [← eg.1, ← eg.2.1, ← eg.2.2.1]; exact hT'
  have hinit := initFrom3_holds hT (simCfg3 a xr nu cfl) time dbl0 conv0 sc om u
  have hinit' := initFrom3_holds hT'' (simCfg3 a' xr nu cfl) time' dbl0' conv0' sc' om' u'
  have ps : ∀ {a : SimArgs3} {T : Cart3}, Fit3 a T → isNS (simCfg3 a xr nu cfl).flowType = false → GoodPassive3 T (simCfg3 a xr nu cfl) :=
    fun h hn => ⟨(h.passive hn).1, (h.passive hn).2.1, (h.passive hn).2.2.1, (h.passive hn).2.2.2⟩
  obtain ⟨-, r2, r3⟩ := simLoop3_holds hT (fun hn => h.good xr nu cfl hn) (ps h) hxr hft hcfl hnu htol hK hK0 h1 hinit
  obtain ⟨q1, q2, q3⟩ := simLoop3_holds hT (fun hn => h.good xr nu cfl hn) (ps h) hxr hft hcfl hnu htol hK hK0 (List.rel_append h1 h2) hinit
  obtain ⟨file, S, f1, f2, f3, f4⟩ := loaded3_holds hT hT'' a.flowType origin dx ho (C := simCfg3 a xr nu cfl) (C' := simCfg3 a' xr nu cfl) eg.2.2.2 r2 hinit'
  obtain ⟨s1, s2, s3⟩ := simLoop3_holds hT' (fun hn => h'.good xr nu cfl hn) (ps h') hxr hft' hcfl hnu htol hK hK0 h2' f4
  intro start ref r1 r2' out
  rw [eP.1, eP.2, f3, r3] at s2 s3
  rw [refRun3_append] at q2 q3
  have f2' : loadSim3 a.flowType a.g origin dx [a.gz, a.gy, a.gx] file (initFrom3 T' a.g xr time' dbl0' conv0' sc' om' u') = .ok S := by
    have e : initFrom3 T' a'.g xr time' dbl0' conv0' sc' om' u' = initFrom3 T' a.g xr time' dbl0' conv0' sc' om' u' := by rw [eg.2.2.2]
    rw [← e]
    exact f2
  refine ⟨file, S, f1, f2', ?_⟩
  intro out'
  refine ⟨q1, s1, q3, s3, ?_, ?_⟩
  · intro c p hc hp
    exact ⟨q2.sc c p hc (inArr_of_inner3 hp) (Or.inl hp), fun j => ⟨q2.om j c p hc (inArr_of_inner3 hp) (Or.inl hp), q2.u j c p hc (inArr_of_inner3 hp) (Or.inl hp)⟩⟩
  · rw [← eg.2.2.2]
    intro c p hc hp
    exact ⟨s2.sc c p hc (inArr_of_inner3 hp) (Or.inl hp), fun j => ⟨s2.om j c p hc (inArr_of_inner3 hp) (Or.inl hp), s2.u j c p hc (inArr_of_inner3 hp) (Or.inl hp)⟩⟩

/-- C75, flows with vorticity: penalty zone of at least 3 cells plus the order of the filter.  A run of `xs₁` is checkpointed; a newly constructed simulator on any
decomposition of the same grid, its fields set up in any way, loads the file and is driven by `xs₂'`.  Nothing raises, and at the end vorticity and velocity in every inner
cell and the time are those of the run of `xs₁` and then `xs₂` without interruption. -/
theorem restart3 {a a' : SimArgs3} (hsame : a' = { a with pz := a'.pz, py := a'.py, px := a'.px }) (h : Fit3 a T) (h' : Fit3 a' T') (hns : isNS a.flowType = true)
    {w o : ℕ} (hw : widthOf a.width = w) (ho' : fltOrder (filterNums (filterInUse a)) = o) (how : o + 3 ≤ w) (hwz : w + o + 2 ≤ a.gz) (hwy : w + o + 2 ≤ a.gy)
    (hwx : w + o + 2 ≤ a.gx)
    {xr : ℝ} (hxr : 0 < xr) {nu : ℝ} (hnu : 0 ≤ nu) {cfl : ℝ} (hcfl : 0 ≤ cfl) {tol : ℝ} (htol : 0 < tol)
    {K : Kern3} (hK : K.Local) (hK0 : ∀ r, K.upd r (fun _ _ => 0) = 0) (time time' : ℝ) (dbl0 dbl0' : World C3 C3 ℝ) (conv0 : Dbl3 T → ℂ) (conv0' : Dbl3 T' → ℂ)
    (sc sc' : ℝ → ℝ → ℝ → ℝ) (om u om' u' : Fin 3 → ℝ → ℝ → ℝ → ℝ) (origin dx : List ℚ) {order : String → List C3} (ho : ∀ s c, c ∈ order s ↔ Valid3 T c)
    {xs₁ xs₂ xs₂' : List StepIn3} {ys₁ ys₂ : List StepSpec3}
    (h1 : List.Forall₂ (Means3 a.gz a.gy a.gx T (simCfg3 a xr nu cfl)) xs₁ ys₁) (h2 : List.Forall₂ (Means3 a.gz a.gy a.gx T (simCfg3 a xr nu cfl)) xs₂ ys₂)
    (h2' : List.Forall₂ (Means3 a'.gz a'.gy a'.gx T' (simCfg3 a' xr nu cfl)) xs₂' ys₂) :
    let start := initFrom3 T a.g xr time dbl0 conv0 sc om u
    let out := simLoop3 (simCfg3 a xr nu cfl) K tol (xs₁ ++ xs₂) start
    ∃ file S, saveSim3 a.flowType a.g origin dx [a.gz, a.gy, a.gx] order (simLoop3 (simCfg3 a xr nu cfl) K tol xs₁ start).1 = .ok file ∧
      loadSim3 a.flowType a.g origin dx [a.gz, a.gy, a.gx] file (initFrom3 T' a.g xr time' dbl0' conv0' sc' om' u') = .ok S ∧
      let out' := simLoop3 (simCfg3 a' xr nu cfl) K tol xs₂' S
      out.2 = none ∧ out'.2 = none ∧ out'.1.time = out.1.time ∧
      ∀ c p c' p', Valid3 T c → Inner3 T a.g p → Valid3 T' c' → Inner3 T' a.g p' → globalIx3 T a.g c p = globalIx3 T' a.g c' p' →
        ∀ j, out'.1.om j c' p' = out.1.om j c p ∧ out'.1.vel j c' p' = out.1.vel j c p := by
  obtain ⟨hT, -⟩ := simCheck3_cart h.built
  obtain ⟨file, S, f1, f2, f3, f4, f5, f6, f7, f8⟩ :=
    restart3_core hsame h h' hxr hnu hcfl htol hK hK0 time time' dbl0 dbl0' conv0 conv0' sc sc' om u om' u' origin dx ho h1 h2 h2'
  have n4 : a.flowType ≠ "passive_scalar" := by intro e; rw [e] at hns; cases hns
  obtain ⟨g1, g2⟩ := refRun3_agree (P := ⟨a.gz, a.gy, a.gx, xr, nu, widthOf a.width, a.freeStream, filterNums (filterInUse a)⟩) hns
    ⟨by rw [ho', hw]; exact how, by rw [ho', hw]; exact hwz, by rw [ho', hw]; exact hwy, by rw [ho', hw]; exact hwx⟩ hK cfl tol ys₂
    (overlay3_agree n4 a.gz a.gy a.gx (refRun3 a.flowType ⟨a.gz, a.gy, a.gx, xr, nu, widthOf a.width, a.freeStream, filterNums (filterInUse a)⟩ K cfl tol ys₁
      (fieldsFrom3 (xr / a.gx) sc om u, time)).1 (fieldsFrom3 (xr / a.gx) sc' om' u')) (refRun3 a.flowType
      ⟨a.gz, a.gy, a.gx, xr, nu, widthOf a.width, a.freeStream, filterNums (filterInUse a)⟩ K cfl tol ys₁ (fieldsFrom3 (xr / a.gx) sc om u, time)).2
  intro start out
  refine ⟨file, S, f1, f2, ?_⟩
  intro out'
  refine ⟨f3, f4, (f6.trans g2).trans f5.symm, ?_⟩
  intro c p c' p' hc hp hc' hp' hG j
  have hD : Dom3 a.gz a.gy a.gx (globalIx3 T a.g c p) := (dom3_iff hT _).2 (inner_inDomain3 hT hc hp)
  obtain ⟨k1, k2⟩ := g1 _ hD j
  obtain ⟨e1, e2⟩ := (f8 c' p' hc' hp').2 j
  obtain ⟨d1, d2⟩ := (f7 c p hc hp).2 j
  rw [← hG] at e1 e2
  exact ⟨(e1.trans k1).trans d1.symm, (e2.trans k2).trans d2.symm⟩

theorem fields3_ext {F F' : Fields3} (h1 : F.sc = F'.sc) (h2 : F.om = F'.om) (h3 : F.u = F'.u) : F = F' := by
  cases F
  cases F'
  cases h1
  cases h2
  cases h3
  rfl

/-- C75, passive flows.  A run of `xs₁` is checkpointed; a newly constructed simulator on any decomposition of the same grid, its fields set up as for the first run, loads
the file and is driven by `xs₂'`.  Nothing raises, and at the end every inner cell and the time are those of the run of `xs₁` and then `xs₂` without interruption. -/
theorem restart3_passive {a a' : SimArgs3} (hsame : a' = { a with pz := a'.pz, py := a'.py, px := a'.px }) (h : Fit3 a T) (h' : Fit3 a' T') (hps : isNS a.flowType = false)
    {xr : ℝ} (hxr : 0 < xr) {nu : ℝ} (hnu : 0 ≤ nu) {cfl : ℝ} (hcfl : 0 ≤ cfl) {tol : ℝ} (htol : 0 < tol)
    {K : Kern3} (hK : K.Local) (hK0 : ∀ r, K.upd r (fun _ _ => 0) = 0) (time time' : ℝ) (dbl0 dbl0' : World C3 C3 ℝ) (conv0 : Dbl3 T → ℂ) (conv0' : Dbl3 T' → ℂ)
    (sc : ℝ → ℝ → ℝ → ℝ) (om u : Fin 3 → ℝ → ℝ → ℝ → ℝ) (origin dx : List ℚ) {order : String → List C3} (ho : ∀ s c, c ∈ order s ↔ Valid3 T c)
    {xs₁ xs₂ xs₂' : List StepIn3} {ys₁ ys₂ : List StepSpec3}
    (h1 : List.Forall₂ (Means3 a.gz a.gy a.gx T (simCfg3 a xr nu cfl)) xs₁ ys₁) (h2 : List.Forall₂ (Means3 a.gz a.gy a.gx T (simCfg3 a xr nu cfl)) xs₂ ys₂)
    (h2' : List.Forall₂ (Means3 a'.gz a'.gy a'.gx T' (simCfg3 a' xr nu cfl)) xs₂' ys₂) :
    let start := initFrom3 T a.g xr time dbl0 conv0 sc om u
    let out := simLoop3 (simCfg3 a xr nu cfl) K tol (xs₁ ++ xs₂) start
    ∃ file S, saveSim3 a.flowType a.g origin dx [a.gz, a.gy, a.gx] order (simLoop3 (simCfg3 a xr nu cfl) K tol xs₁ start).1 = .ok file ∧
      loadSim3 a.flowType a.g origin dx [a.gz, a.gy, a.gx] file (initFrom3 T' a.g xr time' dbl0' conv0' sc om u) = .ok S ∧
      let out' := simLoop3 (simCfg3 a' xr nu cfl) K tol xs₂' S
      out.2 = none ∧ out'.2 = none ∧ out'.1.time = out.1.time ∧
      ∀ c p c' p', Valid3 T c → Inner3 T a.g p → Valid3 T' c' → Inner3 T' a.g p' → globalIx3 T a.g c p = globalIx3 T' a.g c' p' →
        out'.1.sc c' p' = out.1.sc c p ∧ ∀ j, out'.1.om j c' p' = out.1.om j c p ∧ out'.1.vel j c' p' = out.1.vel j c p := by
  obtain ⟨-, hft⟩ := simCheck3_cart h.built
  have hcore := restart3_core hsame h h' hxr hnu hcfl htol hK hK0 time time' dbl0 dbl0' conv0 conv0' sc sc om u om u origin dx ho h1 h2 h2'
  obtain ⟨k1, k2, k3⟩ := refRun3_passive hft hps (P := ⟨a.gz, a.gy, a.gx, xr, nu, widthOf a.width, a.freeStream, filterNums (filterInUse a)⟩) (K := K) cfl tol ys₁
    (fieldsFrom3 (xr / a.gx) sc om u) time
  generalize hr1 : refRun3 a.flowType ⟨a.gz, a.gy, a.gx, xr, nu, widthOf a.width, a.freeStream, filterNums (filterInUse a)⟩ K cfl tol ys₁
    (fieldsFrom3 (xr / a.gx) sc om u, time) = r1 at k1 k2 k3
  have e : overlay3 a.flowType a.gz a.gy a.gx r1.1 (fieldsFrom3 (xr / a.gx) sc om u) = r1.1 := by
    have e1 : (overlay3 a.flowType a.gz a.gy a.gx r1.1 (fieldsFrom3 (xr / a.gx) sc om u)).sc = r1.1.sc := by
      funext G
      unfold overlay3
      dsimp only
      split_ifs with hG
      · rfl
      · exact (k1 G hG).symm
    have e2 : (overlay3 a.flowType a.gz a.gy a.gx r1.1 (fieldsFrom3 (xr / a.gx) sc om u)).om = r1.1.om := by
      funext j G
      unfold overlay3
      dsimp only
      split_ifs with hG
      · rfl
      · exact (k2 j G hG).symm
    have e3 : (overlay3 a.flowType a.gz a.gy a.gx r1.1 (fieldsFrom3 (xr / a.gx) sc om u)).u = r1.1.u := by
      funext j G
      unfold overlay3
      dsimp only
      rw [k3]
      split_ifs <;> rfl
    exact fields3_ext e1 e2 e3
  subst hr1
  have e' := congrArg (fun F => refRun3 a.flowType ⟨a.gz, a.gy, a.gx, xr, nu, widthOf a.width, a.freeStream, filterNums (filterInUse a)⟩ K cfl tol ys₂ (F, (refRun3
    a.flowType ⟨a.gz, a.gy, a.gx, xr, nu, widthOf a.width, a.freeStream, filterNums (filterInUse a)⟩ K cfl tol ys₁ (fieldsFrom3 (xr / a.gx) sc om u, time)).2)) e
  obtain ⟨file, S, f1, f2, f3, f4, f5, f6, f7, f8⟩ := hcore
  intro start out
  refine ⟨file, S, f1, f2, ?_⟩
  intro out'
  refine ⟨f3, f4, (f6.trans (congrArg Prod.snd e')).trans f5.symm, ?_⟩
  intro c p c' p' hc hp hc' hp' hG
  obtain ⟨e0, e1⟩ := f8 c' p' hc' hp'
  obtain ⟨d0, d1⟩ := f7 c p hc hp
  rw [← hG] at e0 e1
  exact ⟨(e0.trans (congrArg (fun s => s.1.sc (globalIx3 T a.g c p)) e')).trans d0.symm,
    fun j => ⟨((e1 j).1.trans (congrArg (fun s => s.1.om j (globalIx3 T a.g c p)) e')).trans (d1 j).1.symm,
      ((e1 j).2.trans (congrArg (fun s => s.1.u j (globalIx3 T a.g c p)) e')).trans (d1 j).2.symm⟩⟩

/-! ## The hypotheses can be met -/

/-- a 16 × 16 × 16 grid with a filter of order 5 and a penalty zone of 8 cells, on 2 × 1 × 1 ranks, restarted on a single rank -/
example : Fit3 ⟨16, 16, 16, 2, 1, 1, "navier_stokes_with_forcing", true, some (.int 5, "convolution"), true, 2, .int 8⟩ ⟨16, 16, 16, 2, 1, 1, 8, 16, 16, false⟩ ∧
    Fit3 ⟨16, 16, 16, 1, 1, 1, "navier_stokes_with_forcing", true, some (.int 5, "convolution"), true, 2, .int 8⟩ ⟨16, 16, 16, 1, 1, 1, 16, 16, 16, false⟩ ∧
    fltOrder (filterNums (filterInUse ⟨16, 16, 16, 2, 1, 1, "navier_stokes_with_forcing", true, some (.int 5, "convolution"), true, 2, .int 8⟩)) = 5 ∧
    5 + 3 ≤ 8 ∧ 8 + 5 + 2 ≤ 16 := by
  refine ⟨⟨by decide, (by intro h; cases h), fun _ => ⟨by decide, by decide, ⟨8, rfl, by decide, by decide, by decide, by decide⟩, by unfold EvenTopo3; decide, ?_⟩⟩,
    ⟨by decide, (by intro h; cases h), fun _ => ⟨by decide, by decide, ⟨8, rfl, by decide, by decide, by decide, by decide⟩, by unfold EvenTopo3; decide, ?_⟩⟩,
    by decide, by decide, by decide⟩
  all_goals
    intro o ty hf
    simp only [filterInUse, if_true, Option.getD_some, Option.some.injEq, Prod.mk.injEq, PyNum.int.injEq] at hf
    omega

end Sopht
