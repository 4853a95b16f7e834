import Verif.Sim2DRun
import Verif.IOProps
import Verif.WeightsProps

/-! # Restarting a 2D simulation from a checkpoint (C75)

The drivers save the vorticity and the velocity with `MPIIO.save(time=flow_sim.time)`, and restart by constructing a new simulator, setting its fields up as for a first run,
and calling `flow_sim.time = io.load(…)` (examples/3d_examples/FlowPastFreelyRotatingRodCase/flow_past_freely_rotating_rod_case.py:121, 184-197, 220, 267-270).
A checkpoint holds the inner cells only.  The ghost cells beyond the sides of the domain are not in it although the next step reads them: advection reads two cells
beyond the side, and `penalise_field_towards_boundary` writes them in every step.  The restarted run is the uninterrupted one when the penalty zone is at least 4 cells
wide, on any decomposition; with the default width of 2 it is not. -/

namespace Sopht

set_option linter.unusedSimpArgs false

/-! ## Model: the arrays of a simulator as registered for checkpointing -/

section
variable {T : Cart2}

/-- The arrays of a simulator: reference 0 is `vorticity_field` (or `primary_scalar_field`), reference 1 `velocity_field` (F2D.py:147-164), ghost cells included. -/
noncomputable def simHeap2 (g : ℕ) (S : Sim2 T) : Heap C2 C2 ℝ where
  eul r := if r = 0 then ⟨[T.ny + 2 * g, T.nx + 2 * g], fun _ => S.prim⟩ else ⟨[2, T.ny + 2 * g, T.nx + 2 * g], fun k => if k = 0 then S.vel 0 else S.vel 1⟩
  lag _ := ⟨[], fun _ => 0⟩

/-- `io.define_eulerian_grid(…)`, `io.add_as_eulerian_fields_for_io(vorticity=…, velocity=…)` (flow_past_freely_rotating_rod_case.py:187-197). -/
noncomputable def simIO2 (g : ℕ) (origin dx : List ℚ) (gs : List ℕ) (S : Sim2 T) : MPIIO × Except PyErr Unit :=
  addEulerian (ioGeo2 T g) (simHeap2 g S) (defineEulerianGrid {} origin dx gs) [("vorticity", 0), ("velocity", 1)]

/-- `io.save(…, time=flow_sim.time)` (flow_past_freely_rotating_rod_case.py:267-270); `order` is the order in which the ranks happen to write. -/
noncomputable def saveSim2 (g : ℕ) (origin dx : List ℚ) (gs : List ℕ) (order : String → List C2) (S : Sim2 T) : Except PyErr (H5 ℝ C2 ℝ) :=
  match simIO2 g origin dx gs S with
  | (_, .error e) => .error e
  | (io, .ok ()) => save (ioGeo2 T g) order (simHeap2 g S) io S.time

/-- `flow_sim.time = io.load(…)` (flow_past_freely_rotating_rod_case.py:220): `load` writes into the arrays of the simulator. -/
noncomputable def loadSim2 (g : ℕ) (origin dx : List ℚ) (gs : List ℕ) (file : H5 ℝ C2 ℝ) (S : Sim2 T) : Except PyErr (Sim2 T) :=
  match simIO2 g origin dx gs S with
  | (_, .error e) => .error e
  | (io, .ok ()) =>
    match load (ioGeo2 T g) file io (simHeap2 g S) with
    | (_, .error e) => .error e
    | (h, .ok t) => .ok { S with
        prim := (h.eul 0).comp 0
        vel := fun j => (h.eul 1).comp j
        time := t }

end

/-! ## Helpers: which cells a step looks at -/

/-- The fields agree in every cell of the grid (not necessarily beyond its sides). -/
def AgreeDom2 (gy gx : ℕ) (F F' : Fields2) : Prop := ∀ G, Dom2 gy gx G → F.om G = F'.om G ∧ ∀ j, F.u j G = F'.u j G

/-- `F` in the domain, `F'` beyond its sides. -/
noncomputable def overlay2 (gy gx : ℕ) (F F' : Fields2) : Fields2 where
  om G := if Dom2 gy gx G then F.om G else F'.om G
  u j G := if Dom2 gy gx G then F.u j G else F'.u j G

/-- At least `k` cells away from the sides. -/
def Deep2 (gy gx : ℕ) (k : ℤ) (G : C2) : Prop := k ≤ G.1 ∧ G.1 + k < gy ∧ k ≤ G.2 ∧ G.2 + k < gx

theorem overlay2_agree (gy gx : ℕ) (F F' : Fields2) : AgreeDom2 gy gx (overlay2 gy gx F F') F := by
  intro G hG
  simp [overlay2, hG]

theorem deep2_cross {gy gx : ℕ} {k : ℤ} {m : ℕ} {G d : C2} (h : Deep2 gy gx (k + m) G) (hd : Cross2 m d) : Deep2 gy gx k (G.1 + d.1, G.2 + d.2) := by
  unfold Deep2 Cross2 at *
  dsimp only
  omega

theorem deep2_mono {gy gx : ℕ} {k k' : ℤ} (hk : k ≤ k') {G : C2} (h : Deep2 gy gx k' G) : Deep2 gy gx k G := by
  unfold Deep2 at *
  omega

theorem deep2_dom {gy gx : ℕ} {k : ℤ} (hk : 0 ≤ k) {G : C2} (h : Deep2 gy gx k G) : Dom2 gy gx G := by
  unfold Deep2 Dom2 at *
  omega

theorem refAdv2_deep {P : Params2} {K : Kern2} (hK : K.Local) (dt : ℝ) {F F' : Fields2} (h : AgreeDom2 P.gy P.gx F F') {G : C2} (hG : Deep2 P.gy P.gx 2 G) :
    refAdv2 P K dt F.u F.om G = refAdv2 P K dt F'.u F'.om G := by
  have hD := deep2_dom (by norm_num) hG
  unfold refAdv2
  rw [if_pos hD, if_pos hD, (h G hD).1]
  congr 1
  apply hK.adv
  intro i d hd
  have := h _ (deep2_dom (le_refl 0) (deep2_cross (k := 0) (m := 2) (by simpa using hG) hd))
  cases i with
  | none => exact this.1
  | some j => exact this.2 j

theorem refDiff2_deep {P : Params2} {K : Kern2} (hK : K.Local) (dt : ℝ) {f f' : C2 → ℝ} (h : ∀ G, Deep2 P.gy P.gx 2 G → f G = f' G) {G : C2}
    (hG : Deep2 P.gy P.gx 3 G) : refDiff2 P K dt f G = refDiff2 P K dt f' G := by
  have e := h G (deep2_mono (by norm_num) hG)
  unfold refDiff2
  split_ifs
  · rw [e]
    congr 1
    apply hK.diff
    intro i d hd
    exact h _ (deep2_cross (k := 2) (m := 1) (by simpa using hG) hd)
  · exact e

/-- the penalised line depends on the cells between the zones only -/
theorem serialPen1_inner {N w : ℕ} (hw : 0 < w) (hN : w ≤ N) {U U' : ℤ → ℝ} (h1 : U (w - 1) = U' (w - 1))
    (h2 : ∀ j : ℤ, (w : ℤ) - 1 ≤ j → j ≤ N - w → U j = U' j) : serialPen1 false N w U = serialPen1 false N w U' := by
  have hc : ¬ (false = true ∨ w = 0) := by simp; omega
  have key : ∀ j : ℤ, j ≤ N - w → (if j < w then U (w - 1) * ramp w j else U j) = (if j < w then U' (w - 1) * ramp w j else U' j) := by
    intro j hj
    split_ifs
    · rw [h1]
    · exact h2 j (by omega) hj
  unfold serialPen1
  rw [if_neg hc, if_neg hc]
  funext j
  dsimp only
  split_ifs with hj h
  · rw [h1]
  · rw [h2 _ (by omega) (le_refl _)]
  · rw [h1]
  · exact h2 _ (by omega) (by omega)

theorem serialPen2_inner {gy gx w : ℕ} (hw : 4 ≤ w) (hy : w + 3 ≤ gy) (hx : w + 3 ≤ gx) {f f' : C2 → ℝ} (h : ∀ G, Deep2 gy gx 3 G → f G = f' G) :
    serialPen2 false gy gx w f = serialPen2 false gy gx w f' := by
  unfold serialPen2
  dsimp only
  funext G
  have : ∀ y : ℤ, 3 ≤ y → y + 3 < gy → serialPen1 false gx w (fun j => f (y, j)) = serialPen1 false gx w (fun j => f' (y, j)) := by
    intro y h1 h2
    apply serialPen1_inner (by omega) (by omega)
    · exact h _ ⟨h1, h2, by dsimp only; omega, by dsimp only; omega⟩
    · intro j h3 h4
      exact h _ ⟨h1, h2, by dsimp only; omega, by dsimp only; omega⟩
  rw [serialPen1_inner (U := fun j => serialPen1 false gx w (fun j_1 => f (j, j_1)) G.2) (U' := fun j => serialPen1 false gx w (fun j_1 => f' (j, j_1)) G.2)
    (by omega) (by omega)]
  · rw [this _ (by omega) (by omega)]
  · intro j h3 h4
    rw [this _ (by omega) (by omega)]

/-- a Navier-Stokes step with a penalty zone of at least 4 cells does not see what lies beyond the sides -/
theorem refNS2_agree {P : Params2} (hw : 4 ≤ P.w) (hy : P.w + 3 ≤ P.gy) (hx : P.w + 3 ≤ P.gx) {K : Kern2} (hK : K.Local) (dt : ℝ) (fs : Fin 2 → ℝ) {F F' : Fields2}
    (h : AgreeDom2 P.gy P.gx F F') : refNS2 P K dt fs F = refNS2 P K dt fs F' := by
  unfold refNS2
  rw [serialPen2_inner hw hy hx (f := refDiff2 P K dt (refAdv2 P K dt F.u F.om)) (f' := refDiff2 P K dt (refAdv2 P K dt F'.u F'.om))]
  intro G hG
  exact refDiff2_deep hK dt (fun G hG => refAdv2_deep hK dt h hG) hG

theorem maxVel2_agree {gy gx : ℕ} {F F' : Fields2} (h : AgreeDom2 gy gx F F') : maxVel2 gy gx F.u = maxVel2 gy gx F'.u := by
  unfold maxVel2
  congr 1
  ext x
  constructor
  · rintro ⟨G, hG, rfl⟩; exact ⟨G, hG, by rw [(h G hG).2, (h G hG).2]⟩
  · rintro ⟨G, hG, rfl⟩; exact ⟨G, hG, by rw [(h G hG).2, (h G hG).2]⟩

theorem refDt2_agree {P : Params2} {F F' : Fields2} (h : AgreeDom2 P.gy P.gx F F') (cfl tol : ℝ) (r : DtRule) : refDt2 P cfl tol F r = refDt2 P cfl tol F' r := by
  cases r with
  | fixed dt => rfl
  | stable pre => unfold refDt2; rw [maxVel2_agree h]

/-- a whole run does not see what lies beyond the sides -/
theorem refRun2_agree {ft : String} (hft : ft ∈ flowTypes2) (hns : ft ≠ "passive_scalar") {P : Params2} (hw : 4 ≤ P.w) (hy : P.w + 3 ≤ P.gy) (hx : P.w + 3 ≤ P.gx)
    {K : Kern2} (hK : K.Local) (cfl tol : ℝ) (ys : List StepSpec2) {F F' : Fields2} (h : AgreeDom2 P.gy P.gx F F') (t : ℝ) :
    AgreeDom2 P.gy P.gx (refRun2 ft P K cfl tol ys (F, t)).1 (refRun2 ft P K cfl tol ys (F', t)).1 ∧
    (refRun2 ft P K cfl tol ys (F, t)).2 = (refRun2 ft P K cfl tol ys (F', t)).2 := by
  cases ys with
  | nil => exact ⟨h, rfl⟩
  | cons y ys =>
    have e : refRun2 ft P K cfl tol (y :: ys) (F, t) = refRun2 ft P K cfl tol (y :: ys) (F', t) := by
      unfold refRun2
      dsimp only
      rw [refDt2_agree h]
      congr 2
      unfold refStep2
      simp only [flowTypes2, List.mem_cons, List.not_mem_nil, or_false] at hft
      rcases hft with h1 | h1 | h1
      · exact absurd h1 hns
      · rw [if_pos h1, if_pos h1]
        exact refNS2_agree hw hy hx hK _ _ h
      · have n2 : ft ≠ "navier_stokes" := by rw [h1]; simp
        rw [if_neg n2, if_pos h1, if_neg n2, if_pos h1]
        apply refNS2_agree hw hy hx hK
        intro G hG
        refine ⟨?_, (h G hG).2⟩
        dsimp only
        unfold refForce2
        rw [(h G hG).1]
    rw [e]
    exact ⟨fun _ _ => ⟨rfl, fun _ => rfl⟩, rfl⟩

theorem refRun2_append (ft : String) (P : Params2) (K : Kern2) (cfl tol : ℝ) (ys ys' : List StepSpec2) (s : Fields2 × ℝ) :
    refRun2 ft P K cfl tol (ys ++ ys') s = refRun2 ft P K cfl tol ys' (refRun2 ft P K cfl tol ys s) := by
  induction ys generalizing s with
  | nil => rfl
  | cons y ys ih =>
    rw [List.cons_append]
    conv_lhs => unfold refRun2
    conv_rhs => arg 6; unfold refRun2
    exact ih _

/-- a passive scalar and its velocity keep their values beyond the sides -/
theorem refRun2_passive {P : Params2} {K : Kern2} (cfl tol : ℝ) (ys : List StepSpec2) (F : Fields2) (t : ℝ) :
    (∀ G, ¬ Dom2 P.gy P.gx G → (refRun2 "passive_scalar" P K cfl tol ys (F, t)).1.om G = F.om G) ∧ (refRun2 "passive_scalar" P K cfl tol ys (F, t)).1.u = F.u := by
  induction ys generalizing F t with
  | nil => exact ⟨fun _ _ => rfl, rfl⟩
  | cons y ys ih =>
    unfold refRun2
    dsimp only
    have e : ∀ dt, refStep2 "passive_scalar" P K dt y.fs y.Φ F = refScalar2 P K dt F := by
      intro dt
      unfold refStep2
      rw [if_neg (by simp), if_neg (by simp)]
    rw [e]
    obtain ⟨h1, h2⟩ := ih (refScalar2 P K (refDt2 P cfl tol F y.rule) F) (t + refDt2 P cfl tol F y.rule)
    refine ⟨fun G hG => ?_, h2⟩
    rw [h1 G hG]
    unfold refScalar2 refDiff2 refAdv2
    dsimp only
    rw [if_neg (fun hc => hG hc.1), if_neg hG]

/-! ## Saving and loading -/

variable {T T' : Cart2} {gy gx py px py' px' : ℕ}

theorem simIO2_ok (g : ℕ) (origin dx : List ℚ) (gs : List ℕ) (S : Sim2 T) : ∃ io, simIO2 g origin dx gs S = (io, .ok ()) := by
  unfold simIO2 defineEulerianGrid addEulerian addEulerian addEulerian addEulField
  simp [simHeap2, ioGeo2]

/-- a checkpoint written by one decomposition and loaded by another: the inner cells get the saved fields, the rest stays -/
theorem saveload2 (hT : mkCart2 gy gx py px false = .ok T) (hT' : mkCart2 gy gx py' px' false = .ok T') (origin dx : List ℚ)
    {order : String → List C2} (ho : ∀ s c, c ∈ order s ↔ Valid2 T c) {F : Fields2} {S : Sim2 T}
    (hom : HoldsX2 T 2 F.om S.prim) (hu : ∀ j, HoldsX2 T 2 (F.u j) (S.vel j)) (S' : Sim2 T') :
    ∃ file S2, saveSim2 2 origin dx [gy, gx] order S = .ok file ∧ loadSim2 2 origin dx [gy, gx] file S' = .ok S2 ∧ S2.time = S.time ∧ S2.solver = S'.solver ∧
      ∀ c p, Valid2 T' c →
        (Inner2 T' ((2 : ℕ) : ℤ) p → S2.prim c p = F.om (globalIx2 T' ((2 : ℕ) : ℤ) c p) ∧ ∀ j, S2.vel j c p = F.u j (globalIx2 T' ((2 : ℕ) : ℤ) c p)) ∧
        (¬ Inner2 T' ((2 : ℕ) : ℤ) p → S2.prim c p = S'.prim c p ∧ ∀ j, S2.vel j c p = S'.vel j c p) := by
  obtain ⟨io, hio⟩ := simIO2_ok 2 origin dx [gy, gx] S
  obtain ⟨io', hio'⟩ := simIO2_ok 2 origin dx [gy, gx] S'
  obtain ⟨file, f1, h'', f2, -, -, f3⟩ := eul_roundtrip2 hT hT' 2 2 (origin := origin) (dx := dx) (fields := [("vorticity", 0), ("velocity", 1)])
    (fields' := [("vorticity", 0), ("velocity", 1)]) (by decide) (by decide) (by decide) (h := simHeap2 2 S) (h' := simHeap2 2 S') hio hio'
    (by
      intro x hx
      refine ⟨x, hx, rfl, ?_⟩
      simp only [List.mem_cons, List.not_mem_nil, or_false] at hx
      rcases hx with rfl | rfl <;> simp [simHeap2])
    (fun s k => if s = "vorticity" then F.om else if k = 0 then F.u 0 else F.u 1)
    (by
      intro x hx k hk c p hc hp
      simp only [List.mem_cons, List.not_mem_nil, or_false] at hx
      rcases hx with rfl | rfl
      · simp only [simHeap2, if_true]
        exact holdsX2_blocks hom c p hc hp
      · simp only [simHeap2]
        rw [if_neg (by decide : ¬ (1 = 0)), if_neg (by decide : ¬ ("velocity" = "vorticity"))]
        dsimp only
        split_ifs
        · exact holdsX2_blocks (hu 0) c p hc hp
        · exact holdsX2_blocks (hu 1) c p hc hp) ho S.time
  have n0 : 0 < ncomp (ioGeo2 T' 2) ((simHeap2 2 S').eul 0) := by simp [ncomp, simHeap2, ioGeo2]
  have n1 : ncomp (ioGeo2 T' 2) ((simHeap2 2 S').eul 1) = 2 := by simp [ncomp, simHeap2, ioGeo2]
  refine ⟨file, { S' with
        prim := (h''.eul 0).comp 0
        vel := fun j => (h''.eul 1).comp j
        time := S.time }, ?_, ?_, rfl, rfl, ?_⟩
  · unfold saveSim2; rw [hio]; exact f1
  · unfold loadSim2; rw [hio']; dsimp only; rw [f2]
  · intro c p hc
    have a0 := f3 ("vorticity", 0) (by simp) 0 n0 c p hc
    have a1 := f3 ("velocity", 1) (by simp) 0 (by rw [n1]; norm_num) c p hc
    have a2 := f3 ("velocity", 1) (by simp) 1 (by rw [n1]; norm_num) c p hc
    refine ⟨fun hp => ⟨a0.1 hp, fun j => ?_⟩, fun hp => ⟨a0.2 hp, fun j => ?_⟩⟩
    · match j with
      | 0 => exact a1.1 hp
      | 1 => exact a2.1 hp
    · match j with
      | 0 => exact a1.2 hp
      | 1 => exact a2.2 hp

variable [NeZero T.gy] [NeZero T.gx] [NeZero T'.gy] [NeZero T'.gx]

/-- after loading into a newly set up simulator the ranks hold the saved fields in the domain, and the new simulator's own beyond its sides -/
theorem loaded2_holds (hT : mkCart2 gy gx py px false = .ok T) (hT' : mkCart2 gy gx py' px' false = .ok T') (origin dx : List ℚ)
    {order : String → List C2} (ho : ∀ s c, c ∈ order s ↔ Valid2 T c) {C C' : Cfg2} {F : Fields2} {S : Sim2 T} (h : SimHolds2 C F S)
    {F' : Fields2} {S' : Sim2 T'} (h' : SimHolds2 C' F' S') :
    ∃ file S2, saveSim2 2 origin dx [gy, gx] order S = .ok file ∧ loadSim2 2 origin dx [gy, gx] file S' = .ok S2 ∧ S2.time = S.time ∧
      SimHolds2 C' (overlay2 gy gx F F') S2 := by
  obtain ⟨file, S2, f1, f2, f3, f4, f5⟩ := saveload2 hT hT' origin dx ho h.om h.u S'
  refine ⟨file, S2, f1, f2, f3, ⟨?_, ?_, ?_⟩⟩
  · intro c p hc ha hp
    by_cases hi : Inner2 T' ((2 : ℕ) : ℤ) p
    · rw [((f5 c p hc).1 hi).1]
      have : Dom2 gy gx (globalIx2 T' ((2 : ℕ) : ℤ) c p) := (dom2_iff hT' _).2 (inner_inDomain2 hT' hc hi)
      unfold overlay2; dsimp only; rw [if_pos this]
    · rcases hp with hp | hp
      · exact absurd hp hi
      · rw [((f5 c p hc).2 hi).1, h'.om c p hc ha (Or.inr hp)]
        have : ¬ Dom2 gy gx (globalIx2 T' ((2 : ℕ) : ℤ) c p) := fun hD => hp.2 ((dom2_iff hT' _).1 hD)
        unfold overlay2; dsimp only; rw [if_neg this]
  · intro j c p hc ha hp
    by_cases hi : Inner2 T' ((2 : ℕ) : ℤ) p
    · rw [((f5 c p hc).1 hi).2]
      have : Dom2 gy gx (globalIx2 T' ((2 : ℕ) : ℤ) c p) := (dom2_iff hT' _).2 (inner_inDomain2 hT' hc hi)
      unfold overlay2; dsimp only; rw [if_pos this]
    · rcases hp with hp | hp
      · exact absurd hp hi
      · rw [((f5 c p hc).2 hi).2, h'.u j c p hc ha (Or.inr hp)]
        have : ¬ Dom2 gy gx (globalIx2 T' ((2 : ℕ) : ℤ) c p) := fun hD => hp.2 ((dom2_iff hT' _).1 hD)
        unfold overlay2; dsimp only; rw [if_neg this]
  · rw [f4]; exact h'.green

/-! ## C75 -/

theorem restart2_core {a a' : SimArgs2} (hsame : a' = { a with py := a'.py, px := a'.px }) (h : Fit2 a T) (h' : Fit2 a' T')
    {xr : ℝ} (hxr : 0 < xr) (nu : ℝ) {cfl : ℝ} (hcfl : 0 ≤ cfl) {tol : ℝ} (htol : 0 < tol)
    {K : Kern2} (hK : K.Local) (hK0 : ∀ r, K.upd r (fun _ _ => 0) = 0) (time time' : ℝ) (dbl0 dbl0' : World C2 C2 ℝ) (conv0 : Dbl2 T → ℂ) (conv0' : Dbl2 T' → ℂ)
    (om om' : ℝ → ℝ → ℝ) (u u' : Fin 2 → ℝ → ℝ → ℝ) (origin dx : List ℚ) {order : String → List C2} (ho : ∀ s c, c ∈ order s ↔ Valid2 T c)
    {xs₁ xs₂ xs₂' : List StepIn2} {ys₁ ys₂ : List StepSpec2}
    (h1 : List.Forall₂ (Means2 a.gy a.gx T (simCfg2 a T xr nu cfl)) xs₁ ys₁) (h2 : List.Forall₂ (Means2 a.gy a.gx T (simCfg2 a T xr nu cfl)) xs₂ ys₂)
    (h2' : List.Forall₂ (Means2 a'.gy a'.gx T' (simCfg2 a' T' xr nu cfl)) xs₂' ys₂)
    (hag : let ref := refRun2 a.flowType ⟨a.gy, a.gx, xr, nu, widthOf a.width, a.freeStream⟩ K cfl tol
      let r1 := ref ys₁ (fieldsFrom2 (xr / a.gx) om u, time)
      AgreeDom2 a.gy a.gx (ref ys₂ (overlay2 a.gy a.gx r1.1 (fieldsFrom2 (xr / a.gx) om' u'), r1.2)).1 (ref ys₂ r1).1 ∧
      (ref ys₂ (overlay2 a.gy a.gx r1.1 (fieldsFrom2 (xr / a.gx) om' u'), r1.2)).2 = (ref ys₂ r1).2) :
    let start := initFrom2 T 2 xr time dbl0 conv0 om u
    let out := simLoop2 (simCfg2 a T xr nu cfl) K tol (xs₁ ++ xs₂) start
    ∃ file S, saveSim2 2 origin dx [a.gy, a.gx] order (simLoop2 (simCfg2 a T xr nu cfl) K tol xs₁ start).1 = .ok file ∧
      loadSim2 2 origin dx [a.gy, a.gx] file (initFrom2 T' 2 xr time' dbl0' conv0' om' u') = .ok S ∧
      let out' := simLoop2 (simCfg2 a' T' xr nu cfl) K tol xs₂' S
      out.2 = none ∧ out'.2 = none ∧ out'.1.time = out.1.time ∧
      ∀ c p c' p', Valid2 T c → Inner2 T ((2 : ℕ) : ℤ) p → Valid2 T' c' → Inner2 T' ((2 : ℕ) : ℤ) p' →
        globalIx2 T ((2 : ℕ) : ℤ) c p = globalIx2 T' ((2 : ℕ) : ℤ) c' p' →
        out'.1.prim c' p' = out.1.prim c p ∧ ∀ j, out'.1.vel j c' p' = out.1.vel j c p := by
  obtain ⟨hT, hft⟩ := simCheck2_cart' h.built
  obtain ⟨hT', -⟩ := simCheck2_cart' h'.built
  have eg : a'.gy = a.gy ∧ a'.gx = a.gx := by rw [hsame]; exact ⟨rfl, rfl⟩
  have eP : (simCfg2 a' T' xr nu cfl).params a'.gy a'.gx = (simCfg2 a T xr nu cfl).params a.gy a.gx ∧ (simCfg2 a' T' xr nu cfl).flowType = a.flowType ∧
      a'.flowType = a.flowType := by
    rw [hsame]; exact ⟨rfl, rfl, rfl⟩
  rw [eg.1, eg.2] at hT'
  have hinit := initFrom2_holds hT (simCfg2 a T xr nu cfl) time dbl0 conv0 om u
  have hinit' := initFrom2_holds hT' (simCfg2 a' T' xr nu cfl) time' dbl0' conv0' om' u'
  obtain ⟨-, r2, r3⟩ := simLoop2_holds hT (h.good hxr nu cfl) (h.dbl xr nu cfl) hft hcfl htol hK hK0 h1 hinit
  obtain ⟨q1, q2, q3⟩ := simLoop2_holds hT (h.good hxr nu cfl) (h.dbl xr nu cfl) hft hcfl htol hK hK0 (List.rel_append h1 h2) hinit
  obtain ⟨file, S, f1, f2, f3, f4⟩ := loaded2_holds hT hT' origin dx ho r2 hinit'
  obtain ⟨s1, s2, s3⟩ := simLoop2_holds (by rw [eg.1, eg.2]; exact hT') (h'.good hxr nu cfl) (h'.dbl xr nu cfl) (by rw [eP.2.1]; exact hft) hcfl htol hK hK0 h2' f4
  intro start out
  refine ⟨file, S, f1, f2, ?_⟩
  intro out'
  rw [refRun2_append] at q2 q3
  rw [eP.1, eP.2.1, f3, r3] at s2 s3
  obtain ⟨g1, g2⟩ := hag
  refine ⟨q1, s1, (s3.trans g2).trans q3.symm, ?_⟩
  intro c p c' p' hc hp hc' hp' hG
  have hD : Dom2 a.gy a.gx (globalIx2 T ((2 : ℕ) : ℤ) c p) := (dom2_iff hT _).2 (inner_inDomain2 hT hc hp)
  obtain ⟨k1, k2⟩ := g1 _ hD
  refine ⟨?_, fun j => ?_⟩
  · have e1 := s2.om c' p' hc' (inArr_of_inner2 hp') (Or.inl hp')
    rw [← hG] at e1
    exact (e1.trans k1).trans (q2.om c p hc (inArr_of_inner2 hp) (Or.inl hp)).symm
  · have e1 := s2.u j c' p' hc' (inArr_of_inner2 hp') (Or.inl hp')
    rw [← hG] at e1
    exact (e1.trans (k2 j)).trans (q2.u j c p hc (inArr_of_inner2 hp) (Or.inl hp)).symm


/-- C75, flows with vorticity: penalty zone of at least 4 cells.  A run of `xs₁` is checkpointed; a newly constructed simulator on any decomposition of the same grid, its fields
set up in any way, loads the file and is driven by `xs₂'`.  Nothing raises, and at the end every inner cell and the time are those of the run of `xs₁` and then
`xs₂` without interruption. -/
theorem restart2 {a a' : SimArgs2} (hsame : a' = { a with py := a'.py, px := a'.px }) (h : Fit2 a T) (h' : Fit2 a' T') (hns : a.flowType ≠ "passive_scalar")
    (hw : 4 ≤ widthOf a.width) (hwy : widthOf a.width + 3 ≤ a.gy) (hwx : widthOf a.width + 3 ≤ a.gx)
    {xr : ℝ} (hxr : 0 < xr) (nu : ℝ) {cfl : ℝ} (hcfl : 0 ≤ cfl) {tol : ℝ} (htol : 0 < tol)
    {K : Kern2} (hK : K.Local) (hK0 : ∀ r, K.upd r (fun _ _ => 0) = 0) (time time' : ℝ) (dbl0 dbl0' : World C2 C2 ℝ) (conv0 : Dbl2 T → ℂ) (conv0' : Dbl2 T' → ℂ)
    (om om' : ℝ → ℝ → ℝ) (u u' : Fin 2 → ℝ → ℝ → ℝ) (origin dx : List ℚ) {order : String → List C2} (ho : ∀ s c, c ∈ order s ↔ Valid2 T c)
    {xs₁ xs₂ xs₂' : List StepIn2} {ys₁ ys₂ : List StepSpec2}
    (h1 : List.Forall₂ (Means2 a.gy a.gx T (simCfg2 a T xr nu cfl)) xs₁ ys₁) (h2 : List.Forall₂ (Means2 a.gy a.gx T (simCfg2 a T xr nu cfl)) xs₂ ys₂)
    (h2' : List.Forall₂ (Means2 a'.gy a'.gx T' (simCfg2 a' T' xr nu cfl)) xs₂' ys₂) :
    let start := initFrom2 T 2 xr time dbl0 conv0 om u
    let out := simLoop2 (simCfg2 a T xr nu cfl) K tol (xs₁ ++ xs₂) start
    ∃ file S, saveSim2 2 origin dx [a.gy, a.gx] order (simLoop2 (simCfg2 a T xr nu cfl) K tol xs₁ start).1 = .ok file ∧
      loadSim2 2 origin dx [a.gy, a.gx] file (initFrom2 T' 2 xr time' dbl0' conv0' om' u') = .ok S ∧
      let out' := simLoop2 (simCfg2 a' T' xr nu cfl) K tol xs₂' S
      out.2 = none ∧ out'.2 = none ∧ out'.1.time = out.1.time ∧
      ∀ c p c' p', Valid2 T c → Inner2 T ((2 : ℕ) : ℤ) p → Valid2 T' c' → Inner2 T' ((2 : ℕ) : ℤ) p' →
        globalIx2 T ((2 : ℕ) : ℤ) c p = globalIx2 T' ((2 : ℕ) : ℤ) c' p' →
        out'.1.prim c' p' = out.1.prim c p ∧ ∀ j, out'.1.vel j c' p' = out.1.vel j c p := by
  obtain ⟨-, hft⟩ := simCheck2_cart' h.built
  exact restart2_core hsame h h' hxr nu hcfl htol hK hK0 time time' dbl0 dbl0' conv0 conv0' om om' u u' origin dx ho h1 h2 h2'
    (refRun2_agree (P := ⟨a.gy, a.gx, xr, nu, widthOf a.width, a.freeStream⟩) hft hns hw hwy hwx hK cfl tol ys₂ (overlay2_agree a.gy a.gx _ _) _)

/-- C75, passive scalar.  A run of `xs₁` is checkpointed; a newly constructed simulator on any decomposition of the same grid, its fields
set up as for the first run, loads the file and is driven by `xs₂'`.  Nothing raises, and at the end every inner cell and the time are those of the run of `xs₁` and then
`xs₂` without interruption. -/
theorem restart2_passive {a a' : SimArgs2} (hsame : a' = { a with py := a'.py, px := a'.px }) (h : Fit2 a T) (h' : Fit2 a' T') (hps : a.flowType = "passive_scalar")
    {xr : ℝ} (hxr : 0 < xr) (nu : ℝ) {cfl : ℝ} (hcfl : 0 ≤ cfl) {tol : ℝ} (htol : 0 < tol)
    {K : Kern2} (hK : K.Local) (hK0 : ∀ r, K.upd r (fun _ _ => 0) = 0) (time time' : ℝ) (dbl0 dbl0' : World C2 C2 ℝ) (conv0 : Dbl2 T → ℂ) (conv0' : Dbl2 T' → ℂ)
    (om : ℝ → ℝ → ℝ) (u : Fin 2 → ℝ → ℝ → ℝ) (origin dx : List ℚ) {order : String → List C2} (ho : ∀ s c, c ∈ order s ↔ Valid2 T c)
    {xs₁ xs₂ xs₂' : List StepIn2} {ys₁ ys₂ : List StepSpec2}
    (h1 : List.Forall₂ (Means2 a.gy a.gx T (simCfg2 a T xr nu cfl)) xs₁ ys₁) (h2 : List.Forall₂ (Means2 a.gy a.gx T (simCfg2 a T xr nu cfl)) xs₂ ys₂)
    (h2' : List.Forall₂ (Means2 a'.gy a'.gx T' (simCfg2 a' T' xr nu cfl)) xs₂' ys₂) :
    let start := initFrom2 T 2 xr time dbl0 conv0 om u
    let out := simLoop2 (simCfg2 a T xr nu cfl) K tol (xs₁ ++ xs₂) start
    ∃ file S, saveSim2 2 origin dx [a.gy, a.gx] order (simLoop2 (simCfg2 a T xr nu cfl) K tol xs₁ start).1 = .ok file ∧
      loadSim2 2 origin dx [a.gy, a.gx] file (initFrom2 T' 2 xr time' dbl0' conv0' om u) = .ok S ∧
      let out' := simLoop2 (simCfg2 a' T' xr nu cfl) K tol xs₂' S
      out.2 = none ∧ out'.2 = none ∧ out'.1.time = out.1.time ∧
      ∀ c p c' p', Valid2 T c → Inner2 T ((2 : ℕ) : ℤ) p → Valid2 T' c' → Inner2 T' ((2 : ℕ) : ℤ) p' →
        globalIx2 T ((2 : ℕ) : ℤ) c p = globalIx2 T' ((2 : ℕ) : ℤ) c' p' →
        out'.1.prim c' p' = out.1.prim c p ∧ ∀ j, out'.1.vel j c' p' = out.1.vel j c p := by
  refine restart2_core hsame h h' hxr nu hcfl htol hK hK0 time time' dbl0 dbl0' conv0 conv0' om om u u origin dx ho h1 h2 h2' ?_
  intro ref r1
  have e : overlay2 a.gy a.gx r1.1 (fieldsFrom2 (xr / a.gx) om u) = r1.1 := by
    obtain ⟨k1, k2⟩ := refRun2_passive (P := ⟨a.gy, a.gx, xr, nu, widthOf a.width, a.freeStream⟩) (K := K) cfl tol ys₁ (fieldsFrom2 (xr / a.gx) om u) time
    have er : r1 = refRun2 "passive_scalar" ⟨a.gy, a.gx, xr, nu, widthOf a.width, a.freeStream⟩ K cfl tol ys₁ (fieldsFrom2 (xr / a.gx) om u, time) := by
      simp only [r1, ref, hps]
    rw [← er] at k1 k2
    have e1 : (overlay2 a.gy a.gx r1.1 (fieldsFrom2 (xr / a.gx) om u)).om = r1.1.om := by
      funext G
      unfold overlay2
      dsimp only
      split_ifs with hG
      · rfl
      · exact (k1 G hG).symm
    have e2 : (overlay2 a.gy a.gx r1.1 (fieldsFrom2 (xr / a.gx) om u)).u = r1.1.u := by
      funext j G
      unfold overlay2
      dsimp only
      rw [k2]
      split_ifs <;> rfl
    exact congrArg₂ Fields2.mk e1 e2
  rw [e]
  exact ⟨fun _ _ => ⟨rfl, fun _ => rfl⟩, rfl⟩

/-! ## The default width is not enough -/

/-- A 16 × 8 grid on one rank. -/
def exT2 : Cart2 := ⟨16, 8, 1, 1, 16, 8, false⟩
/-- Navier-Stokes, default ghost size and default penalty zone of 2 cells. -/
def exA2 : SimArgs2 := ⟨16, 8, 1, 1, "navier_stokes", false, 2, .int 2⟩

instance : NeZero exT2.gy := ⟨by decide⟩
instance : NeZero exT2.gx := ⟨by decide⟩

/-- Advection with a constant speed along x, first order upwind over two cells; nothing else. -/
noncomputable def exK2 : Kern2 where
  diff _ _ := 0
  adv a f := a * (f none (0, 0) - f none (0, -2))
  curl _ _ := (0, 0)
  upd _ _ := 0

theorem exK2_local : exK2.Local := by
  constructor <;> intro a A B h <;> simp only [exK2]
  rw [h _ _ (by simp [Cross2]), h _ _ (by simp [Cross2])]

theorem exFit2 : Fit2 exA2 exT2 :=
  ⟨by decide, ⟨by decide, fun _ => ⟨by decide, 2, rfl⟩⟩, rfl, by decide, by decide, by decide, by decide⟩

theorem ramp2_one : ramp 2 1 = Real.sin (Real.pi / 4) := by unfold ramp; congr 1; push_cast; ring

theorem ramp2_neg : ramp 2 (-1) = -Real.sin (Real.pi / 4) := by
  rw [← Real.sin_neg]; unfold ramp; congr 1; push_cast; ring

theorem exPen2 (f : C2 → ℝ) : serialPen2 false 16 8 2 f (5, 1) = f (5, 1) * Real.sin (Real.pi / 4) ∧
    serialPen2 false 16 8 2 f (5, -1) = -(f (5, 1) * Real.sin (Real.pi / 4)) := by
  unfold serialPen2 serialPen1
  norm_num [ramp2_one, ramp2_neg]

/-- one step of the example, in the second column and in the first ghost column -/
theorem exStep2 (P : Params2) (hP : P = ⟨16, 8, 1, 0, 2, false⟩) (fs : Fin 2 → ℝ) (Φ : Fin 2 → C2 → ℝ) (F : Fields2) :
    (refStep2 "navier_stokes" P exK2 (1 / 8) fs Φ F).om (5, 1) = F.om (5, -1) * Real.sin (Real.pi / 4) ∧
    (refStep2 "navier_stokes" P exK2 (1 / 8) fs Φ F).om (5, -1) = -(F.om (5, -1) * Real.sin (Real.pi / 4)) := by
  subst hP
  have key : refDiff2 ⟨16, 8, 1, 0, 2, false⟩ exK2 (1 / 8) (refAdv2 ⟨16, 8, 1, 0, 2, false⟩ exK2 (1 / 8) F.u F.om) (5, 1) = F.om (5, -1) := by
    unfold refDiff2 refAdv2
    have hD : Dom2 16 8 ((5, 1) : C2) := by unfold Dom2; norm_num
    dsimp only
    rw [if_pos hD]
    simp only [exK2, Params2.dx]
    norm_num
  unfold refStep2
  rw [if_pos rfl]
  unfold refNS2
  dsimp only
  rw [(exPen2 _).1, (exPen2 _).2, key]
  exact ⟨rfl, rfl⟩

/-- C75: with the default penalty zone of 2 cells a restart is not exact.  The vorticity is 1 everywhere and advected along x; the run is checkpointed after one step (all its
messages delivered) and loaded into a new simulator on the same decomposition; after one more step the vorticity in a cell of the second column is 0, in the
uninterrupted run it is -1/2. -/
theorem restart2_default_width_inexact : ∃ x y, Means2 16 8 exT2 (simCfg2 exA2 exT2 1 0 0) x y ∧
    let C := simCfg2 exA2 exT2 1 0 0
    let start := initFrom2 exT2 2 1 0 (fun _ _ => 0) (fun _ => 0) (fun _ _ => 1) (fun _ _ _ => 0)
    let fresh := initFrom2 exT2 2 1 0 (fun _ _ => 0) (fun _ => 0) (fun _ _ => 0) (fun _ _ _ => 0)
    ∃ file S, saveSim2 2 [0, 0] [1, 1] [16, 8] (fun _ => ranks2 exT2) (simLoop2 C exK2 1 [x] start).1 = .ok file ∧
      loadSim2 2 [0, 0] [1, 1] [16, 8] file fresh = .ok S ∧
      (simLoop2 C exK2 1 [x, x] start).1.prim (0, 0) (7, 3) = -1 / 2 ∧ (simLoop2 C exK2 1 [x] S).1.prim (0, 0) (7, 3) = 0 := by
  obtain ⟨sch, hs⟩ := scheds2_exist exT2 (simCfg2 exA2 exT2 1 0 0).d
  have hm : Means2 16 8 exT2 (simCfg2 exA2 exT2 1 0 0) ⟨.fixed (1 / 8), fun _ => 0, fun _ _ _ => 0, sch⟩ ⟨.fixed (1 / 8), fun _ => 0, fun _ _ => 0⟩ :=
    ⟨rfl, rfl, hs, fun h => absurd h (by decide)⟩
  refine ⟨_, _, hm, ?_⟩
  intro C start fresh
  obtain ⟨hT, hft⟩ := simCheck2_cart' exFit2.built
  have good := exFit2.good (xr := 1) one_pos 0 0
  have dbl := exFit2.dbl 1 0 0
  have hinit := initFrom2_holds hT C 0 (fun _ _ => 0) (fun _ => 0) (fun _ _ => 1) (fun _ _ _ => 0)
  have hinit' := initFrom2_holds hT C 0 (fun _ _ => 0) (fun _ => 0) (fun _ _ => 0) (fun _ _ _ => 0)
  obtain ⟨-, r2, r3⟩ := simLoop2_holds hT good dbl hft le_rfl one_pos exK2_local (fun _ => rfl) (.cons hm .nil) hinit
  obtain ⟨-, q2, -⟩ := simLoop2_holds hT good dbl hft le_rfl one_pos exK2_local (fun _ => rfl) (.cons hm (.cons hm .nil)) hinit
  obtain ⟨file, S, f1, f2, -, f4⟩ := loaded2_holds hT hT [0, 0] [1, 1] (order := fun _ => ranks2 exT2) (fun _ _ => mem_ranks2) r2 hinit'
  obtain ⟨-, s2, -⟩ := simLoop2_holds hT good dbl hft le_rfl one_pos exK2_local (fun _ => rfl) (.cons hm .nil) f4
  refine ⟨file, S, f1, f2, ?_, ?_⟩
  · have hc : Valid2 exT2 (0, 0) := by unfold Valid2; decide
    have hp : Inner2 exT2 ((2 : ℕ) : ℤ) (7, 3) := by unfold Inner2; decide
    have e := q2.om (0, 0) (7, 3) hc (inArr_of_inner2 hp) (Or.inl hp)
    have eG : globalIx2 exT2 ((2 : ℕ) : ℤ) (0, 0) (7, 3) = (5, 1) := by decide
    rw [eG] at e
    refine e.trans ?_
    unfold refRun2 refRun2 refRun2
    dsimp only
    have h1 : (fieldsFrom2 (C.xr / exA2.gx) (fun _ _ => 1) (fun _ _ _ => 0)).om (5, -1) = 1 := rfl
    refine ((exStep2 _ rfl _ (fun _ _ => 0) _).1).trans ?_
    refine (congrArg (· * Real.sin (Real.pi / 4)) ((exStep2 _ rfl _ (fun _ _ => 0) _).2)).trans ?_
    rw [h1, Real.sin_pi_div_four]
    have := Real.mul_self_sqrt (show (0 : ℝ) ≤ 2 by norm_num)
    linear_combination (-1 / 4 : ℝ) * this
  · have hc : Valid2 exT2 (0, 0) := by unfold Valid2; decide
    have hp : Inner2 exT2 ((2 : ℕ) : ℤ) (7, 3) := by unfold Inner2; decide
    have e := s2.om (0, 0) (7, 3) hc (inArr_of_inner2 hp) (Or.inl hp)
    have eG : globalIx2 exT2 ((2 : ℕ) : ℤ) (0, 0) (7, 3) = (5, 1) := by decide
    rw [eG] at e
    refine e.trans ?_
    unfold refRun2 refRun2
    refine ((exStep2 _ rfl _ (fun _ _ => 0) _).1).trans ?_
    have h1 : (overlay2 exA2.gy exA2.gx (refRun2 C.flowType (C.params exA2.gy exA2.gx) exK2 C.cfl 1
        [⟨.fixed (1 / 8), fun _ => 0, fun _ _ => 0⟩] (fieldsFrom2 (C.xr / exA2.gx) (fun _ _ => 1) (fun _ _ _ => 0), start.time)).1
        (fieldsFrom2 (C.xr / exA2.gx) (fun _ _ => 0) (fun _ _ _ => 0))).om (5, -1) = 0 := by
      unfold overlay2
      dsimp only
      rw [if_neg (by unfold Dom2; decide)]
      rfl
    refine (congrArg (· * Real.sin (Real.pi / 4)) h1).trans ?_
    simp

/-! ## The hypotheses of `restart2` can be met -/

/-- a 16 × 8 grid with penalty zone 4 on 1 × 2 ranks, restarted on 2 × 1 ranks -/
example : Fit2 ⟨16, 8, 1, 2, "navier_stokes_with_forcing", true, 2, .int 4⟩ ⟨16, 8, 1, 2, 16, 4, false⟩ ∧
    Fit2 ⟨16, 8, 2, 1, "navier_stokes_with_forcing", true, 2, .int 4⟩ ⟨16, 8, 2, 1, 8, 8, false⟩ ∧ 4 ≤ widthOf (.int 4) ∧ widthOf (.int 4) + 3 ≤ 8 := by
  refine ⟨⟨by decide, ⟨by decide, fun _ => ⟨by decide, 4, rfl⟩⟩, rfl, by decide, by decide, by decide, by decide⟩,
    ⟨by decide, ⟨by decide, fun _ => ⟨by decide, 4, rfl⟩⟩, rfl, by decide, by decide, by decide, by decide⟩, by decide, by decide⟩

end Sopht
