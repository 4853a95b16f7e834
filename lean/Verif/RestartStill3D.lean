import Verif.Restart3D

/-!
# Restarting a 3D simulation without a free stream (C122)

The restarts of C75 and C84 are exact if the penalty zone is wide: cells beyond the sides of the domain are state that the checkpoint does not hold. In 3D they enter only
through the product u × ω. Without a free stream the velocity beyond the sides is 0 after every step, so that any penalty zone will do, the default of 2 cells included, if
the velocity of both simulators is set up as 0 there.
-/

namespace Sopht

open Finset

set_option linter.unusedSimpArgs false

/-- Nothing moves beyond the sides of the grid. -/
def StillOut3 (gz gy gx : ℕ) (u : Fin 3 → C3 → ℝ) : Prop := ∀ j G, ¬ Dom3 gz gy gx G → u j G = 0

theorem dom3_cross_inner {gz gy gx : ℕ} {G d : C3} (h : Dom3 gz gy gx G) (he : ¬ OnEdge3 gz gy gx G) (hd : Cross3 1 d) :
    Dom3 gz gy gx (G.1 + d.1, G.2.1 + d.2.1, G.2.2 + d.2.2) := by
  unfold Dom3 OnEdge3 Cross3 at *
  dsimp only
  omega

theorem crossF_still {gz gy gx : ℕ} {F F' : Fields3} (h : AgreeDom3 gz gy gx F F') (hu : StillOut3 gz gy gx F.u) (hu' : StillOut3 gz gy gx F'.u) :
    crossF F.u F.om = crossF F'.u F'.om := by
  have e : ∀ (i j : Fin 3) G, F.u i G * F.om j G = F'.u i G * F'.om j G := by
    intro i j G
    by_cases hG : Dom3 gz gy gx G
    · rw [(h G hG i).2, (h G hG j).1]
    · rw [hu i G hG, hu' i G hG, zero_mul, zero_mul]
  unfold crossF
  funext i G
  match i with
  | 0 => simp [e]
  | 1 => simp [e]
  | 2 => simp [e]

theorem refDiff3_dom {P : Params3} {K : Kern3} (hK : K.Local) (dt : ℝ) {f f' : C3 → ℝ} (h : ∀ G, Dom3 P.gz P.gy P.gx G → f G = f' G) {G : C3}
    (hG : Dom3 P.gz P.gy P.gx G) : refDiff3 P K dt f G = refDiff3 P K dt f' G := by
  unfold refDiff3
  split_ifs with hc
  · rw [h G hG]
    congr 1
    apply hK.diff
    intro i d hd
    exact h _ (dom3_cross_inner hc.1 hc.2 hd)
  · exact h G hG

theorem serialLap_dom {gz gy gx : ℕ} (a : Fin 3) {f f' : C3 → ℝ} (h : ∀ G, Dom3 gz gy gx G → f G = f' G) (G : C3) :
    serialLap gz gy gx 1 false a f G = serialLap gz gy gx 1 false a f' G := by
  unfold serialLap contIx3
  simp only [Bool.false_eq_true, if_false, true_and]
  split_ifs with hA
  · rfl
  · obtain ⟨G1, G2, G3⟩ := G
    have hA' : Away3 gz gy gx 1 (G1, G2, G3) := by
      by_contra hc
      exact hA ⟨rfl, hc⟩
    unfold Away3 at hA'
    dsimp only at hA'
    rw [h (G1, G2, G3) (by unfold Dom3; dsimp only; omega), h ((G1, G2, G3) + axisStep a), h ((G1, G2, G3) - axisStep a)]
    all_goals
      match a with
      | 0 => simp [axisStep, Dom3]; omega
      | 1 => simp [axisStep, Dom3]; omega
      | 2 => simp [axisStep, Dom3]; omega

theorem serialLap_iter_dom {gz gy gx : ℕ} (L : (C3 → ℝ) → C3 → ℝ) (hL : ∀ f f' : C3 → ℝ, (∀ G, Dom3 gz gy gx G → f G = f' G) → ∀ G, L f G = L f' G) (n : ℕ) {f f' : C3 → ℝ}
    (h : ∀ G, Dom3 gz gy gx G → f G = f' G) : ∀ G, Dom3 gz gy gx G → (L^[n] f) G = (L^[n] f') G := by
  induction n with
  | zero => exact h
  | succ n ih =>
    intro G _
    rw [Function.iterate_succ_apply', Function.iterate_succ_apply']
    exact hL _ _ ih G

theorem refFilter3_dom {P : Params3} {f f' : C3 → ℝ} (h : ∀ G, Dom3 P.gz P.gy P.gx G → f G = f' G) {G : C3} (hG : Dom3 P.gz P.gy P.gx G) :
    refFilter3 P f G = refFilter3 P f' G := by
  have dir : ∀ (o : ℕ) (a : Fin 3) {f f' : C3 → ℝ}, (∀ G, Dom3 P.gz P.gy P.gx G → f G = f' G) →
      ∀ G, Dom3 P.gz P.gy P.gx G → serialConvDir P.gz P.gy P.gx 1 false o a f G = serialConvDir P.gz P.gy P.gx 1 false o a f' G := by
    intro o a f f' h G hG
    unfold serialConvDir
    rw [h G hG, serialLap_iter_dom _ (fun f f' h G => serialLap_dom a h G) o h G hG]
  unfold refFilter3
  rcases P.flt with _ | ⟨o, ty⟩
  · exact h G hG
  · dsimp only
    split_ifs
    · unfold serialMultiplicative
      rw [h G hG, serialLap_iter_dom _ (fun f f' h G => serialLap_dom 2 (fun G _ => serialLap_dom 1 (fun G _ => serialLap_dom 0 h G) G) G) o h G hG]
    · unfold serialConvolution
      exact dir o 2 (dir o 1 (dir o 0 h)) G hG

theorem serialPen1_dom {N w : ℕ} (hw : w ≤ N) {U U' : ℤ → ℝ} (h : ∀ j : ℤ, 0 ≤ j → j < N → U j = U' j) (j : ℤ) (h0 : 0 ≤ j) (h1 : j < N) :
    serialPen1 false N w U j = serialPen1 false N w U' j := by
  unfold serialPen1
  by_cases hw0 : w = 0
  · simp only [hw0, or_true, if_true]
    exact h j h0 h1
  · simp only [Bool.false_eq_true, hw0, or_self, if_false]
    have e1 : U (w - 1) = U' (w - 1) := h _ (by omega) (by omega)
    have e2 : ∀ j : ℤ, 0 ≤ j → j < N → (if j < w then U (w - 1) * ramp w j else U j) = if j < w then U' (w - 1) * ramp w j else U' j := by
      intro j h0 h1
      rw [e1, h j h0 h1]
    rw [e2 (N - w) (by omega) (by omega), e2 j h0 h1]

theorem serialPen3_dom {gz gy gx w : ℕ} (hz : w ≤ gz) (hy : w ≤ gy) (hx : w ≤ gx) {f f' : C3 → ℝ} (h : ∀ G, Dom3 gz gy gx G → f G = f' G) {G : C3}
    (hG : Dom3 gz gy gx G) : serialPen3 false gz gy gx w f G = serialPen3 false gz gy gx w f' G := by
  obtain ⟨g1, g2, g3, g4, g5, g6⟩ := hG
  unfold serialPen3
  dsimp only
  refine serialPen1_dom hz (fun z z0 z1 => ?_) _ g1 g2
  refine serialPen1_dom hy (fun y y0 y1 => ?_) _ g3 g4
  exact serialPen1_dom hx (fun x x0 x1 => h _ ⟨z0, z1, y0, y1, x0, x1⟩) _ g5 g6

theorem refVel3_dom {P : Params3} {K : Kern3} {om om' : Fin 3 → C3 → ℝ} (h : ∀ j G, Dom3 P.gz P.gy P.gx G → om j G = om' j G) : refVel3 P K om = refVel3 P K om' := by
  have e : ∀ i, freeSolution3 P.gz P.gy P.gx P.dx (om i) = freeSolution3 P.gz P.gy P.gx P.dx (om' i) := by
    intro i
    funext G
    unfold freeSolution3
    refine Finset.sum_congr rfl fun k hk => Finset.sum_congr rfl fun l hl => Finset.sum_congr rfl fun m hm => ?_
    rw [h i (k, l, m)]
    simp only [Finset.mem_range] at hk hl hm
    unfold Dom3
    dsimp only
    omega
  unfold refVel3
  simp only [e]

/-- What two runs share that go on alike: the fields in the domain, and a penalty zone that hides what lies beyond the sides, or nothing moving there. -/
structure GoAlike3 (P : Params3) (F F' : Fields3) : Prop where
  dom : AgreeDom3 P.gz P.gy P.gx F F'
  side : Wide3 P ∨ P.freeStream = false ∧ (P.w ≤ P.gz ∧ P.w ≤ P.gy ∧ P.w ≤ P.gx) ∧ StillOut3 P.gz P.gy P.gx F.u ∧ StillOut3 P.gz P.gy P.gx F'.u

theorem refVel3_still (P : Params3) (hf : P.freeStream = false) (K : Kern3) (fs : Fin 3 → ℝ) (om : Fin 3 → C3 → ℝ) : StillOut3 P.gz P.gy P.gx (refFree3 P fs (refVel3 P K om)) := by
  intro j G hG
  unfold refFree3 refVel3
  rw [hf]
  simp [hG]

theorem refNS3_alike {P : Params3} {K : Kern3} (hK : K.Local) (dt : ℝ) (fs : Fin 3 → ℝ) {F F' : Fields3} (h : GoAlike3 P F F') :
    GoAlike3 P (refNS3 P K dt fs F) (refNS3 P K dt fs F') := by
  rcases h.side with hW | ⟨hf, hw, hu, hu'⟩
  · refine ⟨fun G hG j => ?_, Or.inl hW⟩
    unfold refNS3
    dsimp only
    rw [refVort3_agree hW hK dt h.dom]
    exact ⟨rfl, rfl⟩
  · have hv : ∀ j G, Dom3 P.gz P.gy P.gx G → refVort3 P K dt F j G = refVort3 P K dt F' j G := by
      intro j G hG
      unfold refVort3
      refine serialPen3_dom hw.1 hw.2.1 hw.2.2 (fun G hG => refFilter3_dom (fun G hG => refDiff3_dom hK dt (fun G hG => ?_) hG) hG) hG
      unfold refUpd3
      rw [crossF_still h.dom hu hu', (h.dom G hG j).1]
    refine ⟨fun G hG j => ⟨hv j G hG, ?_⟩, Or.inr ⟨hf, hw, refVel3_still P hf K fs _, refVel3_still P hf K fs _⟩⟩
    unfold refNS3
    dsimp only
    rw [refVel3_dom hv]

theorem refForcing3_alike {P : Params3} {K : Kern3} (hK : K.Local) (dt : ℝ) (fs : Fin 3 → ℝ) (Φ : Fin 3 → C3 → ℝ) {F F' : Fields3} (h : GoAlike3 P F F') :
    GoAlike3 P (refForcing3 P K dt fs Φ F) (refForcing3 P K dt fs Φ F') := by
  unfold refForcing3
  refine refNS3_alike hK dt fs ⟨fun G hG j => ⟨?_, (h.dom G hG j).2⟩, h.side⟩
  dsimp only
  unfold refUpd3
  rw [(h.dom G hG j).1]

theorem refRun3_alike {ft : String} (hns : isNS ft = true) {P : Params3} {K : Kern3} (hK : K.Local) (cfl tol : ℝ) (ys : List StepSpec3) {F F' : Fields3} (h : GoAlike3 P F F') (t : ℝ) :
    GoAlike3 P (refRun3 ft P K cfl tol ys (F, t)).1 (refRun3 ft P K cfl tol ys (F', t)).1 ∧
    (refRun3 ft P K cfl tol ys (F, t)).2 = (refRun3 ft P K cfl tol ys (F', t)).2 := by
  induction ys generalizing F F' t with
  | nil => exact ⟨h, rfl⟩
  | cons y ys ih =>
    unfold refRun3
    dsimp only
    rw [refDt3_agree h.dom]
    apply ih
    unfold refStep3
    split_ifs with h1 h2 h3
    · exact refNS3_alike hK _ _ h
    · exact refForcing3_alike hK _ _ _ h
    · rw [h3] at hns; cases hns
    · simp [isNS, h1, h2] at hns

/-- a run of a flow without a free stream keeps what lies beyond the sides at rest -/
theorem refRun3_still {ft : String} {P : Params3} (hf : P.freeStream = false) {K : Kern3} (cfl tol : ℝ) (ys : List StepSpec3) {F : Fields3}
    (h : StillOut3 P.gz P.gy P.gx F.u) (t : ℝ) : StillOut3 P.gz P.gy P.gx (refRun3 ft P K cfl tol ys (F, t)).1.u := by
  induction ys generalizing F t with
  | nil => exact h
  | cons y ys ih =>
    unfold refRun3
    dsimp only
    apply ih
    unfold refStep3
    split_ifs
    · exact refVel3_still P hf K _ _
    · exact refVel3_still P hf K _ _
    · exact h
    · exact h

theorem overlay3_still {ft : String} {gz gy gx : ℕ} {F F' : Fields3} (h : StillOut3 gz gy gx F'.u) : StillOut3 gz gy gx (overlay3 ft gz gy gx F F').u := by
  intro j G hG
  unfold overlay3
  dsimp only
  rw [if_neg hG]
  exact h j G hG

/-- the penalty zone is no wider than the grid -/
theorem Fit3.zone {a : SimArgs3} {T : Cart3} [NeZero T.gz] [NeZero T.gy] [NeZero T.gx] (h : Fit3 a T) (hns : isNS a.flowType = true) :
    widthOf a.width ≤ a.gz ∧ widthOf a.width ≤ a.gy ∧ widthOf a.width ≤ a.gx := by
  obtain ⟨-, -, ⟨w, hw, w1, w2, w3, w4⟩, -⟩ := h.ns hns
  obtain ⟨hT, -⟩ := simCheck3_cart h.built
  obtain ⟨e0, e1, e2, -, -, -, -, hZ, hY, hX⟩ := construct3_ok hT
  have hwid : widthOf a.width = w := by rw [hw]; simp [widthOf]
  have l : ∀ {n p g : ℕ}, w ≤ n → g ≠ 0 → p * n = g → w ≤ g := by
    intro n p g h1 h2 e
    have hp : 0 < p := Nat.pos_of_ne_zero fun hp => h2 (by rw [← e, hp, zero_mul])
    rw [← e]
    exact h1.trans (Nat.le_mul_of_pos_left _ hp)
  rw [hwid, ← e0, ← e1, ← e2]
  exact ⟨l w2 (NeZero.ne _) hZ, l w3 (NeZero.ne _) hY, l w4 (NeZero.ne _) hX⟩

section
variable {T T' : Cart3} [NeZero T.gz] [NeZero T.gy] [NeZero T.gx] [NeZero T'.gz] [NeZero T'.gy] [NeZero T'.gx]

/-- C122, flow without bodies: no free stream, any penalty zone, velocity set up as 0 beyond the sides in both simulators.  A run of `xs₁` is checkpointed; a newly
constructed simulator on any decomposition of the same grid, its fields set up in any other way, loads the file and is driven by `xs₂'`.  Nothing raises, and at the end
vorticity and velocity in every inner cell and the time are those of the run of `xs₁` and then `xs₂` without interruption. -/
theorem restart3_still {a a' : SimArgs3} (hsame : a' = { a with pz := a'.pz, py := a'.py, px := a'.px }) (h : Fit3 a T) (h' : Fit3 a' T') (hns : isNS a.flowType = true)
    (hfs : a.freeStream = false)
    {xr : ℝ} (hxr : 0 < xr) {nu : ℝ} (hnu : 0 ≤ nu) {cfl : ℝ} (hcfl : 0 ≤ cfl) {tol : ℝ} (htol : 0 < tol)
    {K : Kern3} (hK : K.Local) (hK0 : ∀ r, K.upd r (fun _ _ => 0) = 0) (time time' : ℝ) (dbl0 dbl0' : World C3 C3 ℝ) (conv0 : Dbl3 T → ℂ) (conv0' : Dbl3 T' → ℂ)
    (sc sc' : ℝ → ℝ → ℝ → ℝ) (om u om' u' : Fin 3 → ℝ → ℝ → ℝ → ℝ)
    (hu : StillOut3 a.gz a.gy a.gx fun j => atCentre3 (xr / a.gx) (u j)) (hu' : StillOut3 a.gz a.gy a.gx fun j => atCentre3 (xr / a.gx) (u' j)) (origin dx : List ℚ) {order : String → List C3} (ho : ∀ s c, c ∈ order s ↔ Valid3 T c)
    {xs₁ xs₂ xs₂' : List StepIn3} {ys₁ ys₂ : List StepSpec3}
    (h1 : List.Forall₂ (Means3 a.gz a.gy a.gx T (simCfg3 a xr nu cfl)) xs₁ ys₁) (h2 : List.Forall₂ (Means3 a.gz a.gy a.gx T (simCfg3 a xr nu cfl)) xs₂ ys₂)
    (h2' : List.Forall₂ (Means3 a'.gz a'.gy a'.gx T' (simCfg3 a' xr nu cfl)) xs₂' ys₂) :
    let start := initFrom3 T a.g xr time dbl0 conv0 sc om u
    let out := simLoop3 (simCfg3 a xr nu cfl) K tol (xs₁ ++ xs₂) start
    ∃ file S, saveSim3 a.flowType a.g origin dx [a.gz, a.gy, a.gx] order (simLoop3 (simCfg3 a xr nu cfl) K tol xs₁ start).1 = .ok file ∧
      loadSim3 a.flowType a.g origin dx [a.gz, a.gy, a.gx] file (initFrom3 T' a.g xr time' dbl0' conv0' sc' om' u') = .ok S ∧
      let out' := simLoop3 (simCfg3 a' xr nu cfl) K tol xs₂' S
      out.2 = none ∧ out'.2 = none ∧ out'.1.time = out.1.time ∧
      ∀ c p c' p', Valid3 T c → Inner3 T a.g p → Valid3 T' c' → Inner3 T' a.g p' → globalIx3 T a.g c p = globalIx3 T' a.g c' p' →
        ∀ j, out'.1.om j c' p' = out.1.om j c p ∧ out'.1.vel j c' p' = out.1.vel j c p := by
  obtain ⟨hT, -⟩ := simCheck3_cart h.built
  obtain ⟨file, S, f1, f2, f3, f4, f5, f6, f7, f8⟩ :=
    restart3_core hsame h h' hxr hnu hcfl htol hK hK0 time time' dbl0 dbl0' conv0 conv0' sc sc' om u om' u' origin dx ho h1 h2 h2'
  have n4 : a.flowType ≠ "passive_scalar" := by intro e; rw [e] at hns; cases hns
  have hw := Fit3.zone h hns
  have hs₁ := refRun3_still (ft := a.flowType) (P := ⟨a.gz, a.gy, a.gx, xr, nu, widthOf a.width, a.freeStream, filterNums (filterInUse a)⟩) hfs (K := K) cfl tol ys₁
    (F := fieldsFrom3 (xr / a.gx) sc om u) hu time
  generalize hr : refRun3 a.flowType ⟨a.gz, a.gy, a.gx, xr, nu, widthOf a.width, a.freeStream, filterNums (filterInUse a)⟩ K cfl tol ys₁
    (fieldsFrom3 (xr / a.gx) sc om u, time) = r1 at *
  obtain ⟨g1, g2⟩ := refRun3_alike (P := ⟨a.gz, a.gy, a.gx, xr, nu, widthOf a.width, a.freeStream, filterNums (filterInUse a)⟩) hns hK cfl tol ys₂
    (F := overlay3 a.flowType a.gz a.gy a.gx r1.1 (fieldsFrom3 (xr / a.gx) sc' om' u')) (F' := r1.1)
    ⟨overlay3_agree n4 a.gz a.gy a.gx r1.1 _, Or.inr ⟨hfs, hw, overlay3_still hu', hs₁⟩⟩ r1.2
  intro start out
  refine ⟨file, S, f1, f2, ?_⟩
  intro out'
  refine ⟨f3, f4, (f6.trans g2).trans f5.symm, ?_⟩
  intro c p c' p' hc hp hc' hp' hG j
  have hD : Dom3 a.gz a.gy a.gx (globalIx3 T a.g c p) := (dom3_iff hT _).2 (inner_inDomain3 hT hc hp)
  obtain ⟨k1, k2⟩ := g1.dom _ hD j
  obtain ⟨e1, e2⟩ := (f8 c' p' hc' hp').2 j
  obtain ⟨d1, d2⟩ := (f7 c p hc hp).2 j
  rw [← hG] at e1 e2
  exact ⟨(e1.trans k1).trans d1.symm, (e2.trans k2).trans d2.symm⟩

end

/-! ## The hypotheses can be met -/

/-- A simulator with the default penalty zone of 2 cells, a filter and no free stream, on two ranks and on one; a restart of it is not covered by `restart3`. -/
example : Fit3 ⟨16, 16, 16, 2, 1, 1, "navier_stokes", true, some (.int 5, "convolution"), false, 2, .int 2⟩ ⟨16, 16, 16, 2, 1, 1, 8, 16, 16, false⟩ ∧
    Fit3 ⟨16, 16, 16, 1, 1, 1, "navier_stokes", true, some (.int 5, "convolution"), false, 2, .int 2⟩ ⟨16, 16, 16, 1, 1, 1, 16, 16, 16, false⟩ ∧
    ∀ xr nu, ¬ Wide3 ⟨16, 16, 16, xr, nu, 2, false, some (5, "convolution")⟩ := by
  refine ⟨⟨by decide, (by intro h; cases h), fun _ => ⟨by decide, by decide, ⟨2, rfl, by decide, by decide, by decide, by decide⟩, by unfold EvenTopo3; decide, ?_⟩⟩,
    ⟨by decide, (by intro h; cases h), fun _ => ⟨by decide, by decide, ⟨2, rfl, by decide, by decide, by decide, by decide⟩, by unfold EvenTopo3; decide, ?_⟩⟩, ?_⟩
  · intro o ty hf
    simp only [filterInUse, if_true, Option.getD_some, Option.some.injEq, Prod.mk.injEq, PyNum.int.injEq] at hf
    omega
  · intro o ty hf
    simp only [filterInUse, if_true, Option.getD_some, Option.some.injEq, Prod.mk.injEq, PyNum.int.injEq] at hf
    omega
  · intro xr nu h
    have h1 : 5 + 3 ≤ 2 := h.w
    omega

/-- A velocity field set up as `max(0, x)` (and so on) times anything is 0 in front of the domain; here a bump that is positive in every cell of a grid of 16 x 16 x 16 cells
and 0 beyond its sides. -/
example : (StillOut3 16 16 16 fun j => atCentre3 1 ((fun _ x y z => max 0 x * max 0 (16 - x) * (max 0 y * max 0 (16 - y)) * (max 0 z * max 0 (16 - z)) : Fin 3 → ℝ → ℝ → ℝ → ℝ) j)) ∧
    ∀ G, Dom3 16 16 16 G → 0 < atCentre3 1 (fun x y z => max 0 x * max 0 (16 - x) * (max 0 y * max 0 (16 - y)) * (max 0 z * max 0 (16 - z))) G := by
  have lo : ∀ a : ℤ, a < 0 → max (0 : ℝ) (((a : ℝ) + 1 / 2) * 1) = 0 := by
    intro a ha
    have h : (a : ℝ) ≤ -1 := by exact_mod_cast (by omega : a ≤ -1)
    exact max_eq_left (by linarith)
  have hi : ∀ a : ℤ, 16 ≤ a → max (0 : ℝ) (16 - ((a : ℝ) + 1 / 2) * 1) = 0 := by
    intro a ha
    have h : (16 : ℝ) ≤ a := by exact_mod_cast ha
    exact max_eq_left (by linarith)
  have mid : ∀ a : ℤ, 0 ≤ a → a < 16 → 0 < max (0 : ℝ) (((a : ℝ) + 1 / 2) * 1) * max (0 : ℝ) (16 - ((a : ℝ) + 1 / 2) * 1) := by
    intro a h0 h1
    have h0' : (0 : ℝ) ≤ a := by exact_mod_cast h0
    have h1' : (a : ℝ) ≤ 15 := by exact_mod_cast (by omega : a ≤ 15)
    exact mul_pos (lt_max_of_lt_right (by linarith)) (lt_max_of_lt_right (by linarith))
  constructor
  · intro j G hG
    unfold atCentre3
    unfold Dom3 at hG
    have c : G.1 < 0 ∨ 16 ≤ G.1 ∨ G.2.1 < 0 ∨ 16 ≤ G.2.1 ∨ G.2.2 < 0 ∨ 16 ≤ G.2.2 := by
      push_cast at hG
      omega
    dsimp only
    rcases c with c | c | c | c | c | c <;> first | rw [lo _ c] | rw [hi _ c]
    all_goals ring
  · rintro G ⟨g1, g2, g3, g4, g5, g6⟩
    unfold atCentre3
    exact mul_pos (mul_pos (mid _ g5 g6) (mid _ g3 g4)) (mid _ g1 g2)

/-! ## With a free stream it is not exact -/

/-- A grid of 16 x 16 x 16 cells on one rank. -/
def exT3 : Cart3 := ⟨16, 16, 16, 1, 1, 1, 16, 16, 16, false⟩

def exA3 : SimArgs3 := ⟨16, 16, 16, 1, 1, 1, "navier_stokes", false, none, true, 2, .int 2⟩

instance : NeZero exT3.gz := ⟨by decide⟩
instance : NeZero exT3.gy := ⟨by decide⟩
instance : NeZero exT3.gx := ⟨by decide⟩

/-- Kernels of the example: the flux of diffusion is the difference to the neighbour in front along x; the update adds the first component of the field in the neighbour in front
to the third component of the vorticity. -/
noncomputable def exK3 : Kern3 where
  diff _ f := f () (0, 0, -1) - f () (0, 0, 0)
  adv _ _ := 0
  curl _ _ := (0, 0, 0)
  upd a f := (0, 0, a * f 0 (0, 0, -1))
  div _ _ := 0

theorem exK3_local : exK3.Local := by
  constructor <;> intro a A B h <;> simp only [exK3]
  · rw [h _ _ (by simp [Cross3]), h _ _ (by simp [Cross3])]
  · rw [h _ _ (by simp [Cross3])]

theorem exFit3 : Fit3 exA3 exT3 :=
  ⟨by decide, (by intro h; cases h), fun _ => ⟨by decide, by decide, ⟨2, rfl, by decide, by decide, by decide, by decide⟩, by unfold EvenTopo3; decide,
    (by intro o ty h; cases h)⟩⟩

theorem ramp2_zero : ramp 2 0 = 0 := by unfold ramp; simp

theorem exPen3 (f : C3 → ℝ) : serialPen3 false 16 16 16 2 f (5, 5, 1) = f (5, 5, 1) * Real.sin (Real.pi / 4) ∧ serialPen3 false 16 16 16 2 f (5, 5, 0) = 0 ∧
    serialPen3 false 16 16 16 2 f (5, 5, -1) = -(f (5, 5, 1) * Real.sin (Real.pi / 4)) := by
  unfold serialPen3 serialPen1
  norm_num [ramp2_one, ramp2_neg, ramp2_zero]

/-- one step of the example, in the first two columns and in the first ghost column -/
theorem exStep3 (P : Params3) (b : Bool) (hP : P = ⟨16, 16, 16, 16, 0, 2, b, none⟩) (fs : Fin 3 → ℝ) (Φ : Fin 3 → C3 → ℝ) (F : Fields3) (q : ℝ)
    (hq : q = F.om 2 (5, 5, 0) + (F.u 1 (5, 5, -1) * F.om 2 (5, 5, -1) - F.u 2 (5, 5, -1) * F.om 1 (5, 5, -1))) :
    let F' := refStep3 "navier_stokes" P exK3 2 fs Φ F
    F'.om 2 (5, 5, 1) = q * Real.sin (Real.pi / 4) ∧ F'.om 2 (5, 5, 0) = 0 ∧ F'.om 2 (5, 5, -1) = -(q * Real.sin (Real.pi / 4)) ∧ ∀ j G, F'.u j G = if b then fs j else 0 := by
  intro F'
  have key : refDiff3 P exK3 2 (refUpd3 P exK3 2 (crossF F.u F.om) F.om 2) (5, 5, 1) = q := by
    subst hP
    have hD1 : Dom3 16 16 16 ((5, 5, 1) : C3) := by unfold Dom3; norm_num
    have hD0 : Dom3 16 16 16 ((5, 5, 0) : C3) := by unfold Dom3; norm_num
    have hE : ¬ OnEdge3 16 16 16 ((5, 5, 1) : C3) := by unfold OnEdge3; norm_num
    have hx : Params3.dx ⟨16, 16, 16, 16, 0, 2, b, none⟩ = 1 := by unfold Params3.dx; norm_num
    unfold refDiff3
    dsimp only
    rw [if_pos ⟨hD1, hE⟩]
    simp only [exK3]
    have e0 : ((5 : ℤ) + 0, (5 : ℤ) + 0, (1 : ℤ) + -1) = (5, 5, 0) := by norm_num
    have e1 : ((5 : ℤ) + 0, (5 : ℤ) + 0, (1 : ℤ) + 0) = (5, 5, 1) := by norm_num
    rw [e0, e1]
    have u0 : refUpd3 ⟨16, 16, 16, 16, 0, 2, b, none⟩ exK3 2 (crossF F.u F.om) F.om 2 (5, 5, 0) = q := by
      unfold refUpd3
      dsimp only
      rw [if_pos hD0, hx, hq]
      simp only [exK3, comp3, crossF]
      norm_num
      rfl
    simp only [exK3] at u0
    rw [u0]
    ring
  have st : F' = refNS3 P exK3 2 fs F := by
    change refStep3 _ _ _ _ _ _ _ = _
    unfold refStep3
    rw [if_pos rfl]
  have om : F'.om 2 = serialPen3 false 16 16 16 2 (refDiff3 P exK3 2 (refUpd3 P exK3 2 (crossF F.u F.om) F.om 2)) := by
    rw [st]
    subst hP
    rfl
  have u : F'.u = refFree3 P fs (refVel3 P exK3 F'.om) := by rw [st]; rfl
  rw [om, (exPen3 _).1, (exPen3 _).2.1, (exPen3 _).2.2, key]
  refine ⟨rfl, rfl, rfl, fun j G => ?_⟩
  rw [u]
  subst hP
  unfold refFree3 refVel3
  simp only [exK3, comp3]
  match j with
  | 0 => simp
  | 1 => simp
  | 2 => simp

/-- C122: with a free stream and the default penalty zone of 2 cells a restart is not exact.  The vorticity along z is 1 everywhere, the fluid at rest, the free stream along
y; the run is checkpointed after one step (all its messages delivered) and loaded into a new simulator on the same decomposition, all its fields 0; after one more step
the vorticity in a cell of the second column is 0, in the uninterrupted run it is -1/2. -/
theorem restart3_free_stream_inexact : ∃ x y, Means3 16 16 16 exT3 (simCfg3 exA3 16 0 0) x y ∧
    let C := simCfg3 exA3 16 0 0
    let start := initFrom3 exT3 2 16 0 (fun _ _ => 0) (fun _ => 0) (fun _ _ _ => 0) (fun j _ _ _ => if j = 2 then 1 else 0) (fun _ _ _ _ => 0)
    let fresh := initFrom3 exT3 2 16 0 (fun _ _ => 0) (fun _ => 0) (fun _ _ _ => 0) (fun _ _ _ _ => 0) (fun _ _ _ _ => 0)
    ∃ file S, saveSim3 exA3.flowType 2 [0, 0, 0] [1, 1, 1] [16, 16, 16] (fun _ => ranks3 exT3) (simLoop3 C exK3 1 [x] start).1 = .ok file ∧
      loadSim3 exA3.flowType 2 [0, 0, 0] [1, 1, 1] [16, 16, 16] file fresh = .ok S ∧
      (simLoop3 C exK3 1 [x, x] start).1.om 2 (0, 0, 0) (7, 7, 3) = -1 / 2 ∧ (simLoop3 C exK3 1 [x] S).1.om 2 (0, 0, 0) (7, 7, 3) = 0 := by
  obtain ⟨sch, hs⟩ := scheds3_exist exT3 2 (simCfg3 exA3 16 0 0).full
  have hm : Means3 16 16 16 exT3 (simCfg3 exA3 16 0 0) ⟨.fixed 2, some fun j => if j = 1 then 1 else 0, fun _ _ _ => 0, sch⟩
      ⟨.fixed 2, fun j => if j = 1 then 1 else 0, fun _ _ => 0⟩ :=
    ⟨rfl, fun _ => rfl, hs, fun h => absurd h (by decide)⟩
  refine ⟨_, _, hm, ?_⟩
  intro C start fresh
  obtain ⟨hT, hft⟩ := simCheck3_cart exFit3.built
  have good := fun hn => exFit3.good 16 0 0 hn
  have ps : isNS C.flowType = false → GoodPassive3 exT3 C := fun h => absurd h (by decide)
  have hinit : SimHolds3 C (fieldsFrom3 (C.xr / exA3.gx) (fun _ _ _ => 0) (fun j _ _ _ => if j = 2 then 1 else 0) (fun _ _ _ _ => 0)) start :=
    initFrom3_holds hT C 0 (fun _ _ => 0) (fun _ => 0) (fun _ _ _ => 0) (fun j _ _ _ => if j = 2 then 1 else 0) (fun _ _ _ _ => 0)
  have hinit' : SimHolds3 C (fieldsFrom3 (C.xr / exA3.gx) (fun _ _ _ => 0) (fun _ _ _ _ => 0) (fun _ _ _ _ => 0)) fresh :=
    initFrom3_holds hT C 0 (fun _ _ => 0) (fun _ => 0) (fun _ _ _ => 0) (fun _ _ _ _ => 0) (fun _ _ _ _ => 0)
  have h16 : (0 : ℝ) < C.xr := by norm_num [C, simCfg3]
  have hK0 : ∀ a, exK3.upd a (fun _ _ => 0) = 0 := by intro a; simp [exK3]
  obtain ⟨-, r2, r3⟩ := simLoop3_holds hT good ps h16 hft le_rfl le_rfl one_pos exK3_local hK0 (.cons hm .nil) hinit
  obtain ⟨-, q2, -⟩ := simLoop3_holds hT good ps h16 hft le_rfl le_rfl one_pos exK3_local hK0 (.cons hm (.cons hm .nil)) hinit
  obtain ⟨file, S, f1, f2, -, f4⟩ := loaded3_holds hT hT exA3.flowType [0, 0, 0] [1, 1, 1] (order := fun _ => ranks3 exT3) (fun _ _ => mem_ranks3) (C := C) (C' := C) rfl r2 hinit'
  obtain ⟨-, s2, -⟩ := simLoop3_holds hT good ps h16 hft le_rfl le_rfl one_pos exK3_local hK0 (.cons hm .nil) f4
  refine ⟨file, S, f1, f2, ?_, ?_⟩
  · have hc : Valid3 exT3 (0, 0, 0) := by unfold Valid3; decide
    have hp : Inner3 exT3 ((2 : ℕ) : ℤ) (7, 7, 3) := by unfold Inner3; decide
    have e := q2.om 2 (0, 0, 0) (7, 7, 3) hc (inArr_of_inner3 hp) (Or.inl hp)
    have eG : globalIx3 exT3 ((C.g : ℕ) : ℤ) (0, 0, 0) (7, 7, 3) = (5, 5, 1) := by decide
    rw [eG] at e
    refine e.trans ?_
    unfold refRun3 refRun3 refRun3
    dsimp only
    obtain ⟨-, a2, a3, a4⟩ := exStep3 _ true rfl (fun j => if j = 1 then 1 else 0) (fun _ _ => 0) (fieldsFrom3 (C.xr / exA3.gx) (fun _ _ _ => 0) (fun j _ _ _ => if j = 2 then 1 else 0)
      (fun _ _ _ _ => 0)) 1 (by simp [fieldsFrom3, atCentre3])
    refine ((exStep3 _ true rfl _ (fun _ _ => 0) _ _ rfl).1).trans ?_
    refine (congrArg (· * Real.sin (Real.pi / 4)) (show _ = -Real.sin (Real.pi / 4) from ?_)).trans ?_
    · refine (congrArg₂ (· + ·) a2 (congrArg₂ (· - ·) (congrArg₂ (· * ·) (a4 1 _) a3) (congrArg (· * _) (a4 2 _)))).trans ?_
      simp
    · rw [Real.sin_pi_div_four]
      have := Real.mul_self_sqrt (show (0 : ℝ) ≤ 2 by norm_num)
      linear_combination (-1 / 4 : ℝ) * this
  · have hc : Valid3 exT3 (0, 0, 0) := by unfold Valid3; decide
    have hp : Inner3 exT3 ((2 : ℕ) : ℤ) (7, 7, 3) := by unfold Inner3; decide
    have e := s2.om 2 (0, 0, 0) (7, 7, 3) hc (inArr_of_inner3 hp) (Or.inl hp)
    have eG : globalIx3 exT3 ((C.g : ℕ) : ℤ) (0, 0, 0) (7, 7, 3) = (5, 5, 1) := by decide
    rw [eG] at e
    refine e.trans ?_
    unfold refRun3 refRun3
    dsimp only
    obtain ⟨-, a2, -, -⟩ := exStep3 _ true rfl (fun j => if j = 1 then 1 else 0) (fun _ _ => 0) (fieldsFrom3 (C.xr / exA3.gx) (fun _ _ _ => 0) (fun j _ _ _ => if j = 2 then 1 else 0)
      (fun _ _ _ _ => 0)) 1 (by simp [fieldsFrom3, atCentre3])
    refine ((exStep3 _ true rfl _ (fun _ _ => 0) _ 0 ?_).1).trans (zero_mul _)
    clear e eG f1 f2 f4 s2 q2 r2
    have hD0 : Dom3 exA3.gz exA3.gy exA3.gx ((5, 5, 0) : C3) := by unfold Dom3; decide
    have hDm : ¬ Dom3 exA3.gz exA3.gy exA3.gx ((5, 5, -1) : C3) := by unfold Dom3; decide
    have hf : exA3.flowType ≠ "passive_scalar" := by decide
    unfold overlay3
    dsimp only
    rw [if_pos ⟨hf, hD0⟩, if_neg hDm, if_neg hDm, if_neg (fun h => hDm h.2), if_neg (fun h => hDm h.2)]
    unfold refRun3 refRun3
    dsimp only
    refine (?_ : (0 : ℝ) = _ + _)
    refine ((congrArg₂ (· + ·) a2 ?_).trans (add_zero (0 : ℝ))).symm
    simp [fieldsFrom3, atCentre3]

def exB3 : SimArgs3 := { exA3 with freeStream := false }

theorem exFitB3 : Fit3 exB3 exT3 :=
  ⟨by decide, (by intro h; cases h), fun _ => ⟨by decide, by decide, ⟨2, rfl, by decide, by decide, by decide, by decide⟩, by unfold EvenTopo3; decide,
    (by intro o ty h; cases h)⟩⟩

/-- C122: the velocity beyond the sides has to be 0 in the new simulator.  As before, without a free stream; the new simulator is set up with velocity 1 along y and vorticity 1
along z everywhere.  After one more step the vorticity in a cell of the second column is positive, in the uninterrupted run it is 0. -/
theorem restart3_moving_beyond_inexact : ∃ x y, Means3 16 16 16 exT3 (simCfg3 exB3 16 0 0) x y ∧
    let C := simCfg3 exB3 16 0 0
    let start := initFrom3 exT3 2 16 0 (fun _ _ => 0) (fun _ => 0) (fun _ _ _ => 0) (fun j _ _ _ => if j = 2 then 1 else 0) (fun _ _ _ _ => 0)
    let fresh := initFrom3 exT3 2 16 0 (fun _ _ => 0) (fun _ => 0) (fun _ _ _ => 0) (fun j _ _ _ => if j = 2 then 1 else 0) (fun j _ _ _ => if j = 1 then 1 else 0)
    ∃ file S, saveSim3 exB3.flowType 2 [0, 0, 0] [1, 1, 1] [16, 16, 16] (fun _ => ranks3 exT3) (simLoop3 C exK3 1 [x] start).1 = .ok file ∧
      loadSim3 exB3.flowType 2 [0, 0, 0] [1, 1, 1] [16, 16, 16] file fresh = .ok S ∧
      (simLoop3 C exK3 1 [x, x] start).1.om 2 (0, 0, 0) (7, 7, 3) = 0 ∧ (simLoop3 C exK3 1 [x] S).1.om 2 (0, 0, 0) (7, 7, 3) = Real.sqrt 2 / 2 := by
  obtain ⟨sch, hs⟩ := scheds3_exist exT3 2 (simCfg3 exB3 16 0 0).full
  have hm : Means3 16 16 16 exT3 (simCfg3 exB3 16 0 0) ⟨.fixed 2, some fun j => if j = 1 then 1 else 0, fun _ _ _ => 0, sch⟩
      ⟨.fixed 2, fun j => if j = 1 then 1 else 0, fun _ _ => 0⟩ :=
    ⟨rfl, fun _ => rfl, hs, fun h => absurd h (by decide)⟩
  refine ⟨_, _, hm, ?_⟩
  intro C start fresh
  obtain ⟨hT, hft⟩ := simCheck3_cart exFitB3.built
  have good := fun hn => exFitB3.good 16 0 0 hn
  have ps : isNS C.flowType = false → GoodPassive3 exT3 C := fun h => absurd h (by decide)
  have hinit : SimHolds3 C (fieldsFrom3 (C.xr / exB3.gx) (fun _ _ _ => 0) (fun j _ _ _ => if j = 2 then 1 else 0) (fun _ _ _ _ => 0)) start :=
    initFrom3_holds hT C 0 (fun _ _ => 0) (fun _ => 0) (fun _ _ _ => 0) (fun j _ _ _ => if j = 2 then 1 else 0) (fun _ _ _ _ => 0)
  have hinit' : SimHolds3 C (fieldsFrom3 (C.xr / exB3.gx) (fun _ _ _ => 0) (fun j _ _ _ => if j = 2 then 1 else 0) (fun j _ _ _ => if j = 1 then 1 else 0)) fresh :=
    initFrom3_holds hT C 0 (fun _ _ => 0) (fun _ => 0) (fun _ _ _ => 0) (fun j _ _ _ => if j = 2 then 1 else 0) (fun j _ _ _ => if j = 1 then 1 else 0)
  have h16 : (0 : ℝ) < C.xr := by norm_num [C, simCfg3]
  have hK0 : ∀ a, exK3.upd a (fun _ _ => 0) = 0 := by intro a; simp [exK3]
  obtain ⟨-, r2, r3⟩ := simLoop3_holds hT good ps h16 hft le_rfl le_rfl one_pos exK3_local hK0 (.cons hm .nil) hinit
  obtain ⟨-, q2, -⟩ := simLoop3_holds hT good ps h16 hft le_rfl le_rfl one_pos exK3_local hK0 (.cons hm (.cons hm .nil)) hinit
  obtain ⟨file, S, f1, f2, -, f4⟩ := loaded3_holds hT hT exB3.flowType [0, 0, 0] [1, 1, 1] (order := fun _ => ranks3 exT3) (fun _ _ => mem_ranks3) (C := C) (C' := C) rfl r2 hinit'
  obtain ⟨-, s2, -⟩ := simLoop3_holds hT good ps h16 hft le_rfl le_rfl one_pos exK3_local hK0 (.cons hm .nil) f4
  refine ⟨file, S, f1, f2, ?_, ?_⟩
  · have hc : Valid3 exT3 (0, 0, 0) := by unfold Valid3; decide
    have hp : Inner3 exT3 ((2 : ℕ) : ℤ) (7, 7, 3) := by unfold Inner3; decide
    have e := q2.om 2 (0, 0, 0) (7, 7, 3) hc (inArr_of_inner3 hp) (Or.inl hp)
    have eG : globalIx3 exT3 ((C.g : ℕ) : ℤ) (0, 0, 0) (7, 7, 3) = (5, 5, 1) := by decide
    rw [eG] at e
    refine e.trans ?_
    unfold refRun3 refRun3 refRun3
    dsimp only
    obtain ⟨-, a2, a3, a4⟩ := exStep3 _ false rfl (fun j => if j = 1 then 1 else 0) (fun _ _ => 0) (fieldsFrom3 (C.xr / exB3.gx) (fun _ _ _ => 0) (fun j _ _ _ => if j = 2 then 1 else 0)
      (fun _ _ _ _ => 0)) 1 (by simp [fieldsFrom3, atCentre3])
    refine ((exStep3 _ false rfl _ (fun _ _ => 0) _ _ rfl).1).trans ?_
    refine (congrArg (· * Real.sin (Real.pi / 4)) (show _ = (0 : ℝ) from ?_)).trans (zero_mul _)
    refine (congrArg₂ (· + ·) a2 (congrArg₂ (· - ·) (congrArg (· * _) (a4 1 _)) (congrArg (· * _) (a4 2 _)))).trans ?_
    simp
  · have hc : Valid3 exT3 (0, 0, 0) := by unfold Valid3; decide
    have hp : Inner3 exT3 ((2 : ℕ) : ℤ) (7, 7, 3) := by unfold Inner3; decide
    have e := s2.om 2 (0, 0, 0) (7, 7, 3) hc (inArr_of_inner3 hp) (Or.inl hp)
    have eG : globalIx3 exT3 ((C.g : ℕ) : ℤ) (0, 0, 0) (7, 7, 3) = (5, 5, 1) := by decide
    rw [eG] at e
    refine e.trans ?_
    unfold refRun3 refRun3
    dsimp only
    obtain ⟨-, a2, -, -⟩ := exStep3 _ false rfl (fun j => if j = 1 then 1 else 0) (fun _ _ => 0) (fieldsFrom3 (C.xr / exB3.gx) (fun _ _ _ => 0) (fun j _ _ _ => if j = 2 then 1 else 0)
      (fun _ _ _ _ => 0)) 1 (by simp [fieldsFrom3, atCentre3])
    refine ((exStep3 _ false rfl _ (fun _ _ => 0) _ 1 ?_).1).trans (by rw [one_mul, Real.sin_pi_div_four])
    clear e eG f1 f2 f4 s2 q2 r2
    have hD0 : Dom3 exB3.gz exB3.gy exB3.gx ((5, 5, 0) : C3) := by unfold Dom3; decide
    have hDm : ¬ Dom3 exB3.gz exB3.gy exB3.gx ((5, 5, -1) : C3) := by unfold Dom3; decide
    have hf : exB3.flowType ≠ "passive_scalar" := by decide
    unfold overlay3
    dsimp only
    rw [if_pos ⟨hf, hD0⟩, if_neg hDm, if_neg hDm, if_neg (fun h => hDm h.2), if_neg (fun h => hDm h.2)]
    unfold refRun3 refRun3
    dsimp only
    refine (?_ : (1 : ℝ) = _ + _)
    refine ((congrArg₂ (· + ·) a2 ?_).trans (zero_add (1 : ℝ))).symm
    simp [fieldsFrom3, atCentre3]

end Sopht
