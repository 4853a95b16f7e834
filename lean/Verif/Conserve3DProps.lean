import Verif.Conserve3D

/-! # Circulation, maximum principle and divergence in 3D on any number of ranks (C90, C91, C92, C93) -/

namespace Sopht

open Finset

variable {gz gy gx : ℕ} {T : Cart3} [NeZero T.gz] [NeZero T.gy] [NeZero T.gx]

/-- The numbers of a step of the simulator constructed with `a`. -/
def argParams3 (a : SimArgs3) (xr nu : ℝ) : Params3 := ⟨a.gz, a.gy, a.gx, xr, nu, widthOf a.width, a.freeStream, filterNums (filterInUse a)⟩

/-- Cells the fields may spread per time step: two for the advection or one for the vorticity update, one for the diffusion, and the order of the filter. -/
def reach3 (a : SimArgs3) : ℕ := 3 + fltOrder (filterNums (filterInUse a))

omit [NeZero T.gz] [NeZero T.gy] [NeZero T.gx] in
theorem innerTotal3_holds {pz py px : ℕ} {per : Bool} (hT : mkCart3 gz gy gx pz py px per = .ok T) {g : ℕ} {F : C3 → ℝ} {v : World C3 C3 ℝ}
    (h : Holds3 T g F v) : innerTotal3 T g v = total3 gz gy gx F := by
  unfold innerTotal3 total3
  rw [← sum_blocks3 hT g F]
  refine Finset.sum_congr rfl fun c hc => Finset.sum_congr rfl fun p hp => ?_
  exact h c p (mem_rankSet3.1 hc) (mem_innerSet3.1 hp)

omit [NeZero T.gz] [NeZero T.gy] [NeZero T.gx] in
theorem fit3_order {a : SimArgs3} (h : Fit3 a T) (hns : isNS a.flowType = true) : ∀ p ty, filterNums (filterInUse a) = some (p, ty) → 1 ≤ p :=
  (h.good 0 0 0 hns).flt

/-- **C90 (3D)** The sum of every vorticity component (or of the passive vector's, or of the passive scalar) over the inner cells of all ranks does not change in any number of
time steps of any size, with or without forcing and filter, as long as field and forcing cannot have reached the sides or the penalty zone. -/
theorem circulation3 {a : SimArgs3} (h : Fit3 a T) {xr : ℝ} (hxr : 0 < xr) {nu : ℝ} (hnu : 0 ≤ nu) {cfl : ℝ} (hcfl : 0 ≤ cfl) {tol : ℝ} (htol : 0 < tol)
    {K : Kern3} (hK : K.Local) (hd : SevenPoint K.diff) (ha : FluxForm3 K.adv) (hu : CentralCurl3 K.upd) (time : ℝ) (dbl0 : World C3 C3 ℝ) (conv0 : Dbl3 T → ℂ)
    (sc : ℝ → ℝ → ℝ → ℝ) (om u : Fin 3 → ℝ → ℝ → ℝ → ℝ) {xs : List StepIn3} {ys : List StepSpec3}
    (hxy : List.Forall₂ (Means3 a.gz a.gy a.gx T (simCfg3 a xr nu cfl)) xs ys)
    (hΦ : ∀ y ∈ ys, ∀ j, Within3 a.gz a.gy a.gx (max (widthOf a.width) 1 + reach3 a * ys.length + 1) (y.Φ j)) :
    let start := initFrom3 T a.g xr time dbl0 conv0 sc om u
    let out := simLoop3 (simCfg3 a xr nu cfl) K tol xs start
    out.2 = none ∧
    ((∀ j, Within3 a.gz a.gy a.gx (max (widthOf a.width) 1 + reach3 a * ys.length) (atCentre3 (xr / a.gx) (om j))) →
      ∀ j, innerTotal3 T a.g (out.1.om j) = innerTotal3 T a.g (start.om j)) ∧
    (Within3 a.gz a.gy a.gx (max (widthOf a.width) 1 + reach3 a * ys.length) (atCentre3 (xr / a.gx) sc) →
      innerTotal3 T a.g out.1.sc = innerTotal3 T a.g start.sc) := by
  obtain ⟨hT, hft⟩ := simCheck3_cart h.built
  have hK0 : ∀ r, K.upd r (fun _ _ => 0) = 0 := fun r => by rw [hu]; simp
  obtain ⟨r1, -, r3⟩ := sim3_run h hxr hnu hcfl htol hK hK0 time dbl0 conv0 sc om u hxy
  have hinit := initFrom3_holds hT (simCfg3 a xr nu cfl) time dbl0 conv0 sc om u
  obtain ⟨t1, t2⟩ := run3_kept (P := argParams3 a xr nu) hd ha hu a.flowType (fit3_order h) cfl tol ys (s := (fieldsFrom3 (xr / a.gx) sc om u, time)) hΦ
  intro start out
  refine ⟨r1, fun ho j => ?_, fun hs => ?_⟩
  · rw [innerTotal3_holds hT (g := a.g) (F := atCentre3 (xr / a.gx) (om j)) (v := start.om j) fun c p hc hp => hinit.om j c p hc (inArr_of_inner3 hp) (Or.inl hp),
      innerTotal3_holds hT fun c p hc hp => ((r3 c p hc hp).2 j).1]
    exact (t1 ho).2.1 j
  · rw [innerTotal3_holds hT (g := a.g) (F := atCentre3 (xr / a.gx) sc) (v := start.sc) fun c p hc hp => hinit.sc c p hc (inArr_of_inner3 hp) (Or.inl hp),
      innerTotal3_holds hT fun c p hc hp => (r3 c p hc hp).1]
    exact t2 hs

/-- **C93** Navier-Stokes in 3D, with or without forcing and filter: if the initial vorticity is discretely divergence free and neither it nor the forcing can have reached the
sides or the penalty zone, then after any number of steps of any size the vorticity held by the ranks is divergence free in every cell of the global grid, also across the
boundaries between ranks, and `get_vorticity_divergence_l2_norm` returns exactly 0. -/
theorem vorticity3_solenoidal {a : SimArgs3} (h : Fit3 a T) (hns : isNS a.flowType = true) {xr : ℝ} (hxr : 0 < xr) {nu : ℝ} (hnu : 0 ≤ nu) {cfl : ℝ} (hcfl : 0 ≤ cfl) {tol : ℝ}
    (htol : 0 < tol) {K : Kern3} (hK : K.Local) (hd : SevenPoint K.diff) (ha : FluxForm3 K.adv) (hu : CentralCurl3 K.upd) (hv : CentralDivKern3 K.div) (time : ℝ)
    (dbl0 : World C3 C3 ℝ) (conv0 : Dbl3 T → ℂ) (sc : ℝ → ℝ → ℝ → ℝ) (om u : Fin 3 → ℝ → ℝ → ℝ → ℝ) {xs : List StepIn3} {ys : List StepSpec3}
    (hxy : List.Forall₂ (Means3 a.gz a.gy a.gx T (simCfg3 a xr nu cfl)) xs ys)
    (hΦ : ∀ y ∈ ys, ∀ j, Within3 a.gz a.gy a.gx (max (widthOf a.width) 1 + reach3 a * ys.length + 1) (y.Φ j))
    (hom : ∀ j, Within3 a.gz a.gy a.gx (max (widthOf a.width) 1 + reach3 a * ys.length) (atCentre3 (xr / a.gx) (om j)))
    (h0 : ∀ G, centralDiv3 (fun j => atCentre3 (xr / a.gx) (om j)) G = 0) :
    let out := (simLoop3 (simCfg3 a xr nu cfl) K tol xs (initFrom3 T a.g xr time dbl0 conv0 sc om u)).1
    (∃ W : Fin 3 → C3 → ℝ, (∀ j, Holds3 T a.g (W j) (out.om j)) ∧ (∀ j, Within3 a.gz a.gy a.gx (max (widthOf a.width) 1) (W j)) ∧ ∀ G, centralDiv3 W G = 0) ∧
    ∀ sch : Sched3, Complete (multiMsgs3 T a.g (simCfg3 a xr nu cfl).full ([0, 1, 2] : List (Fin 3))) sch.2 → (divNorm3 (simCfg3 a xr nu cfl) K sch out).2 = .ok 0 := by
  obtain ⟨hT, hft⟩ := simCheck3_cart h.built
  have hgood := h.good xr nu cfl hns
  have hK0 : ∀ r, K.upd r (fun _ _ => 0) = 0 := fun r => by rw [hu]; simp
  obtain ⟨r1, -, r3⟩ := sim3_run h hxr hnu hcfl htol hK hK0 time dbl0 conv0 sc om u hxy
  obtain ⟨t1, -⟩ := run3_kept (P := argParams3 a xr nu) hd ha hu a.flowType (fit3_order h) cfl tol ys (s := (fieldsFrom3 (xr / a.gx) sc om u, time)) hΦ
  obtain ⟨w1, -, w3⟩ := t1 hom
  intro out
  have hH : ∀ j, Holds3 T a.g ((refRun3 a.flowType (argParams3 a xr nu) K cfl tol ys (fieldsFrom3 (xr / a.gx) sc om u, time)).1.om j) (out.om j) :=
    fun j c p hc hp => ((r3 c p hc hp).2 j).1
  have hdiv := w3 hns h0
  refine ⟨⟨_, hH, w1, hdiv⟩, fun sch hs => ?_⟩
  have hpos : 0 < a.gz ∧ 0 < a.gy ∧ 0 < a.gx := by
    obtain ⟨e0, e1, e2, -⟩ := construct3_ok hT
    exact ⟨by rw [← e0]; exact Nat.pos_of_ne_zero (NeZero.ne _), by rw [← e1]; exact Nat.pos_of_ne_zero (NeZero.ne _), by rw [← e2]; exact Nat.pos_of_ne_zero (NeZero.ne _)⟩
  have hloc : ∀ r, CrossLocal3 1 (K.div r) := by
    intro r A B hAB
    rw [hv, hv, hAB 0 (0, 0, 1) (by simp [Cross3]), hAB 0 (0, 0, -1) (by simp [Cross3]), hAB 1 (0, 1, 0) (by simp [Cross3]), hAB 1 (0, -1, 0) (by simp [Cross3]), hAB 2 (1, 0, 0) (by simp [Cross3]),
      hAB 2 (-1, 0, 0) (by simp [Cross3])]
  rw [divNorm3_global hT hpos (simCfg3 a xr nu cfl) hgood.g hgood.gz hgood.gy hgood.gx hns K hloc hs out hH]
  rw [Finset.sum_eq_zero]
  · simp
  · intro G _
    have : serialZero3 a.gz a.gy a.gx false 0 (K.div (1 / ((simCfg3 a xr nu cfl).xr / a.gx)))
        (fun j => (refRun3 a.flowType (argParams3 a xr nu) K cfl tol ys (fieldsFrom3 (xr / a.gx) sc om u, time)).1.om j) G = 0 := by
      unfold serialZero3
      split
      · rfl
      · unfold serialAt3 contIx3
        rw [hv]
        have := hdiv G
        unfold centralDiv3 at this
        simp only [sub_eq_add_neg] at this
        simp only [Bool.false_eq_true, if_false, add_zero, sub_eq_add_neg]
        rw [this, mul_zero]
    rw [this]
    norm_num

/-- The time step of a rule is small enough for diffusion: given, with `6 ν dt ≤ dx²`, or the stable one times a factor of at most 1. -/
def SmallStep3 (nu dx : ℝ) : DtRule → Prop
  | .fixed dt => 0 ≤ dt ∧ 6 * (nu * dt) ≤ dx ^ 2
  | .stable pre => 0 ≤ pre ∧ pre ≤ 1

theorem smallStep3_dt {P : Params3} (hdx : 0 < P.dx) (hnu : 0 ≤ P.nu) {cfl tol : ℝ} (hcfl : 0 ≤ cfl) (htol : 0 < tol) {F : Fields3} (hM : 0 ≤ maxVel3 P.gz P.gy P.gx F.u)
    {r : DtRule} (hr : SmallStep3 P.nu P.dx r) : 0 ≤ P.nu * refDt3 P cfl tol F r / P.dx / P.dx ∧ 6 * (P.nu * refDt3 P cfl tol F r / P.dx / P.dx) ≤ 1 := by
  have hdt : 0 ≤ refDt3 P cfl tol F r ∧ 6 * (P.nu * refDt3 P cfl tol F r) ≤ P.dx ^ 2 := by
    cases r with
    | fixed dt => exact hr
    | stable pre =>
      obtain ⟨h0, h1⟩ := hr
      unfold refDt3
      have hm : 0 ≤ min (cfl * P.dx / (maxVel3 P.gz P.gy P.gx F.u + tol)) (0.9 * P.dx ^ 2 / 6 / (P.nu + tol)) := le_min (by positivity) (by positivity)
      refine ⟨mul_nonneg hm h0, ?_⟩
      have hle := min_le_right (cfl * P.dx / (maxVel3 P.gz P.gy P.gx F.u + tol)) (0.9 * P.dx ^ 2 / 6 / (P.nu + tol))
      generalize min (cfl * P.dx / (maxVel3 P.gz P.gy P.gx F.u + tol)) (0.9 * P.dx ^ 2 / 6 / (P.nu + tol)) = m at hm hle
      have h3 : m * pre ≤ 0.9 * P.dx ^ 2 / 6 / (P.nu + tol) := by nlinarith
      have h4 : (P.nu + tol) * (m * pre) ≤ (P.nu + tol) * (0.9 * P.dx ^ 2 / 6 / (P.nu + tol)) := mul_le_mul_of_nonneg_left h3 (by positivity)
      have h5 : (P.nu + tol) * (0.9 * P.dx ^ 2 / 6 / (P.nu + tol)) = 0.9 * P.dx ^ 2 / 6 := by
        have : P.nu + tol ≠ 0 := by positivity
        field_simp
      have h6 : 0 < P.dx ^ 2 := by positivity
      have h7 : 0 ≤ tol * (m * pre) := by positivity
      rw [h5] at h4
      linarith
  obtain ⟨d0, d1⟩ := hdt
  refine ⟨by positivity, ?_⟩
  rw [div_div, ← mul_div_assoc, div_le_one (by positivity)]
  nlinarith

theorem diff3_bounds {P : Params3} {K : Kern3} (hd : SevenPoint K.diff) {dt lo hi : ℝ} (h0 : 0 ≤ P.nu * dt / P.dx / P.dx) (h1 : 6 * (P.nu * dt / P.dx / P.dx) ≤ 1)
    {om : C3 → ℝ} (h : ∀ G, Dom3 P.gz P.gy P.gx G → lo ≤ om G ∧ om G ≤ hi) {G : C3} (hG : Dom3 P.gz P.gy P.gx G) : lo ≤ refDiff3 P K dt om G ∧ refDiff3 P K dt om G ≤ hi := by
  unfold refDiff3
  split
  · rename_i hh
    rw [hd]
    generalize P.nu * dt / P.dx / P.dx = e at h0 h1
    have hn : ∀ d : C3, |d.1| ≤ 1 → |d.2.1| ≤ 1 → |d.2.2| ≤ 1 →
        lo ≤ om (G.1 + d.1, G.2.1 + d.2.1, G.2.2 + d.2.2) ∧ om (G.1 + d.1, G.2.1 + d.2.1, G.2.2 + d.2.2) ≤ hi := by
      intro d h1 h2 h3
      rw [abs_le] at h1 h2 h3
      apply h
      obtain ⟨a, b⟩ := hh
      unfold Dom3 at *
      unfold OnEdge3 at b
      simp only
      omega
    obtain ⟨l0, u0⟩ := hn (0, 0, 0) (by simp) (by simp) (by simp)
    obtain ⟨l1, u1⟩ := hn (1, 0, 0) (by simp) (by simp) (by simp)
    obtain ⟨l2, u2⟩ := hn (-1, 0, 0) (by simp) (by simp) (by simp)
    obtain ⟨l3, u3⟩ := hn (0, 1, 0) (by simp) (by simp) (by simp)
    obtain ⟨l4, u4⟩ := hn (0, -1, 0) (by simp) (by simp) (by simp)
    obtain ⟨l5, u5⟩ := hn (0, 0, 1) (by simp) (by simp) (by simp)
    obtain ⟨l6, u6⟩ := hn (0, 0, -1) (by simp) (by simp) (by simp)
    simp only [add_zero] at l0 u0 l1 u1 l2 u2 l3 u3 l4 u4 l5 u5 l6 u6 ⊢
    have e0 : om G = om (G.1, G.2.1, G.2.2) := rfl
    rw [e0]
    constructor
    · have : 0 ≤ (1 - 6 * e) * (om (G.1, G.2.1, G.2.2) - lo) := mul_nonneg (by linarith) (by linarith)
      have := mul_le_mul_of_nonneg_left l1 h0
      have := mul_le_mul_of_nonneg_left l2 h0
      have := mul_le_mul_of_nonneg_left l3 h0
      have := mul_le_mul_of_nonneg_left l4 h0
      have := mul_le_mul_of_nonneg_left l5 h0
      have := mul_le_mul_of_nonneg_left l6 h0
      linarith
    · have : 0 ≤ (1 - 6 * e) * (hi - om (G.1, G.2.1, G.2.2)) := mul_nonneg (by linarith) (by linarith)
      have := mul_le_mul_of_nonneg_left u1 h0
      have := mul_le_mul_of_nonneg_left u2 h0
      have := mul_le_mul_of_nonneg_left u3 h0
      have := mul_le_mul_of_nonneg_left u4 h0
      have := mul_le_mul_of_nonneg_left u5 h0
      have := mul_le_mul_of_nonneg_left u6 h0
      linarith
  · exact h G hG

theorem run3_bounds {P : Params3} {K : Kern3} (hd : SevenPoint K.diff) (ha : ∀ a f, (∀ j d, f (some j) d = 0) → K.adv a f = 0) {ft : String} (hf : isNS ft = false)
    (hdx : 0 < P.dx) (hnu : 0 ≤ P.nu) {cfl tol : ℝ} (hcfl : 0 ≤ cfl) (htol : 0 < tol) {lo hi : Option (Fin 3) → ℝ} :
    ∀ (ys : List StepSpec3) (s : Fields3 × ℝ), (∀ y ∈ ys, SmallStep3 P.nu P.dx y.rule) → (∀ j G, s.1.u j G = 0) →
    (∀ G, Dom3 P.gz P.gy P.gx G → (lo none ≤ s.1.sc G ∧ s.1.sc G ≤ hi none) ∧ ∀ j, lo (some j) ≤ s.1.om j G ∧ s.1.om j G ≤ hi (some j)) →
    ∀ G, Dom3 P.gz P.gy P.gx G → (lo none ≤ (refRun3 ft P K cfl tol ys s).1.sc G ∧ (refRun3 ft P K cfl tol ys s).1.sc G ≤ hi none) ∧
      ∀ j, lo (some j) ≤ (refRun3 ft P K cfl tol ys s).1.om j G ∧ (refRun3 ft P K cfl tol ys s).1.om j G ≤ hi (some j)
  | [], _, _, _, h => h
  | y :: ys, s, hy, hu, h => by
    have hM : 0 ≤ maxVel3 P.gz P.gy P.gx s.1.u := by
      unfold maxVel3
      apply Real.sSup_nonneg
      rintro x ⟨G, -, rfl⟩
      positivity
    obtain ⟨d0, d1⟩ := smallStep3_dt hdx hnu hcfl htol hM (hy y List.mem_cons_self)
    have hadv : ∀ f, refAdv3 P K (refDt3 P cfl tol s.1 y.rule) s.1.u f = f := by
      intro f
      funext G
      unfold refAdv3
      rw [ha _ _ fun j d => hu j _]
      split <;> simp
    have n1 : ft ≠ "navier_stokes" := by rintro rfl; cases hf
    have n2 : ft ≠ "navier_stokes_with_forcing" := by rintro rfl; cases hf
    unfold refRun3
    refine run3_bounds hd ha hf hdx hnu hcfl htol ys _ (fun y' h' => hy y' (List.mem_cons_of_mem _ h')) ?_ ?_
    · intro j G
      unfold refStep3
      rw [if_neg n1, if_neg n2]
      split <;> exact hu j G
    · intro G hG
      unfold refStep3
      rw [if_neg n1, if_neg n2]
      split
      · refine ⟨(h G hG).1, fun j => ?_⟩
        unfold refVector3
        simp only
        rw [hadv]
        exact diff3_bounds hd d0 d1 (fun G' hG' => (h G' hG').2 j) hG
      · refine ⟨?_, (h G hG).2⟩
        unfold refScalar3
        simp only
        rw [hadv]
        exact diff3_bounds hd d0 d1 (fun G' hG' => (h G' hG').1) hG

/-- **C91 (3D)** Pure diffusion of a passive scalar or vector (no velocity) with the stable time step, or any given one with `6 ν dt ≤ dx²`: on every rank, after any number of
steps, the scalar and every component of the vector lie between their smallest and largest initial values. -/
theorem diffusion3_maximum {a : SimArgs3} (h : Fit3 a T) (hf : isNS a.flowType = false) {xr : ℝ} (hxr : 0 < xr) {nu : ℝ} (hnu : 0 ≤ nu) {cfl : ℝ} (hcfl : 0 ≤ cfl) {tol : ℝ}
    (htol : 0 < tol) {K : Kern3} (hK : K.Local) (hK0 : ∀ r, K.upd r (fun _ _ => 0) = 0) (hd : SevenPoint K.diff) (ha : ∀ a f, (∀ j d, f (some j) d = 0) → K.adv a f = 0)
    (time : ℝ) (dbl0 : World C3 C3 ℝ) (conv0 : Dbl3 T → ℂ) (sc : ℝ → ℝ → ℝ → ℝ) (om : Fin 3 → ℝ → ℝ → ℝ → ℝ) {xs : List StepIn3} {ys : List StepSpec3}
    (hxy : List.Forall₂ (Means3 a.gz a.gy a.gx T (simCfg3 a xr nu cfl)) xs ys) (hdt : ∀ y ∈ ys, SmallStep3 nu (xr / a.gx) y.rule) {lo hi : Option (Fin 3) → ℝ} :
    let start := initFrom3 T a.g xr time dbl0 conv0 sc om fun _ _ _ _ => 0
    let out := simLoop3 (simCfg3 a xr nu cfl) K tol xs start
    (∀ c p, Valid3 T c → Inner3 T a.g p → (lo none ≤ start.sc c p ∧ start.sc c p ≤ hi none) ∧ ∀ j, lo (some j) ≤ start.om j c p ∧ start.om j c p ≤ hi (some j)) →
    out.2 = none ∧
    ∀ c p, Valid3 T c → Inner3 T a.g p → (lo none ≤ out.1.sc c p ∧ out.1.sc c p ≤ hi none) ∧ ∀ j, lo (some j) ≤ out.1.om j c p ∧ out.1.om j c p ≤ hi (some j) := by
  obtain ⟨hT, hft⟩ := simCheck3_cart h.built
  have hgx0 : 0 < a.gx := by
    obtain ⟨-, -, e2, -⟩ := construct3_ok hT
    rw [← e2]; exact Nat.pos_of_ne_zero (NeZero.ne _)
  obtain ⟨r1, -, r3⟩ := sim3_run h hxr hnu hcfl htol hK hK0 time dbl0 conv0 sc om (fun _ _ _ _ => 0) hxy
  have hinit := initFrom3_holds hT (simCfg3 a xr nu cfl) time dbl0 conv0 sc om fun _ _ _ _ => 0
  intro start out hb
  refine ⟨r1, fun c p hc hp => ?_⟩
  have hD : Dom3 a.gz a.gy a.gx (globalIx3 T a.g c p) := (dom3_iff hT _).2 (inner_inDomain3 hT hc hp)
  have := run3_bounds (P := argParams3 a xr nu) (K := K) hd ha (ft := a.flowType) hf
    (div_pos hxr (by exact_mod_cast hgx0)) hnu hcfl htol (lo := lo) (hi := hi) ys (fieldsFrom3 (xr / a.gx) sc om fun _ _ _ _ => 0, time) hdt (fun _ _ => rfl) ?_ _ hD
  · have e0 := (r3 c p hc hp).1
    have e1 := fun j => ((r3 c p hc hp).2 j).1
    refine ⟨(show _ = _ from e0) ▸ this.1, fun j => (show _ = _ from e1 j) ▸ this.2 j⟩
  · intro G hG
    obtain ⟨c', p', hc', hp', rfl⟩ := domain_owned3 hT a.g ((dom3_iff hT G).1 hG)
    have e0 := hinit.sc c' p' hc' (inArr_of_inner3 hp') (Or.inl hp')
    have e1 := fun j => hinit.om j c' p' hc' (inArr_of_inner3 hp') (Or.inl hp')
    obtain ⟨b0, b1⟩ := hb c' p' hc' hp'
    exact ⟨(show _ = _ from e0) ▸ b0, fun j => (show _ = _ from e1 j) ▸ b1 j⟩

theorem vel3_solenoidal {P : Params3} {K : Kern3} (hc : CentralCurl3 K.curl) (om : Fin 3 → C3 → ℝ) (fs : Fin 3 → ℝ) {G : C3} (hG : Away3 P.gz P.gy P.gx 2 G) :
    centralDiv3 (refFree3 P fs (refVel3 P K om)) G = 0 := by
  have e : ∀ j (d : C3), |d.1| ≤ 1 → |d.2.1| ≤ 1 → |d.2.2| ≤ 1 → refVel3 P K om j (G + d) =
      0.5 / P.dx * gCurl (fun i => freeSolution3 P.gz P.gy P.gx P.dx (om i)) j (G + d) := by
    intro j d h1 h2 h3
    rw [abs_le] at h1 h2 h3
    unfold refVel3
    rw [if_pos, hc]
    · match j with
      | 0 => rfl
      | 1 => rfl
      | 2 => rfl
    · unfold Away3 at hG
      unfold Dom3 OnEdge3
      simp only [Prod.fst_add, Prod.snd_add]
      omega
  have hcur := centralDiv3_curl (fun i => freeSolution3 P.gz P.gy P.gx P.dx (om i)) G
  rw [centralDiv3_eq] at hcur ⊢
  simp only [Pi.add_apply, Pi.sub_apply] at hcur ⊢
  unfold refFree3
  rw [e 0 (0, 0, 1) (by decide) (by decide) (by decide), e 0 (0, 0, -1) (by decide) (by decide) (by decide), e 1 (0, 1, 0) (by decide) (by decide) (by decide),
    e 1 (0, -1, 0) (by decide) (by decide) (by decide), e 2 (1, 0, 0) (by decide) (by decide) (by decide), e 2 (-1, 0, 0) (by decide) (by decide) (by decide)]
  split <;> linear_combination (0.5 / P.dx) * hcur

theorem run3_velocity {P : Params3} {K : Kern3} {ft : String} (hf : isNS ft = true) (cfl tol : ℝ) :
    ∀ (ys : List StepSpec3) (s : Fields3 × ℝ), ys ≠ [] → ∃ om fs, (refRun3 ft P K cfl tol ys s).1.u = refFree3 P fs (refVel3 P K om)
  | [], _, h => absurd rfl h
  | [y], s, _ => by
    unfold refRun3 refRun3 refStep3
    split
    · exact ⟨_, _, rfl⟩
    · split
      · exact ⟨_, _, rfl⟩
      · rename_i h1 h2
        unfold isNS at hf
        simp [h1, h2] at hf
  | y :: y' :: ys, s, _ => by
    rw [refRun3]
    exact run3_velocity hf cfl tol (y' :: ys) _ (List.cons_ne_nil _ _)

/-- **C92 (3D)** After any positive number of Navier-Stokes steps, whatever vorticity, forcing, filter and free stream, the central divergence of the velocity vanishes in every
cell of the global grid at least two cells away from the sides, also across the boundaries between ranks. -/
theorem velocity3_solenoidal {a : SimArgs3} (h : Fit3 a T) (hns : isNS a.flowType = true) {xr : ℝ} (hxr : 0 < xr) {nu : ℝ} (hnu : 0 ≤ nu)
    {cfl : ℝ} (hcfl : 0 ≤ cfl) {tol : ℝ} (htol : 0 < tol) {K : Kern3} (hK : K.Local) (hK0 : ∀ r, K.upd r (fun _ _ => 0) = 0) (hc : CentralCurl3 K.curl)
    (time : ℝ) (dbl0 : World C3 C3 ℝ) (conv0 : Dbl3 T → ℂ) (sc : ℝ → ℝ → ℝ → ℝ) (om u : Fin 3 → ℝ → ℝ → ℝ → ℝ) {xs : List StepIn3} {ys : List StepSpec3} (hne : ys ≠ [])
    (hxy : List.Forall₂ (Means3 a.gz a.gy a.gx T (simCfg3 a xr nu cfl)) xs ys) (U : Fin 3 → C3 → ℝ)
    (hU : ∀ j, Holds3 T a.g (U j) ((simLoop3 (simCfg3 a xr nu cfl) K tol xs (initFrom3 T a.g xr time dbl0 conv0 sc om u)).1.vel j)) :
    ∀ G, Away3 a.gz a.gy a.gx 2 G → centralDiv3 U G = 0 := by
  obtain ⟨hT, hft⟩ := simCheck3_cart h.built
  obtain ⟨-, -, r3⟩ := sim3_run h hxr hnu hcfl htol hK hK0 time dbl0 conv0 sc om u hxy
  obtain ⟨om', fs, hv⟩ := run3_velocity (P := argParams3 a xr nu) (K := K) hns cfl tol ys (fieldsFrom3 (xr / a.gx) sc om u, time) hne
  have hUG : ∀ j G, Dom3 a.gz a.gy a.gx G → U j G = refFree3 (argParams3 a xr nu) fs (refVel3 (argParams3 a xr nu) K om') j G := by
    intro j G hG
    obtain ⟨c', p', hc', hp', rfl⟩ := domain_owned3 hT a.g ((dom3_iff hT G).1 hG)
    rw [← hU j c' p' hc' hp', ((r3 c' p' hc' hp').2 j).2, ← hv]
    rfl
  intro G hG
  rw [← vel3_solenoidal (P := argParams3 a xr nu) hc om' fs hG]
  unfold Away3 at hG
  unfold centralDiv3
  rw [hUG 0 _ ?_, hUG 0 _ ?_, hUG 1 _ ?_, hUG 1 _ ?_, hUG 2 _ ?_, hUG 2 _ ?_] <;> unfold Dom3 <;> simp only <;> omega

/-! ## Examples -/

omit [NeZero T.gz] [NeZero T.gy] [NeZero T.gx] in
/-- every field on the global grid comes from a function of the coordinates -/
theorem atCentre3_surjective {dx : ℝ} (hdx : 0 < dx) (F : C3 → ℝ) : ∃ f : ℝ → ℝ → ℝ → ℝ, atCentre3 dx f = F := by
  refine ⟨fun x y z => F (⌊z / dx⌋, ⌊y / dx⌋, ⌊x / dx⌋), ?_⟩
  funext G
  have e : ∀ n : ℤ, ⌊((n : ℝ) + 1 / 2) * dx / dx⌋ = n := by
    intro n
    rw [mul_div_cancel_right₀ _ hdx.ne', Int.floor_eq_iff]
    constructor <;> linarith
  unfold atCentre3
  simp only [e]

/-- kernels as in `sopht`: central differences and a third order upwind advection in flux form -/
noncomputable def exKern3 : Kern3 where
  diff := fun a f => a * (f () (1, 0, 0) + f () (-1, 0, 0) + f () (0, 1, 0) + f () (0, -1, 0) + f () (0, 0, 1) + f () (0, 0, -1) - 6 * f () (0, 0, 0))
  adv := fun a f => a * ∑ i : Fin 3,
    (upwind3 ((f (some i) 0 + f (some i) (axisStep i)) / 2) (f none (-axisStep i)) (f none 0) (f none (axisStep i)) (f none (2 • axisStep i)) -
     upwind3 ((f (some i) (-axisStep i) + f (some i) 0) / 2) (f none (-2 • axisStep i)) (f none (-axisStep i)) (f none 0) (f none (axisStep i)))
  curl := fun a f => (a * (f 2 (0, 1, 0) - f 2 (0, -1, 0) - (f 1 (1, 0, 0) - f 1 (-1, 0, 0))), a * (f 0 (1, 0, 0) - f 0 (-1, 0, 0) - (f 2 (0, 0, 1) - f 2 (0, 0, -1))),
    a * (f 1 (0, 0, 1) - f 1 (0, 0, -1) - (f 0 (0, 1, 0) - f 0 (0, -1, 0))))
  upd := fun a f => (a * (f 2 (0, 1, 0) - f 2 (0, -1, 0) - (f 1 (1, 0, 0) - f 1 (-1, 0, 0))), a * (f 0 (1, 0, 0) - f 0 (-1, 0, 0) - (f 2 (0, 0, 1) - f 2 (0, 0, -1))),
    a * (f 1 (0, 0, 1) - f 1 (0, 0, -1) - (f 0 (0, 1, 0) - f 0 (0, -1, 0))))
  div := fun a f => a / 2 * (f 0 (0, 0, 1) - f 0 (0, 0, -1) + (f 1 (0, 1, 0) - f 1 (0, -1, 0)) + (f 2 (1, 0, 0) - f 2 (-1, 0, 0)))

omit [NeZero T.gz] [NeZero T.gy] [NeZero T.gx] in
/-- these kernels meet all the assumptions at once -/
example : exKern3.Local ∧ SevenPoint exKern3.diff ∧ FluxForm3 exKern3.adv ∧ CentralCurl3 exKern3.upd ∧ CentralCurl3 exKern3.curl ∧ CentralDivKern3 exKern3.div ∧
    ∀ a f, (∀ j d, f (some j) d = 0) → exKern3.adv a f = 0 := by
  refine ⟨?_, fun _ _ => rfl, ⟨fun i f => upwind3 ((f (some i) 0 + f (some i) (axisStep i)) / 2) (f none (-axisStep i)) (f none 0) (f none (axisStep i)) (f none (2 • axisStep i)),
    ?_, ?_⟩, fun _ _ => rfl, fun _ _ => rfl, fun _ _ => rfl, ?_⟩
  · constructor
    · intro a A B h
      simp only [exKern3]
      repeat rw [h _ _ (by simp [Cross3])]
    · intro a A B h
      simp only [exKern3]
      congr 1
      refine Finset.sum_congr rfl fun i _ => ?_
      match i with
      | 0 => simp only [axisStep]; repeat rw [h _ _ (by simp [Cross3])]
      | 1 => simp only [axisStep]; repeat rw [h _ _ (by simp [Cross3])]
      | 2 => simp only [axisStep]; repeat rw [h _ _ (by simp [Cross3])]
    · intro a A B h
      simp only [exKern3]
      repeat rw [h _ _ (by simp [Cross3])]
    · intro a A B h
      simp only [exKern3]
      repeat rw [h _ _ (by simp [Cross3])]
  · intro a f
    simp only [exKern3]
    rfl
  · intro i f h
    have h1 := h (-1) (by norm_num) (by norm_num)
    have h2 := h 0 (by norm_num) (by norm_num)
    have h3 := h 1 (by norm_num) (by norm_num)
    have h4 := h 2 (by norm_num) (by norm_num)
    rw [neg_smul, one_smul] at h1
    rw [zero_smul] at h2
    rw [one_smul] at h3
    have h4' : f none (2 • axisStep i) = 0 := by
      rw [← h4]
      congr 1
    simp only
    rw [h1, h2, h3, h4']
    unfold upwind3
    split <;> ring
  · intro a f h
    simp only [exKern3, h]
    unfold upwind3
    norm_num

omit [NeZero T.gz] [NeZero T.gy] [NeZero T.gx] in
/-- a divergence free vorticity ring in the middle of a grid of 16 × 16 × 16 cells, with room for one step with a penalty zone of two cells and no filter; it is not zero -/
example : ∃ om : Fin 3 → ℝ → ℝ → ℝ → ℝ, (∀ j, Within3 16 16 16 (max 2 1 + 3 * 1) (atCentre3 (1 / 16) (om j))) ∧
    (∀ G, centralDiv3 (fun j => atCentre3 (1 / 16) (om j)) G = 0) ∧ atCentre3 (1 / 16) (om 0) (8, 7, 8) = 1 := by
  have hs : ∀ j, Sup3 16 16 16 (((5, 5, 5) : C3) + (1, 1, 1)) ((fun (j : Fin 3) (G : C3) => if j = 2 ∧ G = (8, 8, 8) then (1 : ℝ) else 0) j) := by
    intro j G hG
    simp only
    rw [if_neg]
    rintro ⟨-, rfl⟩
    exact hG (by unfold Deep3; decide)
  obtain ⟨-, h1⟩ := upd3_sup (P := ⟨16, 16, 16, 1, 1, 2, false, none⟩) (K := exKern3) (fun _ _ => rfl) (k := (5, 5, 5)) (by decide) hs
    (om := fun _ _ => 0) 1
  choose om hom using fun j => atCentre3_surjective (dx := 1 / 16) (by norm_num) (gCurl (fun (j : Fin 3) (G : C3) => if j = 2 ∧ G = (8, 8, 8) then (1 : ℝ) else 0) j)
  refine ⟨om, fun j => ?_, fun G => ?_, ?_⟩
  · rw [hom]
    exact within3_sup.2 (by simpa using h1 j)
  · simp only [hom]
    exact centralDiv3_curl _ G
  · rw [hom]
    simp [gCurl]

end Sopht
