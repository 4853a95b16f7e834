import Verif.Sim2DRun
import Verif.Sim3DRun

/-! # A fluid at rest stays at rest, a uniform stream stays uniform (C71) -/

namespace Sopht

set_option linter.unusedSimpArgs false

/-! ## Kernels that do nothing where nothing is -/

/-- No flux from a zero field (whatever the velocity), no curl of zero. -/
structure Kern2.Null (K : Kern2) : Prop where
  diff : ∀ a, K.diff a (fun _ _ => 0) = 0
  adv : ∀ a f, (∀ d, f none d = 0) → K.adv a f = 0
  curl : ∀ a, K.curl a (fun _ _ => 0) = 0
  upd : ∀ a, K.upd a (fun _ _ => 0) = 0

/-- No flux from a zero field (whatever the velocity), no curl of zero. -/
structure Kern3.Null (K : Kern3) : Prop where
  diff : ∀ a, K.diff a (fun _ _ => 0) = 0
  adv : ∀ a f, (∀ d, f none d = 0) → K.adv a f = 0
  curl : ∀ a, K.curl a (fun _ _ => 0) = 0
  upd : ∀ a, K.upd a (fun _ _ => 0) = 0

/-- The velocity after the steps of a run from rest: the free stream of the last step, if it is a Navier-Stokes simulator with free stream. -/
def restVel {n : ℕ} (flowType : String) (freeStream : Bool) (fss : List (Fin n → ℝ)) (j : Fin n) : ℝ :=
  if isNS flowType && freeStream then (fss.getLast?.map fun fs => fs j).getD 0 else 0

/-! ## Zero fields stay zero -/

theorem serialPen1_zero (per : Bool) (N w : ℕ) : serialPen1 per N w (fun _ => 0) = fun _ => 0 := by
  unfold serialPen1
  split
  · rfl
  · funext j
    simp

theorem serialPen2_zero (per : Bool) (gy gx w : ℕ) : serialPen2 per gy gx w (fun _ => 0) = fun _ => 0 := by
  unfold serialPen2
  simp only [serialPen1_zero]

theorem serialPen3_zero (per : Bool) (gz gy gx w : ℕ) : serialPen3 per gz gy gx w (fun _ => 0) = fun _ => 0 := by
  unfold serialPen3
  simp only [serialPen1_zero]

theorem serialLap_zero (gz gy gx bw : ℕ) (per : Bool) (a : Fin 3) : serialLap (K := ℝ) gz gy gx bw per a (fun _ => 0) = fun _ => 0 := by
  funext G
  unfold serialLap
  split <;> simp

theorem serialLap_iter_zero (gz gy gx bw : ℕ) (per : Bool) (p : ℕ) (a : Fin 3) : (serialLap (K := ℝ) gz gy gx bw per a)^[p] (fun _ => 0) = fun _ => 0 := by
  induction p with
  | zero => rfl
  | succ p ih => rw [Function.iterate_succ_apply, serialLap_zero]; exact ih

theorem refFilter3_zero (P : Params3) : refFilter3 P (fun _ => 0) = fun _ => 0 := by
  unfold refFilter3
  split
  · rfl
  · rename_i order ty _
    split
    · funext G
      unfold serialMultiplicative
      have : ∀ p : ℕ, ((fun F => serialLap (K := ℝ) P.gz P.gy P.gx 1 false 2 (serialLap P.gz P.gy P.gx 1 false 1 (serialLap P.gz P.gy P.gx 1 false 0 F)))^[p] fun _ => 0) = fun _ => 0 := by
        intro p
        induction p with
        | zero => rfl
        | succ p ih => rw [Function.iterate_succ_apply]; simp only [serialLap_zero]; exact ih
      rw [this]; simp
    · unfold serialConvolution
      have : ∀ a, serialConvDir (K := ℝ) P.gz P.gy P.gx 1 false order a (fun _ => 0) = fun _ => 0 := by
        intro a
        funext G
        unfold serialConvDir
        rw [serialLap_iter_zero]; simp
      simp only [this]

theorem freeSolution2_zero (gy gx : ℕ) (dx : ℝ) (G : C2) : freeSolution2 gy gx dx (fun _ => 0) G = 0 := by
  unfold freeSolution2; simp

theorem freeSolution3_zero (gz gy gx : ℕ) (dx : ℝ) (G : C3) : freeSolution3 gz gy gx dx (fun _ => 0) G = 0 := by
  unfold freeSolution3; simp

theorem refAdv2_zero (P : Params2) {K : Kern2} (hK : K.Null) (dt : ℝ) (u : Fin 2 → C2 → ℝ) : refAdv2 P K dt u (fun _ => 0) = fun _ => 0 := by
  funext G
  unfold refAdv2
  split
  · rw [hK.adv _ _ (fun _ => rfl)]; simp
  · rfl

theorem refDiff2_zero (P : Params2) {K : Kern2} (hK : K.Null) (dt : ℝ) : refDiff2 P K dt (fun _ => 0) = fun _ => 0 := by
  funext G
  unfold refDiff2
  split
  · rw [hK.diff]; simp
  · rfl

theorem refVel2_zero (P : Params2) {K : Kern2} (hK : K.Null) (G : C2) : refVel2 P K (fun _ => 0) G = (0, 0) := by
  unfold refVel2
  split
  · simp only [freeSolution2_zero]; exact hK.curl _
  · rfl

theorem refNS2_zero (P : Params2) {K : Kern2} (hK : K.Null) (dt : ℝ) (fs : Fin 2 → ℝ) (u : Fin 2 → C2 → ℝ) :
    refNS2 P K dt fs ⟨fun _ => 0, u⟩ = ⟨fun _ => 0, fun j _ => if P.freeStream then fs j else 0⟩ := by
  unfold refNS2
  simp only [refAdv2_zero P hK, refDiff2_zero P hK, serialPen2_zero, refVel2_zero P hK]
  congr 1
  funext j G
  unfold refFree2
  have : (![fun _ => (0 : ℝ), fun _ => 0] : Fin 2 → C2 → ℝ) j G = 0 := by
    match j with
    | 0 => rfl
    | 1 => rfl
  rw [this, zero_add]

theorem refStep2_zero (flowType : String) (P : Params2) {K : Kern2} (hK : K.Null) (dt : ℝ) (fs : Fin 2 → ℝ) (u : Fin 2 → C2 → ℝ) :
    refStep2 flowType P K dt fs (fun _ _ => 0) ⟨fun _ => 0, u⟩ =
      ⟨fun _ => 0, if isNS flowType then fun j _ => if P.freeStream then fs j else 0 else u⟩ := by
  unfold refStep2
  by_cases h1 : flowType = "navier_stokes"
  · rw [if_pos h1, refNS2_zero P hK]
    simp [isNS, h1]
  · rw [if_neg h1]
    by_cases h2 : flowType = "navier_stokes_with_forcing"
    · rw [if_pos h2]
      unfold refForcing2
      have : refForce2 P K dt (fun _ _ => 0) (fun _ => 0) = fun _ => 0 := by
        funext G
        unfold refForce2
        split
        · rw [hK.upd]; simp
        · rfl
      simp only [this]
      rw [refNS2_zero P hK]
      simp [isNS, h2]
    · rw [if_neg h2]
      unfold refScalar2
      simp only [refAdv2_zero P hK, refDiff2_zero P hK]
      simp [isNS, h1, h2]

theorem refRun2_rest (flowType : String) (P : Params2) {K : Kern2} (hK : K.Null) (cfl tol : ℝ) (ys : List StepSpec2) (hΦ : ∀ y ∈ ys, y.Φ = fun _ _ => 0)
    (t : ℝ) (v : Fin 2 → ℝ) :
    (refRun2 flowType P K cfl tol ys (⟨fun _ => 0, fun j _ => v j⟩, t)).1 =
      ⟨fun _ => 0, fun j _ => if isNS flowType then (ys.getLast?.map fun y => if P.freeStream then y.fs j else 0).getD (v j) else v j⟩ := by
  induction ys generalizing t v with
  | nil => simp [refRun2]
  | cons y ys ih =>
    unfold refRun2
    simp only
    rw [hΦ y List.mem_cons_self, refStep2_zero flowType P hK]
    have hv : (if isNS flowType then fun j _ => if P.freeStream then y.fs j else 0 else fun j _ => v j : Fin 2 → C2 → ℝ) =
        fun j _ => (if isNS flowType then if P.freeStream then y.fs j else 0 else v j) := by
      funext j G
      split <;> rfl
    rw [hv, ih (fun y' hy' => hΦ y' (List.mem_cons_of_mem _ hy'))]
    congr 1
    funext j G
    cases hns : isNS flowType with
    | false => simp
    | true =>
      cases ys with
      | nil => simp
      | cons y' ys => simp [List.getLast?_cons]

theorem refAdv3_zero (P : Params3) {K : Kern3} (hK : K.Null) (dt : ℝ) (u : Fin 3 → C3 → ℝ) : refAdv3 P K dt u (fun _ => 0) = fun _ => 0 := by
  funext G
  unfold refAdv3
  split
  · rw [hK.adv _ _ (fun _ => rfl)]; simp
  · rfl

theorem refDiff3_zero (P : Params3) {K : Kern3} (hK : K.Null) (dt : ℝ) : refDiff3 P K dt (fun _ => 0) = fun _ => 0 := by
  funext G
  unfold refDiff3
  split
  · rw [hK.diff]; simp
  · rfl

theorem refUpd3_zero (P : Params3) {K : Kern3} (hK : K.Null) (dt : ℝ) : refUpd3 P K dt (fun _ _ => 0) (fun _ _ => 0) = fun _ _ => 0 := by
  funext j G
  unfold refUpd3
  split
  · rw [hK.upd]
    match j with
    | 0 => simp [comp3]
    | 1 => simp [comp3]
    | 2 => simp [comp3]
  · rfl

theorem refVel3_zero (P : Params3) {K : Kern3} (hK : K.Null) : refVel3 P K (fun _ _ => 0) = fun _ _ => 0 := by
  funext j G
  unfold refVel3
  split
  · simp only [freeSolution3_zero]
    rw [hK.curl]
    match j with
    | 0 => simp [comp3]
    | 1 => simp [comp3]
    | 2 => simp [comp3]
  · rfl

theorem crossF_zero (u : Fin 3 → C3 → ℝ) : crossF u (fun _ _ => 0) = fun _ _ => 0 := by
  funext j G
  unfold crossF
  match j with
  | 0 => simp
  | 1 => simp
  | 2 => simp

theorem refNS3_zero (P : Params3) {K : Kern3} (hK : K.Null) (dt : ℝ) (fs : Fin 3 → ℝ) (sc : C3 → ℝ) (u : Fin 3 → C3 → ℝ) :
    refNS3 P K dt fs ⟨sc, fun _ _ => 0, u⟩ = ⟨sc, fun _ _ => 0, fun j _ => if P.freeStream then fs j else 0⟩ := by
  have hv : refVort3 P K dt ⟨sc, fun _ _ => 0, u⟩ = fun _ _ => 0 := by
    funext j
    unfold refVort3
    simp only [crossF_zero, refUpd3_zero P hK, refDiff3_zero P hK, refFilter3_zero, serialPen3_zero]
  unfold refNS3
  rw [hv, refVel3_zero P hK]
  congr 1
  funext j G
  unfold refFree3
  rw [zero_add]

theorem refStep3_zero (flowType : String) (P : Params3) {K : Kern3} (hK : K.Null) (dt : ℝ) (fs : Fin 3 → ℝ) (u : Fin 3 → C3 → ℝ) :
    refStep3 flowType P K dt fs (fun _ _ => 0) ⟨fun _ => 0, fun _ _ => 0, u⟩ =
      ⟨fun _ => 0, fun _ _ => 0, if isNS flowType then fun j _ => if P.freeStream then fs j else 0 else u⟩ := by
  unfold refStep3
  by_cases h1 : flowType = "navier_stokes"
  · rw [if_pos h1, refNS3_zero P hK]
    simp [isNS, h1]
  · rw [if_neg h1]
    by_cases h2 : flowType = "navier_stokes_with_forcing"
    · rw [if_pos h2]
      unfold refForcing3
      simp only [refUpd3_zero P hK]
      rw [refNS3_zero P hK]
      simp [isNS, h2]
    · rw [if_neg h2]
      have hn : isNS flowType = false := by simp [isNS, h1, h2]
      split
      · unfold refVector3
        simp only [refAdv3_zero P hK, refDiff3_zero P hK]
        simp [hn]
      · unfold refScalar3
        simp only [refAdv3_zero P hK, refDiff3_zero P hK]
        simp [hn]

theorem refRun3_rest (flowType : String) (P : Params3) {K : Kern3} (hK : K.Null) (cfl tol : ℝ) (ys : List StepSpec3) (hΦ : ∀ y ∈ ys, y.Φ = fun _ _ => 0)
    (t : ℝ) (v : Fin 3 → ℝ) :
    (refRun3 flowType P K cfl tol ys (⟨fun _ => 0, fun _ _ => 0, fun j _ => v j⟩, t)).1 =
      ⟨fun _ => 0, fun _ _ => 0, fun j _ => if isNS flowType then (ys.getLast?.map fun y => if P.freeStream then y.fs j else 0).getD (v j) else v j⟩ := by
  induction ys generalizing t v with
  | nil => simp [refRun3]
  | cons y ys ih =>
    unfold refRun3
    simp only
    rw [hΦ y List.mem_cons_self, refStep3_zero flowType P hK]
    have hv : (if isNS flowType then fun j _ => if P.freeStream then y.fs j else 0 else fun j _ => v j : Fin 3 → C3 → ℝ) =
        fun j _ => (if isNS flowType then if P.freeStream then y.fs j else 0 else v j) := by
      funext j G
      split <;> rfl
    rw [hv, ih (fun y' hy' => hΦ y' (List.mem_cons_of_mem _ hy'))]
    congr 1
    funext j G
    cases hns : isNS flowType with
    | false => simp
    | true =>
      cases ys with
      | nil => simp
      | cons y' ys => simp [List.getLast?_cons]

theorem restVel_eq {n : ℕ} {Y : Type} (flowType : String) (freeStream : Bool) (ys : List Y) (f : Y → Fin n → ℝ) (j : Fin n) :
    (if isNS flowType then (ys.getLast?.map fun y => if freeStream then f y j else 0).getD 0 else 0) = restVel flowType freeStream (ys.map f) j := by
  unfold restVel
  rw [List.getLast?_map]
  cases isNS flowType <;> cases freeStream <;> simp
  · cases ys.getLast? <;> rfl
  · cases ys.getLast? <;> rfl

/-! ## Runs from the constructor -/

section Two
variable {T : Cart2} [NeZero T.gy] [NeZero T.gx]

/-- C71: a 2D simulator driven from its construction on, without forcing: the primary field stays zero and the velocity is the last free stream (zero without). -/
theorem rest2_run {a : SimArgs2} (h : Fit2 a T) {xr : ℝ} (hxr : 0 < xr) (nu : ℝ) {cfl : ℝ} (hcfl : 0 ≤ cfl) {tol : ℝ} (htol : 0 < tol)
    {K : Kern2} (hK : K.Local) (hN : K.Null) (time : ℝ) (dbl0 : World C2 C2 ℝ) (conv0 : Dbl2 T → ℂ) {xs : List StepIn2} {ys : List StepSpec2}
    (hxy : List.Forall₂ (Means2 a.gy a.gx T (simCfg2 a T xr nu cfl)) xs ys) (hΦ : ∀ y ∈ ys, y.Φ = fun _ _ => 0) :
    let out := simLoop2 (simCfg2 a T xr nu cfl) K tol xs (simInit2 T xr time dbl0 conv0)
    out.2 = none ∧ ∀ c p, Valid2 T c → Inner2 T ((2 : ℕ) : ℤ) p →
      out.1.prim c p = 0 ∧ ∀ j, out.1.vel j c p = restVel a.flowType a.freeStream (xs.map StepIn2.fs) j := by
  obtain ⟨hT, hft⟩ := simCheck2_cart' h.built
  have hinit : SimHolds2 (simCfg2 a T xr nu cfl) ⟨fun _ => 0, fun j _ => (fun _ => (0 : ℝ)) j⟩ (simInit2 T xr time dbl0 conv0) :=
    ⟨fun _ _ _ _ _ => rfl, fun _ _ _ _ _ _ => rfl, dbl0, conv0, rfl⟩
  obtain ⟨r1, r2, r3⟩ := simLoop2_holds hT (h.good hxr nu cfl) (h.dbl xr nu cfl) hft hcfl htol hK hN.upd hxy hinit
  rw [refRun2_rest _ _ hN _ _ ys hΦ] at r2
  have hfs : xs.map StepIn2.fs = ys.map StepSpec2.fs := by
    clear r1 r2 r3
    induction hxy with
    | nil => rfl
    | cons hx _ ih => rw [List.map_cons, List.map_cons, hx.fs, ih (fun y hy => hΦ y (List.mem_cons_of_mem _ hy))]
  refine ⟨r1, fun c p hc hp => ⟨r2.om c p hc (inArr_of_inner2 hp) (Or.inl hp), fun j => ?_⟩⟩
  rw [hfs, ← restVel_eq]
  exact r2.u j c p hc (inArr_of_inner2 hp) (Or.inl hp)

end Two

section Three
variable {T : Cart3} [NeZero T.gz] [NeZero T.gy] [NeZero T.gx]

/-- C71: a 3D simulator driven from its construction on, without forcing: scalar and vector fields stay zero and the velocity is the last free stream (zero
without). -/
theorem rest3_run {a : SimArgs3} (h : Fit3 a T) {xr : ℝ} (hxr : 0 < xr) {nu : ℝ} (hnu : 0 ≤ nu) {cfl : ℝ} (hcfl : 0 ≤ cfl) {tol : ℝ} (htol : 0 < tol)
    {K : Kern3} (hK : K.Local) (hN : K.Null) (time : ℝ) (dbl0 : World C3 C3 ℝ) (conv0 : Dbl3 T → ℂ) {xs : List StepIn3} {ys : List StepSpec3}
    (hxy : List.Forall₂ (Means3 a.gz a.gy a.gx T (simCfg3 a xr nu cfl)) xs ys) (hΦ : ∀ y ∈ ys, y.Φ = fun _ _ => 0) :
    let out := simLoop3 (simCfg3 a xr nu cfl) K tol xs (simInit3 T xr time dbl0 conv0)
    out.2 = none ∧ ∀ c p, Valid3 T c → Inner3 T a.g p →
      out.1.sc c p = 0 ∧ ∀ j, out.1.om j c p = 0 ∧ out.1.vel j c p = restVel a.flowType a.freeStream (ys.map StepSpec3.fs) j := by
  obtain ⟨hT, hft⟩ := simCheck3_cart h.built
  have hinit : SimHolds3 (simCfg3 a xr nu cfl) ⟨fun _ => 0, fun _ _ => 0, fun j _ => (fun _ => (0 : ℝ)) j⟩ (simInit3 T xr time dbl0 conv0) :=
    ⟨fun _ _ _ _ _ => rfl, fun _ _ _ _ _ _ => rfl, fun _ _ _ _ _ _ => rfl, dbl0, conv0, rfl⟩
  obtain ⟨r1, r2, r3⟩ := simLoop3_holds hT (fun hn => h.good xr nu cfl hn)
    (fun hn => ⟨(h.passive hn).1, (h.passive hn).2.1, (h.passive hn).2.2.1, (h.passive hn).2.2.2⟩) hxr hft hcfl hnu htol hK hN.upd hxy hinit
  rw [refRun3_rest _ _ hN _ _ ys hΦ] at r2
  refine ⟨r1, fun c p hc hp => ⟨r2.sc c p hc (inArr_of_inner3 hp) (Or.inl hp), fun j => ⟨r2.om j c p hc (inArr_of_inner3 hp) (Or.inl hp), ?_⟩⟩⟩
  rw [← restVel_eq]
  exact r2.u j c p hc (inArr_of_inner3 hp) (Or.inl hp)

end Three

/-- kernels as in `sopht` are null -/
example : ∃ K : Kern3, K.Null ∧ K.curl 1 (fun _ d => (d.1 : ℝ)) = (-2, 2, 0) :=
  ⟨{ diff := fun a f => a * (f () (1, 0, 0) + f () (-1, 0, 0) + f () (0, 1, 0) + f () (0, -1, 0) + f () (0, 0, 1) + f () (0, 0, -1) - 6 * f () (0, 0, 0))
     adv := fun a f => a * (f (some 0) (0, 0, 0) * (f none (0, 0, 2) - f none (0, 0, -2)) + f (some 1) (0, 0, 0) * (f none (0, 2, 0) - f none (0, -2, 0)) +
       f (some 2) (0, 0, 0) * (f none (2, 0, 0) - f none (-2, 0, 0)))
     curl := fun a f => (a * (f 2 (0, 1, 0) - f 2 (0, -1, 0) - f 1 (1, 0, 0) + f 1 (-1, 0, 0)), a * (f 0 (1, 0, 0) - f 0 (-1, 0, 0) - f 2 (0, 0, 1) + f 2 (0, 0, -1)),
       a * (f 1 (0, 0, 1) - f 1 (0, 0, -1) - f 0 (0, 1, 0) + f 0 (0, -1, 0)))
     upd := fun a f => (a * (f 2 (0, 1, 0) - f 2 (0, -1, 0)), 0, 0)
     div := fun a f => a * (f 0 (0, 0, 1) - f 0 (0, 0, -1)) },
   ⟨by intro a; simp, by intro a f h; simp [h], by intro a; simp, by intro a; simp⟩, by norm_num⟩

/-- with a free stream the velocity is that of the last step -/
example : restVel "navier_stokes" true [fun _ : Fin 2 => (1 : ℝ), ![3, 4]] 1 = 4 := by simp [restVel, isNS]

end Sopht
