import Verif.Sim2DRun
import Mathlib.Algebra.BigOperators.Finprod

/-!
# Circulation, maximum principle and divergence in 2D (C90, C91, C92)

The numerical kernels come from the `sopht` package; so far they were parameters.  Here they are the central differences the simulator's prefactors are made for
(`flow_simulators_mpi_2d.py:258-300`: `nu * dt / dx / dx`, `dt / (2 * dx)`, `0.5 / dx`), and an advection kernel in flux form.
-/

namespace Sopht

open Finset

/-! ## Specification -/

/-- The five-point Laplacian. -/
def FivePoint (k : ℝ → (Unit → C2 → ℝ) → ℝ) : Prop :=
  ∀ a f, k a f = a * (f () (1, 0) + f () (-1, 0) + f () (0, 1) + f () (0, -1) - 4 * f () (0, 0))

/-- Curl of an out-of-plane field: `(∂f/∂y, -∂f/∂x)`, cells are `(y, x)`. -/
def CentralCurl2 (k : ℝ → (Unit → C2 → ℝ) → ℝ × ℝ) : Prop :=
  ∀ a f, k a f = (a * (f () (1, 0) - f () (-1, 0)), -(a * (f () (0, 1) - f () (0, -1))))

/-- Out-of-plane curl of a vector field (component 0 is along x): `∂f₁/∂x - ∂f₀/∂y`. -/
def CentralRot2 (k : ℝ → (Fin 2 → C2 → ℝ) → ℝ) : Prop :=
  ∀ a f, k a f = a * (f 1 (0, 1) - f 1 (0, -1) - (f 0 (1, 0) - f 0 (-1, 0)))

/-- Advection in flux form: what leaves a cell through a face enters the next cell; no flux where the advected field vanishes in the four cells around the face. -/
def FluxForm2 (k : ℝ → (Option (Fin 2) → C2 → ℝ) → ℝ) : Prop :=
  ∃ X Y : (Option (Fin 2) → C2 → ℝ) → ℝ,
    (∀ a f, k a f = a * (X f - X (fun i d => f i (d.1, d.2 - 1)) + (Y f - Y fun i d => f i (d.1 - 1, d.2)))) ∧
    (∀ f, (∀ n : ℤ, -1 ≤ n → n ≤ 2 → f none (0, n) = 0) → X f = 0) ∧ ∀ f, (∀ n : ℤ, -1 ≤ n → n ≤ 2 → f none (n, 0) = 0) → Y f = 0

/-- `f` vanishes in all cells less than `k` cells away from a side of the grid, and outside. -/
def Within2 (gy gx k : ℕ) (f : C2 → ℝ) : Prop := ∀ G, ¬ Away2 gy gx k G → f G = 0

/-- Sum over the grid. -/
noncomputable def total2 (gy gx : ℕ) (f : C2 → ℝ) : ℝ := ∑ G ∈ Ico (0 : ℤ) gy ×ˢ Ico (0 : ℤ) gx, f G

/-! ## Sums -/

variable {gy gx : ℕ}

theorem Within2.mono {k l : ℕ} {f : C2 → ℝ} (h : Within2 gy gx k f) (hl : l ≤ k) : Within2 gy gx l f := by
  intro G hG
  refine h G fun hk => hG ?_
  unfold Away2 at *
  omega

theorem total2_finsum {f : C2 → ℝ} (h : Within2 gy gx 0 f) : total2 gy gx f = ∑ᶠ G, f G := by
  unfold total2
  symm
  apply finsum_eq_sum_of_support_subset
  intro G hG
  have : Away2 gy gx 0 G := by
    by_contra hn
    exact hG (h G hn)
  unfold Away2 at this
  simp only [coe_product, coe_Ico, Set.mem_prod, Set.mem_Ico]
  omega

theorem total2_shift {k : ℕ} {f : C2 → ℝ} (h : Within2 gy gx k f) (d : C2) (h1 : |d.1| ≤ k) (h2 : |d.2| ≤ k) :
    total2 gy gx (fun G => f (G.1 + d.1, G.2 + d.2)) = total2 gy gx f := by
  rw [abs_le] at h1 h2
  rw [total2_finsum (h.mono (Nat.zero_le _)), total2_finsum]
  · exact finsum_comp_equiv (Equiv.addRight d)
  · intro G hG
    apply h
    intro ha
    apply hG
    unfold Away2 at *
    simp only at ha
    omega

theorem total2_congr {f f' : C2 → ℝ} (h : ∀ G, Dom2 gy gx G → f G = f' G) : total2 gy gx f = total2 gy gx f' := by
  refine Finset.sum_congr rfl fun G hG => h G ?_
  simp only [mem_product, mem_Ico] at hG
  exact ⟨hG.1.1, hG.1.2, hG.2.1, hG.2.2⟩

theorem total2_add (f f' : C2 → ℝ) : total2 gy gx (fun G => f G + f' G) = total2 gy gx f + total2 gy gx f' := Finset.sum_add_distrib
theorem total2_sub (f f' : C2 → ℝ) : total2 gy gx (fun G => f G - f' G) = total2 gy gx f - total2 gy gx f' := Finset.sum_sub_distrib _ _
theorem total2_mul (a : ℝ) (f : C2 → ℝ) : total2 gy gx (fun G => a * f G) = a * total2 gy gx f := (Finset.mul_sum _ _ _).symm

/-! ## The parts of a step -/

section Parts
variable {P : Params2} {K : Kern2}

theorem adv2_within (hK : FluxForm2 K.adv) {k : ℕ} {om : C2 → ℝ} (h : Within2 P.gy P.gx (k + 3) om) (dt : ℝ) (u : Fin 2 → C2 → ℝ) :
    Within2 P.gy P.gx (k + 1) (refAdv2 P K dt u om) ∧ total2 P.gy P.gx (refAdv2 P K dt u om) = total2 P.gy P.gx om := by
  obtain ⟨X, Y, hk, hX, hY⟩ := hK
  set f : C2 → Option (Fin 2) → C2 → ℝ := fun G i d => match i with
    | none => om (G.1 + d.1, G.2 + d.2)
    | some j => u j (G.1 + d.1, G.2 + d.2) with hf
  have eX : ∀ G : C2, X (fun i d => f G i (d.1, d.2 - 1)) = X (f (G.1 + 0, G.2 + -1)) := by
    intro G
    congr 1
    funext i d
    rcases i with _ | j <;> simp only [hf] <;> congr 2 <;> ring
  have eY : ∀ G : C2, Y (fun i d => f G i (d.1 - 1, d.2)) = Y (f (G.1 + -1, G.2 + 0)) := by
    intro G
    congr 1
    funext i d
    rcases i with _ | j <;> simp only [hf] <;> congr 2 <;> ring
  have wX : Within2 P.gy P.gx (k + 1) fun G => X (f G) := by
    intro G hG
    apply hX
    intro n h1 h2
    apply h
    unfold Away2 at *
    simp only
    omega
  have wY : Within2 P.gy P.gx (k + 1) fun G => Y (f G) := by
    intro G hG
    apply hY
    intro n h1 h2
    apply h
    unfold Away2 at *
    simp only
    omega
  have e : ∀ G, refAdv2 P K dt u om G = if Dom2 P.gy P.gx G then om G + -(dt / P.dx) * (X (f G) - X (f (G.1 + 0, G.2 + -1)) + (Y (f G) - Y (f (G.1 + -1, G.2 + 0)))) else om G := by
    intro G
    unfold refAdv2
    have := hk (-(dt / P.dx)) (f G)
    rw [eX, eY] at this
    rw [← this]
    rfl
  constructor
  · intro G hG
    rw [e]
    have h0 : om G = 0 := h G fun ha => hG (by unfold Away2 at *; omega)
    split
    · have x0 : X (f G) = 0 := wX G hG
      have y0 : Y (f G) = 0 := wY G hG
      rw [h0, x0, y0]
      have hx : X (f (G.1 + 0, G.2 + -1)) = 0 := by
        apply hX
        intro n h1 h2
        apply h
        unfold Away2 at *
        simp only
        omega
      have hy : Y (f (G.1 + -1, G.2 + 0)) = 0 := by
        apply hY
        intro n h1 h2
        apply h
        unfold Away2 at *
        simp only
        omega
      rw [hx, hy]
      ring
    · exact h0
  · have s1 := total2_shift (wX.mono (by omega : 1 ≤ k + 1)) (0, -1) (by simp) (by simp)
    have s2 := total2_shift (wY.mono (by omega : 1 ≤ k + 1)) (-1, 0) (by simp) (by simp)
    rw [total2_congr (f' := fun G => om G + -(dt / P.dx) * (X (f G) - X (f (G.1 + 0, G.2 + -1)) + (Y (f G) - Y (f (G.1 + -1, G.2 + 0))))) fun G hG => by rw [e, if_pos hG]]
    rw [total2_add, total2_mul, total2_add, total2_sub, total2_sub]
    simp only at s1 s2
    rw [s1, s2]
    ring

theorem diff2_within (hK : FivePoint K.diff) {k : ℕ} {om : C2 → ℝ} (h : Within2 P.gy P.gx (k + 1) om) (h2 : Within2 P.gy P.gx 2 om) (dt : ℝ) :
    Within2 P.gy P.gx k (refDiff2 P K dt om) ∧ total2 P.gy P.gx (refDiff2 P K dt om) = total2 P.gy P.gx om := by
  have e : ∀ G, Dom2 P.gy P.gx G → refDiff2 P K dt om G = om G + P.nu * dt / P.dx / P.dx *
      (om (G.1 + 1, G.2 + 0) + om (G.1 + -1, G.2 + 0) + om (G.1 + 0, G.2 + 1) + om (G.1 + 0, G.2 + -1) - 4 * om (G.1 + 0, G.2 + 0)) := by
    intro G hG
    unfold refDiff2
    split
    · rw [hK]
    · rename_i hn
      have he : OnEdge2 P.gy P.gx G := by
        by_contra hne
        exact hn ⟨hG, hne⟩
      have z : ∀ d : C2, |d.1| ≤ 1 → |d.2| ≤ 1 → om (G.1 + d.1, G.2 + d.2) = 0 := by
        intro d h1 h2'
        rw [abs_le] at h1 h2'
        apply h2
        unfold OnEdge2 at he
        unfold Away2
        simp only
        omega
      rw [z (1, 0) (by simp) (by simp), z (-1, 0) (by simp) (by simp), z (0, 1) (by simp) (by simp), z (0, -1) (by simp) (by simp), z (0, 0) (by simp) (by simp)]
      ring
  constructor
  · intro G hG
    have z : ∀ d : C2, |d.1| + |d.2| ≤ 1 → om (G.1 + d.1, G.2 + d.2) = 0 := by
      intro d h1
      have a1 := abs_le.1 (show |d.1| ≤ 1 by have := abs_nonneg d.2; omega)
      have a2 := abs_le.1 (show |d.2| ≤ 1 by have := abs_nonneg d.1; omega)
      apply h
      unfold Away2 at *
      simp only
      omega
    have z0 := z (0, 0) (by simp)
    simp only [add_zero] at z0
    by_cases hD : Dom2 P.gy P.gx G
    · rw [e G hD]
      have y0 := z (0, 0) (by simp)
      rw [z (1, 0) (by simp), z (-1, 0) (by simp), z (0, 1) (by simp), z (0, -1) (by simp), y0, show om G = 0 from z0]
      ring
    · unfold refDiff2
      rw [if_neg fun hh => hD hh.1]
      exact z0
  · rw [total2_congr e, total2_add, total2_mul, total2_sub, total2_mul, total2_add, total2_add, total2_add]
    have s : ∀ d : C2, |d.1| ≤ 1 → |d.2| ≤ 1 → total2 P.gy P.gx (fun G => om (G.1 + d.1, G.2 + d.2)) = total2 P.gy P.gx om := fun d a b =>
      total2_shift (h2.mono one_le_two) d (by exact_mod_cast a) (by exact_mod_cast b)
    have s1 := s (1, 0) (by simp) (by simp)
    have s2 := s (-1, 0) (by simp) (by simp)
    have s3 := s (0, 1) (by simp) (by simp)
    have s4 := s (0, -1) (by simp) (by simp)
    have s5 := s (0, 0) (by simp) (by simp)
    simp only at s1 s2 s3 s4 s5
    rw [s1, s2, s3, s4, s5]
    ring

theorem force2_within (hK : CentralRot2 K.upd) {k : ℕ} {om : C2 → ℝ} (h : Within2 P.gy P.gx k om) {Φ : Fin 2 → C2 → ℝ} (hΦ : ∀ j, Within2 P.gy P.gx (k + 1) (Φ j)) (dt : ℝ) :
    Within2 P.gy P.gx k (refForce2 P K dt Φ om) ∧ total2 P.gy P.gx (refForce2 P K dt Φ om) = total2 P.gy P.gx om := by
  have e : ∀ G, Dom2 P.gy P.gx G → refForce2 P K dt Φ om G = om G + dt / (2 * P.dx) *
      (Φ 1 (G.1 + 0, G.2 + 1) - Φ 1 (G.1 + 0, G.2 + -1) - (Φ 0 (G.1 + 1, G.2 + 0) - Φ 0 (G.1 + -1, G.2 + 0))) := by
    intro G hG
    unfold refForce2
    rw [if_pos hG, hK]
  constructor
  · intro G hG
    have z : ∀ (j : Fin 2) (d : C2), |d.1| + |d.2| ≤ 1 → Φ j (G.1 + d.1, G.2 + d.2) = 0 := by
      intro j d h1
      have a1 := abs_le.1 (show |d.1| ≤ 1 by have := abs_nonneg d.2; omega)
      have a2 := abs_le.1 (show |d.2| ≤ 1 by have := abs_nonneg d.1; omega)
      apply hΦ
      unfold Away2 at *
      simp only
      omega
    by_cases hD : Dom2 P.gy P.gx G
    · rw [e G hD, h G hG, z 1 (0, 1) (by simp), z 1 (0, -1) (by simp), z 0 (1, 0) (by simp), z 0 (-1, 0) (by simp)]
      ring
    · unfold refForce2
      rw [if_neg hD]
      exact h G hG
  · rw [total2_congr e, total2_add, total2_mul, total2_sub, total2_sub, total2_sub]
    have s : ∀ (j : Fin 2) (d : C2), |d.1| ≤ 1 → |d.2| ≤ 1 → total2 P.gy P.gx (fun G => Φ j (G.1 + d.1, G.2 + d.2)) = total2 P.gy P.gx (Φ j) := fun j d a b =>
      total2_shift ((hΦ j).mono (by omega : 1 ≤ k + 1)) d (by exact_mod_cast a) (by exact_mod_cast b)
    have s1 := s 1 (0, 1) (by simp) (by simp)
    have s2 := s 1 (0, -1) (by simp) (by simp)
    have s3 := s 0 (1, 0) (by simp) (by simp)
    have s4 := s 0 (-1, 0) (by simp) (by simp)
    simp only at s1 s2 s3 s4
    rw [s1, s2, s3, s4]
    ring

theorem pen1_within {N w : ℕ} {U : ℤ → ℝ} (h : ∀ j : ℤ, ¬ ((w : ℤ) ≤ j ∧ j < N - w) → U j = 0) : serialPen1 false N w U = U := by
  unfold serialPen1
  split
  · rfl
  · rename_i hw
    have hw : w ≠ 0 := fun h => hw (Or.inr h)
    funext j
    have hl : U (w - 1) = 0 := h _ (by omega)
    simp only [hl, zero_mul]
    by_cases h1 : (N : ℤ) - w ≤ j
    · rw [if_pos h1, h j (by omega)]
      split
      · rw [zero_mul]
      · rw [h _ (by omega), zero_mul]
    · rw [if_neg h1]
      split
      · rw [h j (by omega)]
      · rfl

theorem pen2_within {w : ℕ} {om : C2 → ℝ} (h : Within2 gy gx w om) : serialPen2 false gy gx w om = om := by
  unfold serialPen2
  have hx : (fun G : C2 => serialPen1 false gx w (fun j => om (G.1, j)) G.2) = om := by
    funext G
    rw [pen1_within]
    intro j hj
    apply h
    unfold Away2
    simp only
    omega
  simp only
  funext G
  have : (fun j : ℤ => serialPen1 false gx w (fun j_1 => om (((j, G.2) : C2).1, j_1)) ((j, G.2) : C2).2) = fun j => om (j, G.2) := by
    funext j
    exact congrFun hx (j, G.2)
  rw [this, pen1_within]
  intro j hj
  apply h
  unfold Away2
  simp only
  omega

/-- One step of any flow type. -/
theorem step2_total (hd : FivePoint K.diff) (ha : FluxForm2 K.adv) (hu : CentralRot2 K.upd) (ft : String) {k : ℕ} (hw : P.w ≤ k) (hk : 1 ≤ k) (dt : ℝ) (fs : Fin 2 → ℝ)
    {Φ : Fin 2 → C2 → ℝ} (hΦ : ∀ j, Within2 P.gy P.gx (k + 4) (Φ j)) {F : Fields2} (h : Within2 P.gy P.gx (k + 3) F.om) :
    Within2 P.gy P.gx k (refStep2 ft P K dt fs Φ F).om ∧ total2 P.gy P.gx (refStep2 ft P K dt fs Φ F).om = total2 P.gy P.gx F.om := by
  have ad : ∀ {om : C2 → ℝ}, Within2 P.gy P.gx (k + 3) om → Within2 P.gy P.gx k (refDiff2 P K dt (refAdv2 P K dt F.u om)) ∧
      total2 P.gy P.gx (refDiff2 P K dt (refAdv2 P K dt F.u om)) = total2 P.gy P.gx om := by
    intro om hom
    obtain ⟨a1, a2⟩ := adv2_within (P := P) (k := k) ha hom dt F.u
    obtain ⟨d1, d2⟩ := diff2_within (P := P) (k := k) hd a1 (a1.mono (by omega)) dt
    exact ⟨d1, d2.trans a2⟩
  unfold refStep2
  split
  · obtain ⟨b1, b2⟩ := ad h
    unfold refNS2
    simp only
    rw [pen2_within (b1.mono hw)]
    exact ⟨b1, b2⟩
  · split
    · obtain ⟨f1, f2⟩ := force2_within (P := P) hu h hΦ dt
      obtain ⟨b1, b2⟩ := ad f1
      unfold refForcing2 refNS2
      simp only
      rw [pen2_within (b1.mono hw)]
      exact ⟨b1, b2.trans f2⟩
    · exact ad h

/-- Any number of steps on the global grid. -/
theorem run2_total (hd : FivePoint K.diff) (ha : FluxForm2 K.adv) (hu : CentralRot2 K.upd) (ft : String) (cfl tol : ℝ) : ∀ (ys : List StepSpec2) {s : Fields2 × ℝ},
    (∀ y ∈ ys, ∀ j, Within2 P.gy P.gx (max P.w 1 + 3 * ys.length + 1) (y.Φ j)) → Within2 P.gy P.gx (max P.w 1 + 3 * ys.length) s.1.om →
    Within2 P.gy P.gx (max P.w 1) (refRun2 ft P K cfl tol ys s).1.om ∧ total2 P.gy P.gx (refRun2 ft P K cfl tol ys s).1.om = total2 P.gy P.gx s.1.om
  | [], s, _, h => ⟨h, rfl⟩
  | y :: ys, s, hΦ, h => by
    rw [List.length_cons] at hΦ h
    obtain ⟨s1, s2⟩ := step2_total (P := P) hd ha hu ft (k := max P.w 1 + 3 * ys.length) (by omega) (by omega) (refDt2 P cfl tol s.1 y.rule) y.fs
      (fun j => (hΦ y List.mem_cons_self j).mono (by omega)) (h.mono (by omega))
    obtain ⟨r1, r2⟩ := run2_total hd ha hu ft cfl tol ys (s := (refStep2 ft P K (refDt2 P cfl tol s.1 y.rule) y.fs y.Φ s.1, s.2 + refDt2 P cfl tol s.1 y.rule))
      (fun y' hy' j => (hΦ y' (List.mem_cons_of_mem _ hy') j).mono (by omega)) s1
    exact ⟨r1, r2.trans s2⟩

end Parts

/-! ## The simulator on any number of ranks -/

section Ranks
variable {T : Cart2} [NeZero T.gy] [NeZero T.gx]

omit [NeZero T.gy] [NeZero T.gx] in
theorem innerTotal2_blocks {py px : ℕ} {per : Bool} (hT : mkCart2 gy gx py px per = .ok T) {g : ℕ} {F : C2 → ℝ} {v : World C2 C2 ℝ}
    (h : Blocks2 T g F v) : innerTotal2 T g v = total2 gy gx F := by
  unfold innerTotal2 total2
  rw [← sum_blocks2 hT g F]
  refine Finset.sum_congr rfl fun c hc => Finset.sum_congr rfl fun p hp => ?_
  exact h c p (mem_rankSet2.1 hc) (mem_innerSet2.1 hp)

/-- **C90 (2D)** The sum of the vorticity (or of the passive scalar) over the inner cells of all ranks does not change in any number of time steps of any size, with or without
forcing, as long as vorticity and forcing cannot have reached the sides (three cells per step) or the penalty zone. -/
theorem circulation2 {a : SimArgs2} (h : Fit2 a T) {xr : ℝ} (hxr : 0 < xr) (nu : ℝ) {cfl : ℝ} (hcfl : 0 ≤ cfl) {tol : ℝ} (htol : 0 < tol)
    {K : Kern2} (hK : K.Local) (hd : FivePoint K.diff) (ha : FluxForm2 K.adv) (hu : CentralRot2 K.upd) (time : ℝ) (dbl0 : World C2 C2 ℝ) (conv0 : Dbl2 T → ℂ)
    (om : ℝ → ℝ → ℝ) (u : Fin 2 → ℝ → ℝ → ℝ) {xs : List StepIn2} {ys : List StepSpec2}
    (hxy : List.Forall₂ (Means2 a.gy a.gx T (simCfg2 a T xr nu cfl)) xs ys)
    (hom : Within2 a.gy a.gx (max (widthOf a.width) 1 + 3 * ys.length) (fieldsFrom2 (xr / a.gx) om u).om)
    (hΦ : ∀ y ∈ ys, ∀ j, Within2 a.gy a.gx (max (widthOf a.width) 1 + 3 * ys.length + 1) (y.Φ j)) :
    let start := initFrom2 T a.g xr time dbl0 conv0 om u
    let out := simLoop2 (simCfg2 a T xr nu cfl) K tol xs start
    out.2 = none ∧ innerTotal2 T 2 out.1.prim = innerTotal2 T 2 start.prim := by
  obtain ⟨hT, hft⟩ := simCheck2_cart' h.built
  have hK0 : ∀ r, K.upd r (fun _ _ => 0) = 0 := fun r => by rw [hu]; ring
  obtain ⟨r1, -, r3⟩ := sim2_run h hxr nu hcfl htol hK hK0 time dbl0 conv0 om u hxy
  have hinit := initFrom2_holds hT (simCfg2 a T xr nu cfl) time dbl0 conv0 om u
  obtain ⟨-, t2⟩ := run2_total (P := ⟨a.gy, a.gx, xr, nu, widthOf a.width, a.freeStream⟩) hd ha hu a.flowType cfl tol ys (s := (fieldsFrom2 (xr / a.gx) om u, time)) hΦ hom
  intro start out
  refine ⟨r1, ?_⟩
  rw [innerTotal2_blocks hT (F := (fieldsFrom2 (xr / a.gx) om u).om) (v := start.prim), innerTotal2_blocks hT (fun c p hc hp => (r3 c p hc hp).1)]
  · exact t2
  · intro c p hc hp
    have := hinit.om c p hc (inArr_of_inner2 hp) (Or.inl hp)
    simp only [start, h.g]
    exact this

/-- The time step of a rule is small enough for diffusion: given, with `4 ν dt ≤ dx²`, or the stable one times a factor of at most 1. -/
def SmallStep2 (nu dx : ℝ) : DtRule → Prop
  | .fixed dt => 0 ≤ dt ∧ 4 * (nu * dt) ≤ dx ^ 2
  | .stable pre => 0 ≤ pre ∧ pre ≤ 1

theorem smallStep2_dt {P : Params2} (hdx : 0 < P.dx) (hnu : 0 ≤ P.nu) {cfl tol : ℝ} (hcfl : 0 ≤ cfl) (htol : 0 < tol) {F : Fields2} (hM : 0 ≤ maxVel2 P.gy P.gx F.u)
    {r : DtRule} (hr : SmallStep2 P.nu P.dx r) : 0 ≤ P.nu * refDt2 P cfl tol F r / P.dx / P.dx ∧ 4 * (P.nu * refDt2 P cfl tol F r / P.dx / P.dx) ≤ 1 := by
  have hdt : 0 ≤ refDt2 P cfl tol F r ∧ 4 * (P.nu * refDt2 P cfl tol F r) ≤ P.dx ^ 2 := by
    cases r with
    | fixed dt => exact hr
    | stable pre =>
      obtain ⟨h0, h1⟩ := hr
      unfold refDt2
      by_cases hn : P.nu = 0
      · rw [if_pos hn, hn]
        refine ⟨by positivity, ?_⟩
        rw [zero_mul, mul_zero]
        positivity
      · have hn' : 0 < P.nu := lt_of_le_of_ne hnu (Ne.symm hn)
        rw [if_neg hn]
        have hm : 0 ≤ min (cfl * P.dx / (maxVel2 P.gy P.gx F.u + tol)) (0.9 * P.dx ^ 2 / 4 / P.nu) := le_min (by positivity) (by positivity)
        refine ⟨mul_nonneg hm h0, ?_⟩
        have hle := min_le_right (cfl * P.dx / (maxVel2 P.gy P.gx F.u + tol)) (0.9 * P.dx ^ 2 / 4 / P.nu)
        generalize min (cfl * P.dx / (maxVel2 P.gy P.gx F.u + tol)) (0.9 * P.dx ^ 2 / 4 / P.nu) = m at hm hle
        have h3 : m * pre ≤ 0.9 * P.dx ^ 2 / 4 / P.nu := by nlinarith
        have h4 : P.nu * (m * pre) ≤ P.nu * (0.9 * P.dx ^ 2 / 4 / P.nu) := mul_le_mul_of_nonneg_left h3 hnu
        have h5 : P.nu * (0.9 * P.dx ^ 2 / 4 / P.nu) = 0.9 * P.dx ^ 2 / 4 := by field_simp
        have h6 : 0 < P.dx ^ 2 := by positivity
        rw [h5] at h4
        linarith
  obtain ⟨d0, d1⟩ := hdt
  refine ⟨by positivity, ?_⟩
  rw [div_div, ← mul_div_assoc, div_le_one (by positivity)]
  nlinarith

theorem diff2_bounds {P : Params2} {K : Kern2} (hd : FivePoint K.diff) {dt lo hi : ℝ} (h0 : 0 ≤ P.nu * dt / P.dx / P.dx) (h1 : 4 * (P.nu * dt / P.dx / P.dx) ≤ 1)
    {om : C2 → ℝ} (h : ∀ G, Dom2 P.gy P.gx G → lo ≤ om G ∧ om G ≤ hi) {G : C2} (hG : Dom2 P.gy P.gx G) : lo ≤ refDiff2 P K dt om G ∧ refDiff2 P K dt om G ≤ hi := by
  unfold refDiff2
  split
  · rename_i hh
    rw [hd]
    generalize P.nu * dt / P.dx / P.dx = e at h0 h1
    have hn : ∀ d : C2, |d.1| ≤ 1 → |d.2| ≤ 1 → lo ≤ om (G.1 + d.1, G.2 + d.2) ∧ om (G.1 + d.1, G.2 + d.2) ≤ hi := by
      intro d h1 h2
      rw [abs_le] at h1 h2
      apply h
      obtain ⟨a, b⟩ := hh
      unfold Dom2 at *
      unfold OnEdge2 at b
      simp only
      omega
    obtain ⟨l0, u0⟩ := hn (0, 0) (by simp) (by simp)
    obtain ⟨l1, u1⟩ := hn (1, 0) (by simp) (by simp)
    obtain ⟨l2, u2⟩ := hn (-1, 0) (by simp) (by simp)
    obtain ⟨l3, u3⟩ := hn (0, 1) (by simp) (by simp)
    obtain ⟨l4, u4⟩ := hn (0, -1) (by simp) (by simp)
    simp only [add_zero] at l0 u0 l1 u1 l2 u2 l3 u3 l4 u4 ⊢
    have e0 : om G = om (G.1, G.2) := rfl
    rw [e0]
    constructor <;> nlinarith [mul_le_mul_of_nonneg_left l1 h0, mul_le_mul_of_nonneg_left l2 h0, mul_le_mul_of_nonneg_left l3 h0, mul_le_mul_of_nonneg_left l4 h0,
      mul_le_mul_of_nonneg_left u1 h0, mul_le_mul_of_nonneg_left u2 h0, mul_le_mul_of_nonneg_left u3 h0, mul_le_mul_of_nonneg_left u4 h0]
  · exact h G hG

theorem run2_bounds {P : Params2} {K : Kern2} (hd : FivePoint K.diff) (ha : ∀ a f, (∀ j d, f (some j) d = 0) → K.adv a f = 0) {ft : String} (hf : ft ≠ "navier_stokes")
    (hf' : ft ≠ "navier_stokes_with_forcing") (hdx : 0 < P.dx) (hnu : 0 ≤ P.nu) {cfl tol : ℝ} (hcfl : 0 ≤ cfl) (htol : 0 < tol) {lo hi : ℝ} :
    ∀ (ys : List StepSpec2) (s : Fields2 × ℝ), (∀ y ∈ ys, SmallStep2 P.nu P.dx y.rule) → (∀ j G, s.1.u j G = 0) → (∀ G, Dom2 P.gy P.gx G → lo ≤ s.1.om G ∧ s.1.om G ≤ hi) →
    ∀ G, Dom2 P.gy P.gx G → lo ≤ (refRun2 ft P K cfl tol ys s).1.om G ∧ (refRun2 ft P K cfl tol ys s).1.om G ≤ hi
  | [], _, _, _, h => h
  | y :: ys, s, hy, hu, h => by
    have hM : 0 ≤ maxVel2 P.gy P.gx s.1.u := by
      unfold maxVel2
      apply Real.sSup_nonneg
      rintro x ⟨G, -, rfl⟩
      positivity
    obtain ⟨d0, d1⟩ := smallStep2_dt hdx hnu hcfl htol hM (hy y List.mem_cons_self)
    have hstep : (refStep2 ft P K (refDt2 P cfl tol s.1 y.rule) y.fs y.Φ s.1) = refScalar2 P K (refDt2 P cfl tol s.1 y.rule) s.1 := by
      unfold refStep2
      rw [if_neg hf, if_neg hf']
    have hadv : refAdv2 P K (refDt2 P cfl tol s.1 y.rule) s.1.u s.1.om = s.1.om := by
      funext G
      unfold refAdv2
      rw [ha _ _ fun j d => hu j _]
      split <;> simp
    unfold refRun2
    rw [hstep]
    refine run2_bounds hd ha hf hf' hdx hnu hcfl htol ys _ (fun y' h' => hy y' (List.mem_cons_of_mem _ h')) hu ?_
    intro G hG
    unfold refScalar2
    simp only
    rw [hadv]
    exact diff2_bounds hd d0 d1 h hG

/-- **C91 (2D)** Pure diffusion of a passive scalar (no velocity) with the stable time step, or any given one with `4 ν dt ≤ dx²`: on every rank, after any number of steps,
the scalar lies between the smallest and the largest initial value. -/
theorem diffusion2_maximum {a : SimArgs2} (h : Fit2 a T) (hf : a.flowType = "passive_scalar") {xr : ℝ} (hxr : 0 < xr) {nu : ℝ} (hnu : 0 ≤ nu) {cfl : ℝ} (hcfl : 0 ≤ cfl) {tol : ℝ}
    (htol : 0 < tol) {K : Kern2} (hK : K.Local) (hK0 : ∀ r, K.upd r (fun _ _ => 0) = 0) (hd : FivePoint K.diff) (ha : ∀ a f, (∀ j d, f (some j) d = 0) → K.adv a f = 0)
    (time : ℝ) (dbl0 : World C2 C2 ℝ) (conv0 : Dbl2 T → ℂ) (om : ℝ → ℝ → ℝ) {xs : List StepIn2} {ys : List StepSpec2}
    (hxy : List.Forall₂ (Means2 a.gy a.gx T (simCfg2 a T xr nu cfl)) xs ys) (hdt : ∀ y ∈ ys, SmallStep2 nu (xr / a.gx) y.rule) {lo hi : ℝ} :
    let start := initFrom2 T a.g xr time dbl0 conv0 om fun _ _ _ => 0
    let out := simLoop2 (simCfg2 a T xr nu cfl) K tol xs start
    (∀ c p, Valid2 T c → Inner2 T ((2 : ℕ) : ℤ) p → lo ≤ start.prim c p ∧ start.prim c p ≤ hi) →
    out.2 = none ∧ ∀ c p, Valid2 T c → Inner2 T ((2 : ℕ) : ℤ) p → lo ≤ out.1.prim c p ∧ out.1.prim c p ≤ hi := by
  obtain ⟨hT, hft⟩ := simCheck2_cart' h.built
  obtain ⟨e1, e2, -, -, -, hY, hX⟩ := construct2_ok hT
  have hgx0 : 0 < a.gx := by rw [← e2]; exact Nat.pos_of_ne_zero (NeZero.ne _)
  obtain ⟨r1, -, r3⟩ := sim2_run h hxr nu hcfl htol hK hK0 time dbl0 conv0 om (fun _ _ _ => 0) hxy
  have hinit := initFrom2_holds hT (simCfg2 a T xr nu cfl) time dbl0 conv0 om fun _ _ _ => 0
  intro start out hb
  refine ⟨r1, fun c p hc hp => ?_⟩
  have hD : Dom2 a.gy a.gx (globalIx2 T ((2 : ℕ) : ℤ) c p) := (dom2_iff hT _).2 (inner_inDomain2 hT hc hp)
  have := run2_bounds (P := ⟨a.gy, a.gx, xr, nu, widthOf a.width, a.freeStream⟩) (K := K) hd ha (ft := a.flowType) (by rw [hf]; decide) (by rw [hf]; decide)
    (div_pos hxr (by exact_mod_cast hgx0)) hnu hcfl htol (lo := lo) (hi := hi) ys (fieldsFrom2 (xr / a.gx) om fun _ _ _ => 0, time) hdt (fun _ _ => rfl) ?_ _ hD
  · rw [← (r3 c p hc hp).1] at this
    exact this
  · intro G hG
    obtain ⟨c', p', hc', hp', rfl⟩ := domain_owned2 hT 2 ((dom2_iff hT G).1 hG)
    have e := hinit.om c' p' hc' (inArr_of_inner2 hp') (Or.inl hp')
    have hb' := hb c' p' hc' hp'
    simp only [start, h.g] at hb'
    exact (show _ = _ from e) ▸ hb'

/-- Central divergence of a velocity (component 0 along x) at cell `G = (y, x)`, times `2 dx`. -/
def centralDiv2 (U : Fin 2 → C2 → ℝ) (G : C2) : ℝ := U 0 (G.1, G.2 + 1) - U 0 (G.1, G.2 - 1) + (U 1 (G.1 + 1, G.2) - U 1 (G.1 - 1, G.2))

theorem vel2_solenoidal {P : Params2} {K : Kern2} (hc : CentralCurl2 K.curl) (om : C2 → ℝ) (fs : Fin 2 → ℝ) {G : C2} (hG : Away2 P.gy P.gx 2 G) :
    centralDiv2 (refFree2 P fs ![fun G => (refVel2 P K om G).1, fun G => (refVel2 P K om G).2]) G = 0 := by
  have e : ∀ d : C2, |d.1| ≤ 1 → |d.2| ≤ 1 → refVel2 P K om (G.1 + d.1, G.2 + d.2) =
      K.curl (0.5 / P.dx) (fun _ d' => freeSolution2 P.gy P.gx P.dx om (G.1 + d.1 + d'.1, G.2 + d.2 + d'.2)) := by
    intro d h1 h2
    rw [abs_le] at h1 h2
    unfold refVel2
    rw [if_pos]
    unfold Away2 at hG
    unfold Dom2 OnEdge2
    simp only
    omega
  have e1 := e (0, 1) (by simp) (by simp)
  have e2 := e (0, -1) (by simp) (by simp)
  have e3 := e (1, 0) (by simp) (by simp)
  have e4 := e (-1, 0) (by simp) (by simp)
  rw [hc] at e1 e2 e3 e4
  simp only [add_zero, ← sub_eq_add_neg] at e1 e2 e3 e4
  have a1 : G.2 - 1 + 1 = G.2 + 1 - 1 := by ring
  have a2 : G.1 - 1 + 1 = G.1 + 1 - 1 := by ring
  unfold centralDiv2 refFree2
  simp only [Matrix.cons_val_zero, Matrix.cons_val_one]
  rw [e1, e2, e3, e4]
  split <;> ring

theorem run2_velocity {P : Params2} {K : Kern2} {ft : String} (hf : ft = "navier_stokes" ∨ ft = "navier_stokes_with_forcing") (cfl tol : ℝ) :
    ∀ (ys : List StepSpec2) (s : Fields2 × ℝ), ys ≠ [] → ∃ om fs, (refRun2 ft P K cfl tol ys s).1.u = refFree2 P fs ![fun G => (refVel2 P K om G).1, fun G => (refVel2 P K om G).2]
  | [], _, h => absurd rfl h
  | [y], s, _ => by
    unfold refRun2 refRun2 refStep2
    split
    · exact ⟨_, _, rfl⟩
    · rename_i h1
      rw [if_pos (hf.resolve_left h1)]
      exact ⟨_, _, rfl⟩
  | y :: y' :: ys, s, _ => by
    rw [refRun2]
    exact run2_velocity hf cfl tol (y' :: ys) _ (List.cons_ne_nil _ _)

/-- **C92 (2D)** After any positive number of Navier-Stokes steps, whatever vorticity, forcing and free stream, the central divergence of the velocity vanishes in every cell of the
global grid at least two cells away from the sides, also across the boundaries between ranks. -/
theorem velocity2_solenoidal {a : SimArgs2} (h : Fit2 a T) (hf : a.flowType = "navier_stokes" ∨ a.flowType = "navier_stokes_with_forcing") {xr : ℝ} (hxr : 0 < xr) (nu : ℝ)
    {cfl : ℝ} (hcfl : 0 ≤ cfl) {tol : ℝ} (htol : 0 < tol) {K : Kern2} (hK : K.Local) (hK0 : ∀ r, K.upd r (fun _ _ => 0) = 0) (hc : CentralCurl2 K.curl)
    (time : ℝ) (dbl0 : World C2 C2 ℝ) (conv0 : Dbl2 T → ℂ) (om : ℝ → ℝ → ℝ) (u : Fin 2 → ℝ → ℝ → ℝ) {xs : List StepIn2} {ys : List StepSpec2} (hne : ys ≠ [])
    (hxy : List.Forall₂ (Means2 a.gy a.gx T (simCfg2 a T xr nu cfl)) xs ys) (U : Fin 2 → C2 → ℝ)
    (hU : ∀ j, Blocks2 T 2 (U j) ((simLoop2 (simCfg2 a T xr nu cfl) K tol xs (initFrom2 T a.g xr time dbl0 conv0 om u)).1.vel j)) :
    ∀ G, Away2 a.gy a.gx 2 G → centralDiv2 U G = 0 := by
  obtain ⟨hT, hft⟩ := simCheck2_cart' h.built
  obtain ⟨-, -, r3⟩ := sim2_run h hxr nu hcfl htol hK hK0 time dbl0 conv0 om u hxy
  obtain ⟨om', fs, hv⟩ := run2_velocity (P := ⟨a.gy, a.gx, xr, nu, widthOf a.width, a.freeStream⟩) (K := K) hf cfl tol ys (fieldsFrom2 (xr / a.gx) om u, time) hne
  have hUG : ∀ j G, Dom2 a.gy a.gx G → U j G = refFree2 ⟨a.gy, a.gx, xr, nu, widthOf a.width, a.freeStream⟩ fs ![fun G => (refVel2 ⟨a.gy, a.gx, xr, nu, widthOf a.width, a.freeStream⟩ K om' G).1,
      fun G => (refVel2 ⟨a.gy, a.gx, xr, nu, widthOf a.width, a.freeStream⟩ K om' G).2] j G := by
    intro j G hG
    obtain ⟨c', p', hc', hp', rfl⟩ := domain_owned2 hT 2 ((dom2_iff hT G).1 hG)
    rw [← hU j c' p' hc' hp', (r3 c' p' hc' hp').2 j, hv]
  intro G hG
  rw [← vel2_solenoidal (P := ⟨a.gy, a.gx, xr, nu, widthOf a.width, a.freeStream⟩) hc om' fs hG]
  unfold Away2 at hG
  unfold centralDiv2
  rw [hUG 0 _ ?_, hUG 0 _ ?_, hUG 1 _ ?_, hUG 1 _ ?_] <;> unfold Dom2 <;> simp only <;> omega

end Ranks

/-! ## Examples -/

/-- Upwind face value of third order: `F₀` in the cell before the face, `F₁` behind it. -/
noncomputable def upwind3 (v fm f0 f1 f2 : ℝ) : ℝ :=
  if 0 ≤ v then v * (f1 / 3 + 5 * f0 / 6 - fm / 6) else v * (f0 / 3 + 5 * f1 / 6 - f2 / 6)

/-- kernels as in `sopht`: central differences and a third order upwind advection in flux form -/
noncomputable def exKern2 : Kern2 where
  diff := fun a f => a * (f () (1, 0) + f () (-1, 0) + f () (0, 1) + f () (0, -1) - 4 * f () (0, 0))
  adv := fun a f => a * (
    upwind3 ((f (some 0) (0, 0) + f (some 0) (0, 1)) / 2) (f none (0, -1)) (f none (0, 0)) (f none (0, 1)) (f none (0, 2))
    - upwind3 ((f (some 0) (0, -1) + f (some 0) (0, 0)) / 2) (f none (0, -2)) (f none (0, -1)) (f none (0, 0)) (f none (0, 1))
    + (upwind3 ((f (some 1) (0, 0) + f (some 1) (1, 0)) / 2) (f none (-1, 0)) (f none (0, 0)) (f none (1, 0)) (f none (2, 0))
    - upwind3 ((f (some 1) (-1, 0) + f (some 1) (0, 0)) / 2) (f none (-2, 0)) (f none (-1, 0)) (f none (0, 0)) (f none (1, 0))))
  curl := fun a f => (a * (f () (1, 0) - f () (-1, 0)), -(a * (f () (0, 1) - f () (0, -1))))
  upd := fun a f => a * (f 1 (0, 1) - f 1 (0, -1) - (f 0 (1, 0) - f 0 (-1, 0)))

/-- these kernels meet all the assumptions at once -/
example : exKern2.Local ∧ FivePoint exKern2.diff ∧ FluxForm2 exKern2.adv ∧ CentralRot2 exKern2.upd ∧ CentralCurl2 exKern2.curl ∧
    ∀ a f, (∀ j d, f (some j) d = 0) → exKern2.adv a f = 0 := by
  refine ⟨?_, fun _ _ => rfl, ⟨fun f => upwind3 ((f (some 0) (0, 0) + f (some 0) (0, 1)) / 2) (f none (0, -1)) (f none (0, 0)) (f none (0, 1)) (f none (0, 2)),
    fun f => upwind3 ((f (some 1) (0, 0) + f (some 1) (1, 0)) / 2) (f none (-1, 0)) (f none (0, 0)) (f none (1, 0)) (f none (2, 0)), ?_, ?_, ?_⟩, fun _ _ => rfl, fun _ _ => rfl, ?_⟩
  · constructor <;> intro a A B h <;> simp only [exKern2] <;> (repeat rw [h _ _ (by simp [Cross2])])
  · intro a f
    simp only [exKern2]
    norm_num
  · intro f h
    simp only
    rw [h (-1) (by norm_num) (by norm_num), h 0 (by norm_num) (by norm_num), h 1 (by norm_num) (by norm_num), h 2 (by norm_num) (by norm_num)]
    unfold upwind3
    split <;> ring
  · intro f h
    simp only
    rw [h (-1) (by norm_num) (by norm_num), h 0 (by norm_num) (by norm_num), h 1 (by norm_num) (by norm_num), h 2 (by norm_num) (by norm_num)]
    unfold upwind3
    split <;> ring
  · intro a f h
    simp only [exKern2, h]
    unfold upwind3
    norm_num

/-- vorticity in a single cell in the middle of a grid of 16 × 16 cells, with room for one step with a penalty zone of two cells; the total is not zero -/
example : ∃ om : ℝ → ℝ → ℝ, Within2 16 16 (max 2 1 + 3 * 1) (fieldsFrom2 (1 / (16 : ℕ)) om fun _ _ _ => 0).om ∧
    total2 16 16 (fieldsFrom2 (1 / (16 : ℕ)) om fun _ _ _ => 0).om = 1 := by
  have e : (fieldsFrom2 (1 / (16 : ℕ)) (fun x y => if x = 17 / 32 ∧ y = 17 / 32 then 1 else 0) fun _ _ _ => 0).om = fun G : C2 => if G = (8, 8) then 1 else 0 := by
    funext G
    unfold fieldsFrom2
    have hn : ∀ n : ℤ, ((n : ℝ) + 1 / 2) * (1 / (16 : ℕ)) = 17 / 32 ↔ n = 8 := by
      intro n
      constructor
      · intro h
        have : (n : ℝ) = 8 := by push_cast at h; linarith
        exact_mod_cast this
      · rintro rfl
        norm_num
    simp only [hn]
    refine if_congr ?_ rfl rfl
    rw [Prod.ext_iff]
    exact and_comm
  refine ⟨fun x y => if x = 17 / 32 ∧ y = 17 / 32 then 1 else 0, ?_, ?_⟩
  · rw [e]
    intro G hG
    dsimp only
    rw [if_neg]
    rintro rfl
    exact hG (by unfold Away2; decide)
  · rw [e]
    unfold total2
    rw [Finset.sum_eq_single (8, 8)]
    · simp
    · intro G _ hG
      exact if_neg hG
    · intro h
      exact absurd (by decide) h

end Sopht
