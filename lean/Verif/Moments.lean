import Verif.Conserve2D
import Verif.FixedBody
import Verif.Origin

/-!
# Moments: centre of mass, spread and impulse in 2D (C105, C106)

flow_simulators_mpi_2d.py:258-300 with the kernels of `Verif/Conserve2D.lean`.
-/

namespace Sopht

open Finset

/-! ## Specification -/

/-- Advection in flux form which, in a uniform stream, carries through a face the velocity times a weighted average of the four cells around it (weights that add up to 1 and
may depend on the direction of the stream). -/
def StreamFlux2 (k : ℝ → (Option (Fin 2) → C2 → ℝ) → ℝ) : Prop :=
  ∃ X Y : (Option (Fin 2) → C2 → ℝ) → ℝ,
    (∀ a f, k a f = a * (X f - X (fun i d => f i (d.1, d.2 - 1)) + (Y f - Y fun i d => f i (d.1 - 1, d.2)))) ∧
    (∀ f, (∀ n : ℤ, -1 ≤ n → n ≤ 2 → f none (0, n) = 0) → X f = 0) ∧ (∀ f, (∀ n : ℤ, -1 ≤ n → n ≤ 2 → f none (n, 0) = 0) → Y f = 0) ∧
    (∀ v, ∃ w : Fin 4 → ℝ, w 0 + w 1 + w 2 + w 3 = 1 ∧
      ∀ f, (∀ d, f (some 0) d = v) → X f = v * (w 0 * f none (0, -1) + w 1 * f none (0, 0) + w 2 * f none (0, 1) + w 3 * f none (0, 2))) ∧
    ∀ v, ∃ w : Fin 4 → ℝ, w 0 + w 1 + w 2 + w 3 = 1 ∧
      ∀ f, (∀ d, f (some 1) d = v) → Y f = v * (w 0 * f none (-1, 0) + w 1 * f none (0, 0) + w 2 * f none (1, 0) + w 3 * f none (2, 0))

theorem StreamFlux2.flux {k : ℝ → (Option (Fin 2) → C2 → ℝ) → ℝ} (h : StreamFlux2 k) : FluxForm2 k := by
  obtain ⟨X, Y, h1, h2, h3, -⟩ := h
  exact ⟨X, Y, h1, h2, h3⟩

/-- Coordinate `j` (0 along x) of the centre of a cell. -/
noncomputable def centre2 (dx : ℝ) (j : Fin 2) (G : C2) : ℝ := ((![G.2, G.1] j : ℤ) + 1 / 2) * dx

/-! ## Weighted sums -/

variable {gy gx : ℕ}

theorem total2_weight {k : ℕ} {f : C2 → ℝ} (h : Within2 gy gx k f) (q : C2 → ℝ) (d : C2) (h1 : |d.1| ≤ k) (h2 : |d.2| ≤ k) :
    total2 gy gx (fun G => q G * f (G.1 + d.1, G.2 + d.2)) = total2 gy gx fun G => q (G.1 - d.1, G.2 - d.2) * f G := by
  have hw : Within2 gy gx k fun G => q (G.1 - d.1, G.2 - d.2) * f G := fun G hG => by
    dsimp only
    rw [h G hG, mul_zero]
  rw [← total2_shift hw d h1 h2]
  apply total2_congr
  intro G _
  dsimp only
  rw [show ((G.1 + d.1 - d.1, G.2 + d.2 - d.2) : C2) = G from Prod.ext (by simp) (by simp)]

section Parts
variable {P : Params2} {K : Kern2}

theorem diff2_eq (hK : FivePoint K.diff) {om : C2 → ℝ} (h2 : Within2 P.gy P.gx 2 om) (dt : ℝ) (G : C2) (hG : Dom2 P.gy P.gx G) :
    refDiff2 P K dt om G = om G + P.nu * dt / P.dx / P.dx *
      (om (G.1 + 1, G.2 + 0) + om (G.1 + -1, G.2 + 0) + om (G.1 + 0, G.2 + 1) + om (G.1 + 0, G.2 + -1) - 4 * om (G.1 + 0, G.2 + 0)) := by
  unfold refDiff2
  split
  · rw [hK]
  · rename_i hn
    have he : OnEdge2 P.gy P.gx G := by
      by_contra hne
      exact hn ⟨hG, hne⟩
    have z : ∀ d : C2, |d.1| ≤ 1 → |d.2| ≤ 1 → om (G.1 + d.1, G.2 + d.2) = 0 := by
      intro d h1 h2'
      rw [abs_le] at h1 h2'
      apply h2
      unfold OnEdge2 at he
      unfold Away2
      simp only
      omega
    rw [z (1, 0) (by simp) (by simp), z (-1, 0) (by simp) (by simp), z (0, 1) (by simp) (by simp), z (0, -1) (by simp) (by simp), z (0, 0) (by simp) (by simp)]
    ring

/-- diffusion against any weight -/
theorem diff2_weight (hK : FivePoint K.diff) {om : C2 → ℝ} (h2 : Within2 P.gy P.gx 2 om) (dt : ℝ) (q : C2 → ℝ) :
    total2 P.gy P.gx (fun G => q G * refDiff2 P K dt om G) = total2 P.gy P.gx (fun G => q G * om G) + P.nu * dt / P.dx / P.dx *
      total2 P.gy P.gx fun G => (q (G.1 + 1, G.2) + q (G.1 - 1, G.2) + q (G.1, G.2 + 1) + q (G.1, G.2 - 1) - 4 * q G) * om G := by
  have s : ∀ d : C2, |d.1| ≤ 1 → |d.2| ≤ 1 → total2 P.gy P.gx (fun G => q G * om (G.1 + d.1, G.2 + d.2)) = total2 P.gy P.gx fun G => q (G.1 - d.1, G.2 - d.2) * om G := fun d a b =>
    total2_weight (h2.mono one_le_two) q d (by exact_mod_cast a) (by exact_mod_cast b)
  have s1 := s (1, 0) (by simp) (by simp)
  have s2 := s (-1, 0) (by simp) (by simp)
  have s3 := s (0, 1) (by simp) (by simp)
  have s4 := s (0, -1) (by simp) (by simp)
  rw [total2_congr (f' := fun G => q G * om G + P.nu * dt / P.dx / P.dx * (q G * om (G.1 + 1, G.2 + 0) + q G * om (G.1 + -1, G.2 + 0) + q G * om (G.1 + 0, G.2 + 1) +
      q G * om (G.1 + 0, G.2 + -1) - 4 * (q G * om G))) fun G hG => by
    rw [diff2_eq hK h2 dt G hG, show ((G.1 + 0, G.2 + 0) : C2) = G from Prod.ext (by simp) (by simp)]; ring]
  rw [total2_add, total2_mul, total2_sub, total2_mul, total2_add, total2_add, total2_add]
  simp only at s1 s2 s3 s4
  rw [s1, s2, s3, s4, ← total2_mul 4, ← total2_add, ← total2_add, ← total2_add, ← total2_sub]
  congr 2
  apply total2_congr
  intro G _
  simp only [sub_zero, sub_neg_eq_add]
  ring

/-- the flux through the face between a cell and the next one along x (y), in a uniform stream -/
theorem adv2_weight (hK : StreamFlux2 K.adv) {om : C2 → ℝ} (h : Within2 P.gy P.gx 3 om) (dt : ℝ) (U : Fin 2 → ℝ) :
    ∃ wx wy : Fin 4 → ℝ, wx 0 + wx 1 + wx 2 + wx 3 = 1 ∧ wy 0 + wy 1 + wy 2 + wy 3 = 1 ∧ ∀ q : C2 → ℝ,
    total2 P.gy P.gx (fun G => q G * refAdv2 P K dt (fun j _ => U j) om G) = total2 P.gy P.gx (fun G => q G * om G) + dt / P.dx *
      (U 0 * total2 P.gy P.gx (fun G => (q (G.1, G.2 + 1) - q G) *
        (wx 0 * om (G.1 + 0, G.2 + -1) + wx 1 * om (G.1 + 0, G.2 + 0) + wx 2 * om (G.1 + 0, G.2 + 1) + wx 3 * om (G.1 + 0, G.2 + 2))) +
      U 1 * total2 P.gy P.gx (fun G => (q (G.1 + 1, G.2) - q G) *
        (wy 0 * om (G.1 + -1, G.2 + 0) + wy 1 * om (G.1 + 0, G.2 + 0) + wy 2 * om (G.1 + 1, G.2 + 0) + wy 3 * om (G.1 + 2, G.2 + 0)))) := by
  obtain ⟨X, Y, hk, hX, hY, hwx, hwy⟩ := hK
  obtain ⟨wx, wx1, hwx⟩ := hwx (U 0)
  obtain ⟨wy, wy1, hwy⟩ := hwy (U 1)
  refine ⟨wx, wy, wx1, wy1, fun q => ?_⟩
  set f : C2 → Option (Fin 2) → C2 → ℝ := fun G i d => match i with
    | none => om (G.1 + d.1, G.2 + d.2)
    | some j => U j with hf
  have eX : ∀ G : C2, X (fun i d => f G i (d.1, d.2 - 1)) = X (f (G.1 + 0, G.2 + -1)) := by
    intro G
    congr 1
    funext i d
    rcases i with _ | j <;> simp only [hf]
    congr 2 <;> ring
  have eY : ∀ G : C2, Y (fun i d => f G i (d.1 - 1, d.2)) = Y (f (G.1 + -1, G.2 + 0)) := by
    intro G
    congr 1
    funext i d
    rcases i with _ | j <;> simp only [hf]
    congr 2 <;> ring
  have wX : Within2 P.gy P.gx 1 fun G => X (f G) := by
    intro G hG
    apply hX
    intro n h1 h2
    apply h
    unfold Away2 at *
    simp only
    omega
  have wY : Within2 P.gy P.gx 1 fun G => Y (f G) := by
    intro G hG
    apply hY
    intro n h1 h2
    apply h
    unfold Away2 at *
    simp only
    omega
  have e : ∀ G, Dom2 P.gy P.gx G → q G * refAdv2 P K dt (fun j _ => U j) om G =
      q G * om G + -(dt / P.dx) * (q G * X (f G) - q G * X (f (G.1 + 0, G.2 + -1)) + (q G * Y (f G) - q G * Y (f (G.1 + -1, G.2 + 0)))) := by
    intro G hG
    have e1 := hk (-(dt / P.dx)) (f G)
    rw [eX, eY] at e1
    have e2 : refAdv2 P K dt (fun j _ => U j) om G = om G + K.adv (-(dt / P.dx)) (f G) := by
      unfold refAdv2
      rw [if_pos hG]
      congr 2
    rw [e2, e1]
    ring
  have vX : ∀ G, X (f G) = U 0 * (wx 0 * om (G.1 + 0, G.2 + -1) + wx 1 * om (G.1 + 0, G.2 + 0) + wx 2 * om (G.1 + 0, G.2 + 1) + wx 3 * om (G.1 + 0, G.2 + 2)) :=
    fun G => hwx (f G) fun _ => rfl
  have vY : ∀ G, Y (f G) = U 1 * (wy 0 * om (G.1 + -1, G.2 + 0) + wy 1 * om (G.1 + 0, G.2 + 0) + wy 2 * om (G.1 + 1, G.2 + 0) + wy 3 * om (G.1 + 2, G.2 + 0)) :=
    fun G => hwy (f G) fun _ => rfl
  have s1 := total2_weight wX q (0, -1) (by simp) (by simp)
  have s2 := total2_weight wY q (-1, 0) (by simp) (by simp)
  simp only at s1 s2
  rw [total2_congr e, total2_add, total2_mul, total2_add, total2_sub, total2_sub, s1, s2, ← total2_mul (U 0), ← total2_mul (U 1)]
  rw [← total2_sub, ← total2_sub, ← total2_add, ← total2_add, ← total2_mul, ← total2_mul]
  congr 1
  apply total2_congr
  intro G _
  simp only [sub_zero, sub_neg_eq_add]
  rw [← sub_eq_zero]
  have x1 := vX G
  have y1 := vY G
  generalize hXG : X (f G) = XG at x1 ⊢
  generalize hYG : Y (f G) = YG at y1 ⊢
  rw [x1, y1]
  ring

/-- the centre of mass moves with the stream -/
theorem scalar2_first (hd : FivePoint K.diff) (ha : StreamFlux2 K.adv) {om : C2 → ℝ} (h : Within2 P.gy P.gx 4 om) (hdx : P.dx ≠ 0) (dt : ℝ) (U : Fin 2 → ℝ) (j : Fin 2) :
    total2 P.gy P.gx (fun G => centre2 P.dx j G * refDiff2 P K dt (refAdv2 P K dt (fun j _ => U j) om) G) =
      total2 P.gy P.gx (fun G => centre2 P.dx j G * om G) + dt * U j * total2 P.gy P.gx om := by
  obtain ⟨a1, -⟩ := adv2_within (P := P) (k := 1) ha.flux h dt fun j _ => U j
  have z : total2 P.gy P.gx (fun G => (centre2 P.dx j (G.1 + 1, G.2) + centre2 P.dx j (G.1 - 1, G.2) + centre2 P.dx j (G.1, G.2 + 1) + centre2 P.dx j (G.1, G.2 - 1) -
      4 * centre2 P.dx j G) * refAdv2 P K dt (fun j _ => U j) om G) = 0 := by
    apply Finset.sum_eq_zero
    intro G _
    have : centre2 P.dx j (G.1 + 1, G.2) + centre2 P.dx j (G.1 - 1, G.2) + centre2 P.dx j (G.1, G.2 + 1) + centre2 P.dx j (G.1, G.2 - 1) - 4 * centre2 P.dx j G = 0 := by
      fin_cases j <;> simp [centre2] <;> ring
    rw [this, zero_mul]
  rw [diff2_weight hd a1, z, mul_zero, add_zero]
  obtain ⟨wx, wy, wx1, wy1, hw⟩ := adv2_weight ha (h.mono (by norm_num)) dt U
  have s : ∀ d : C2, |d.1| ≤ 2 → |d.2| ≤ 2 → total2 P.gy P.gx (fun G => om (G.1 + d.1, G.2 + d.2)) = total2 P.gy P.gx om := fun d b c =>
    total2_shift (h.mono (by norm_num : 2 ≤ 4)) d (by exact_mod_cast b) (by exact_mod_cast c)
  have tx : total2 P.gy P.gx (fun G => wx 0 * om (G.1 + 0, G.2 + -1) + wx 1 * om (G.1 + 0, G.2 + 0) + wx 2 * om (G.1 + 0, G.2 + 1) + wx 3 * om (G.1 + 0, G.2 + 2)) = total2 P.gy P.gx om := by
    rw [total2_add, total2_add, total2_add, total2_mul, total2_mul, total2_mul, total2_mul]
    have s1 := s (0, -1) (by simp) (by simp)
    have s2 := s (0, 0) (by simp) (by simp)
    have s3 := s (0, 1) (by simp) (by simp)
    have s4 := s (0, 2) (by simp) (by simp)
    simp only at s1 s2 s3 s4
    rw [s1, s2, s3, s4, ← add_mul, ← add_mul, ← add_mul, wx1, one_mul]
  have ty : total2 P.gy P.gx (fun G => wy 0 * om (G.1 + -1, G.2 + 0) + wy 1 * om (G.1 + 0, G.2 + 0) + wy 2 * om (G.1 + 1, G.2 + 0) + wy 3 * om (G.1 + 2, G.2 + 0)) = total2 P.gy P.gx om := by
    rw [total2_add, total2_add, total2_add, total2_mul, total2_mul, total2_mul, total2_mul]
    have s1 := s (-1, 0) (by simp) (by simp)
    have s2 := s (0, 0) (by simp) (by simp)
    have s3 := s (1, 0) (by simp) (by simp)
    have s4 := s (2, 0) (by simp) (by simp)
    simp only at s1 s2 s3 s4
    rw [s1, s2, s3, s4, ← add_mul, ← add_mul, ← add_mul, wy1, one_mul]
  rw [hw]
  congr 1
  match j with
  | 0 =>
    have q1 : ∀ G : C2, centre2 P.dx 0 (G.1, G.2 + 1) - centre2 P.dx 0 G = P.dx := fun G => by simp [centre2]; ring
    have q2 : ∀ G : C2, centre2 P.dx 0 (G.1 + 1, G.2) - centre2 P.dx 0 G = 0 := fun G => by simp [centre2]
    simp only [q1, q2]
    rw [total2_mul, tx, total2_mul]
    field_simp
    ring
  | 1 =>
    have q1 : ∀ G : C2, centre2 P.dx 1 (G.1, G.2 + 1) - centre2 P.dx 1 G = 0 := fun G => by simp [centre2]
    have q2 : ∀ G : C2, centre2 P.dx 1 (G.1 + 1, G.2) - centre2 P.dx 1 G = P.dx := fun G => by simp [centre2]; ring
    simp only [q1, q2]
    rw [total2_mul, total2_mul, ty]
    field_simp
    ring

/-- without stream, diffusion spreads the field at the rate `2 ν` along each axis -/
theorem scalar2_second (hd : FivePoint K.diff) (ha : StreamFlux2 K.adv) {om : C2 → ℝ} (h : Within2 P.gy P.gx 4 om) (hdx : P.dx ≠ 0) (dt : ℝ) (j : Fin 2) :
    total2 P.gy P.gx (fun G => centre2 P.dx j G ^ 2 * refDiff2 P K dt (refAdv2 P K dt (fun _ _ => 0) om) G) =
      total2 P.gy P.gx (fun G => centre2 P.dx j G ^ 2 * om G) + 2 * P.nu * dt * total2 P.gy P.gx om := by
  obtain ⟨a1, a2⟩ := adv2_within (P := P) (k := 1) ha.flux h dt fun _ _ => 0
  obtain ⟨wx, wy, -, -, hw⟩ := adv2_weight ha (h.mono (by norm_num)) dt fun _ => 0
  have z : ∀ G : C2, centre2 P.dx j (G.1 + 1, G.2) ^ 2 + centre2 P.dx j (G.1 - 1, G.2) ^ 2 + centre2 P.dx j (G.1, G.2 + 1) ^ 2 + centre2 P.dx j (G.1, G.2 - 1) ^ 2 -
      4 * centre2 P.dx j G ^ 2 = 2 * P.dx ^ 2 := by
    intro G
    fin_cases j <;> simp [centre2] <;> ring
  rw [diff2_weight hd a1]
  simp only [z]
  rw [total2_mul, a2, hw]
  field_simp
  ring

/-- any number of passive scalar steps in a uniform stream -/
theorem run2_moments (hd : FivePoint K.diff) (ha : StreamFlux2 K.adv) {ft : String} (hf : ft ≠ "navier_stokes") (hf' : ft ≠ "navier_stokes_with_forcing") (hdx : P.dx ≠ 0)
    (cfl tol : ℝ) (U : Fin 2 → ℝ) (j : Fin 2) : ∀ (ys : List StepSpec2) (s : Fields2 × ℝ), (s.1.u = fun j _ => U j) → Within2 P.gy P.gx (1 + 3 * ys.length) s.1.om →
    total2 P.gy P.gx (refRun2 ft P K cfl tol ys s).1.om = total2 P.gy P.gx s.1.om ∧
    total2 P.gy P.gx (fun G => centre2 P.dx j G * (refRun2 ft P K cfl tol ys s).1.om G) =
      total2 P.gy P.gx (fun G => centre2 P.dx j G * s.1.om G) + ((refRun2 ft P K cfl tol ys s).2 - s.2) * U j * total2 P.gy P.gx s.1.om ∧
    (U = 0 → total2 P.gy P.gx (fun G => centre2 P.dx j G ^ 2 * (refRun2 ft P K cfl tol ys s).1.om G) =
      total2 P.gy P.gx (fun G => centre2 P.dx j G ^ 2 * s.1.om G) + 2 * P.nu * ((refRun2 ft P K cfl tol ys s).2 - s.2) * total2 P.gy P.gx s.1.om)
  | [], s, _, _ => by
    unfold refRun2
    refine ⟨rfl, by ring, fun _ => by ring⟩
  | y :: ys, s, hu, h => by
    rw [List.length_cons] at h
    have hstep : (refStep2 ft P K (refDt2 P cfl tol s.1 y.rule) y.fs y.Φ s.1) = refScalar2 P K (refDt2 P cfl tol s.1 y.rule) s.1 := by
      unfold refStep2
      rw [if_neg hf, if_neg hf']
    rw [refRun2, hstep]
    generalize refDt2 P cfl tol s.1 y.rule = dt
    unfold refScalar2
    rw [hu]
    obtain ⟨a1, a2⟩ := adv2_within (P := P) (k := 1 + 3 * ys.length) ha.flux (h.mono (by omega)) dt fun j _ => U j
    obtain ⟨d1, d2⟩ := diff2_within (P := P) (k := 1 + 3 * ys.length) hd (a1.mono (by omega)) (a1.mono (by omega)) dt
    obtain ⟨m0, m1, m2⟩ := run2_moments hd ha hf hf' hdx cfl tol U j ys ({ om := refDiff2 P K dt (refAdv2 P K dt (fun j _ => U j) s.1.om), u := fun j _ => U j }, s.2 + dt) rfl d1
    have f1 := scalar2_first hd ha (h.mono (by omega)) hdx dt U j
    simp only at m0 m1 m2
    refine ⟨by rw [m0, d2, a2], ?_, ?_⟩
    · rw [m1, f1, d2, a2]
      ring
    · intro h0
      have f2 := scalar2_second hd ha (h.mono (by omega)) hdx dt j
      rw [m2 h0, d2, a2]
      rw [show (fun (j : Fin 2) (_ : C2) => U j) = fun _ _ => 0 from by rw [h0]; rfl, f2]
      ring

/-- the forcing stage against any weight -/
theorem force2_weight (hK : CentralRot2 K.upd) {Φ : Fin 2 → C2 → ℝ} (hΦ : ∀ j, Within2 P.gy P.gx 1 (Φ j)) (dt : ℝ) (om q : C2 → ℝ) :
    total2 P.gy P.gx (fun G => q G * refForce2 P K dt Φ om G) = total2 P.gy P.gx (fun G => q G * om G) + dt / (2 * P.dx) *
      (total2 P.gy P.gx (fun G => (q (G.1, G.2 - 1) - q (G.1, G.2 + 1)) * Φ 1 G) - total2 P.gy P.gx fun G => (q (G.1 - 1, G.2) - q (G.1 + 1, G.2)) * Φ 0 G) := by
  have s : ∀ (j : Fin 2) (d : C2), |d.1| ≤ 1 → |d.2| ≤ 1 → total2 P.gy P.gx (fun G => q G * Φ j (G.1 + d.1, G.2 + d.2)) =
      total2 P.gy P.gx fun G => q (G.1 - d.1, G.2 - d.2) * Φ j G := fun j d a b => total2_weight (hΦ j) q d (by exact_mod_cast a) (by exact_mod_cast b)
  have s1 := s 1 (0, 1) (by simp) (by simp)
  have s2 := s 1 (0, -1) (by simp) (by simp)
  have s3 := s 0 (1, 0) (by simp) (by simp)
  have s4 := s 0 (-1, 0) (by simp) (by simp)
  simp only at s1 s2 s3 s4
  rw [total2_congr (f' := fun G => q G * om G + dt / (2 * P.dx) * (q G * Φ 1 (G.1 + 0, G.2 + 1) - q G * Φ 1 (G.1 + 0, G.2 + -1) -
      (q G * Φ 0 (G.1 + 1, G.2 + 0) - q G * Φ 0 (G.1 + -1, G.2 + 0)))) fun G hG => by
    unfold refForce2
    rw [if_pos hG, hK]
    ring]
  rw [total2_add, total2_mul, total2_sub, total2_sub, total2_sub, s1, s2, s3, s4]
  simp only [sub_zero, sub_neg_eq_add]
  rw [← total2_sub, ← total2_sub]
  congr 2
  congr 1 <;> (apply total2_congr; intro G _; ring)

/-- the impulse the forcing gives, per component -/
theorem force2_impulse (hK : CentralRot2 K.upd) {Φ : Fin 2 → C2 → ℝ} (hΦ : ∀ j, Within2 P.gy P.gx 1 (Φ j)) (hdx : P.dx ≠ 0) (dt : ℝ) (om : C2 → ℝ) :
    total2 P.gy P.gx (fun G => centre2 P.dx 1 G * refForce2 P K dt Φ om G) = total2 P.gy P.gx (fun G => centre2 P.dx 1 G * om G) + dt * total2 P.gy P.gx (Φ 0) ∧
    total2 P.gy P.gx (fun G => centre2 P.dx 0 G * refForce2 P K dt Φ om G) = total2 P.gy P.gx (fun G => centre2 P.dx 0 G * om G) - dt * total2 P.gy P.gx (Φ 1) := by
  have a1 : ∀ G : C2, centre2 P.dx 1 (G.1, G.2 - 1) - centre2 P.dx 1 (G.1, G.2 + 1) = 0 := fun G => by simp [centre2]
  have a2 : ∀ G : C2, centre2 P.dx 1 (G.1 - 1, G.2) - centre2 P.dx 1 (G.1 + 1, G.2) = -(2 * P.dx) := fun G => by simp [centre2]; ring
  have b1 : ∀ G : C2, centre2 P.dx 0 (G.1, G.2 - 1) - centre2 P.dx 0 (G.1, G.2 + 1) = -(2 * P.dx) := fun G => by simp [centre2]; ring
  have b2 : ∀ G : C2, centre2 P.dx 0 (G.1 - 1, G.2) - centre2 P.dx 0 (G.1 + 1, G.2) = 0 := fun G => by simp [centre2]
  constructor
  · rw [force2_weight hK hΦ]
    simp only [a1, a2]
    rw [total2_mul, total2_mul]
    field_simp
    ring
  · rw [force2_weight hK hΦ]
    simp only [b1, b2]
    rw [total2_mul, total2_mul]
    field_simp
    ring

end Parts

/-! ## On any number of ranks -/

section Ranks
variable {T : Cart2} [NeZero T.gy] [NeZero T.gx]

/-- Sum over the inner cells of all ranks of a field times a function of the cell's position (as `position_field` holds it). -/
noncomputable def moment2 (T : Cart2) (xr : ℝ) (q : ℝ → ℝ → ℝ) (v : World C2 C2 ℝ) : ℝ :=
  innerTotal2 T 2 fun c p => q (position2 T 2 xr c 0 p) (position2 T 2 xr c 1 p) * v c p

omit [NeZero T.gy] [NeZero T.gx] in
theorem moment2_blocks {gy gx py px : ℕ} {per : Bool} (hT : mkCart2 gy gx py px per = .ok T) {F : C2 → ℝ} {v : World C2 C2 ℝ} (h : Blocks2 T 2 F v) (xr : ℝ) (q : ℝ → ℝ → ℝ) :
    moment2 T xr q v = total2 gy gx fun G => q (centre2 (xr / gx) 0 G) (centre2 (xr / gx) 1 G) * F G := by
  obtain ⟨e1, e2, -⟩ := construct2_ok hT
  refine innerTotal2_blocks hT (g := 2) (v := fun c p => q (position2 T 2 xr c 0 p) (position2 T 2 xr c 1 p) * v c p) ?_
  intro c p hc hp
  obtain ⟨h1, h2⟩ := position2_cells T 2 xr c (inArr_of_inner2 hp)
  dsimp only
  rw [h1, h2, h c p hc hp, e2]
  rfl

/-- **C105 (2D)** A passive scalar in a uniform stream, on any number of ranks: the total stays, the first moments grow by (elapsed time) × (stream velocity) × total, so the centre of
mass moves with the stream whatever the sizes of the steps and the viscosity; and without stream the second moments grow by 2 ν × (elapsed time) × total. -/
theorem scalar2_moments {a : SimArgs2} (h : Fit2 a T) (hf : a.flowType = "passive_scalar") {xr : ℝ} (hxr : 0 < xr) (nu : ℝ) {cfl : ℝ} (hcfl : 0 ≤ cfl) {tol : ℝ} (htol : 0 < tol)
    {K : Kern2} (hK : K.Local) (hK0 : ∀ r, K.upd r (fun _ _ => 0) = 0) (hd : FivePoint K.diff) (ha : StreamFlux2 K.adv) (time : ℝ) (dbl0 : World C2 C2 ℝ) (conv0 : Dbl2 T → ℂ)
    (φ : ℝ → ℝ → ℝ) (U : Fin 2 → ℝ) {xs : List StepIn2} {ys : List StepSpec2}
    (hxy : List.Forall₂ (Means2 a.gy a.gx T (simCfg2 a T xr nu cfl)) xs ys)
    (hφ : Within2 a.gy a.gx (1 + 3 * ys.length) (fieldsFrom2 (xr / a.gx) φ fun j _ _ => U j).om) :
    let start := initFrom2 T a.g xr time dbl0 conv0 φ fun j _ _ => U j
    let out := simLoop2 (simCfg2 a T xr nu cfl) K tol xs start
    let m := fun q S => moment2 T xr q (Sim2.prim S)
    let Δt := out.1.time - start.time
    out.2 = none ∧ m (fun _ _ => 1) out.1 = m (fun _ _ => 1) start ∧
      m (fun x _ => x) out.1 = m (fun x _ => x) start + Δt * U 0 * m (fun _ _ => 1) start ∧
      m (fun _ y => y) out.1 = m (fun _ y => y) start + Δt * U 1 * m (fun _ _ => 1) start ∧
      (U = 0 → m (fun x _ => x ^ 2) out.1 = m (fun x _ => x ^ 2) start + 2 * nu * Δt * m (fun _ _ => 1) start ∧
        m (fun _ y => y ^ 2) out.1 = m (fun _ y => y ^ 2) start + 2 * nu * Δt * m (fun _ _ => 1) start) := by
  obtain ⟨hT, hft⟩ := simCheck2_cart' h.built
  obtain ⟨e1, e2, -, -, -, hY, hX⟩ := construct2_ok hT
  have hgx0 : 0 < a.gx := by rw [← e2]; exact Nat.pos_of_ne_zero (NeZero.ne _)
  have hdx : xr / a.gx ≠ 0 := (div_pos hxr (by exact_mod_cast hgx0)).ne'
  obtain ⟨r1, r2, r3⟩ := sim2_run h hxr nu hcfl htol hK hK0 time dbl0 conv0 φ (fun j _ _ => U j) hxy
  have hinit := initFrom2_holds hT (simCfg2 a T xr nu cfl) time dbl0 conv0 φ fun j _ _ => U j
  have hf1 : a.flowType ≠ "navier_stokes" := by rw [hf]; decide
  have hf2 : a.flowType ≠ "navier_stokes_with_forcing" := by rw [hf]; decide
  intro start out m Δt
  have ms : ∀ q, m q start = total2 a.gy a.gx fun G => q (centre2 (xr / a.gx) 0 G) (centre2 (xr / a.gx) 1 G) * (fieldsFrom2 (xr / a.gx) φ fun j _ _ => U j).om G := by
    intro q
    refine moment2_blocks hT ?_ xr q
    intro c p hc hp
    have := hinit.om c p hc (inArr_of_inner2 hp) (Or.inl hp)
    simp only [start, h.g]
    exact this
  have mo := fun q => moment2_blocks hT (fun c p hc hp => (r3 c p hc hp).1) xr q
  have M := fun j => run2_moments (P := ⟨a.gy, a.gx, xr, nu, widthOf a.width, a.freeStream⟩) hd ha hf1 hf2 hdx cfl tol U j ys
    (fieldsFrom2 (xr / a.gx) φ fun j _ _ => U j, time) rfl hφ
  have hΔ : Δt = (refRun2 a.flowType ⟨a.gy, a.gx, xr, nu, widthOf a.width, a.freeStream⟩ K cfl tol ys (fieldsFrom2 (xr / a.gx) φ fun j _ _ => U j, time)).2 - time := by
    simp only [Δt, out, start]
    rw [r2]
    rfl
  have one : ∀ F : C2 → ℝ, total2 a.gy a.gx (fun G => 1 * F G) = total2 a.gy a.gx F := fun F => total2_congr fun G _ => one_mul _
  have m1s : m (fun _ _ => 1) start = total2 a.gy a.gx (fieldsFrom2 (xr / a.gx) φ fun j _ _ => U j).om := (ms _).trans (one _)
  refine ⟨r1, ?_, ?_, ?_, fun h0 => ⟨?_, ?_⟩⟩
  · rw [m1s, ← (M 0).1]
    exact (mo _).trans (one _)
  · rw [m1s, ms, hΔ]
    exact (mo _).trans (M 0).2.1
  · rw [m1s, ms, hΔ]
    exact (mo _).trans (M 1).2.1
  · rw [m1s, ms, hΔ]
    exact (mo _).trans ((M 0).2.2 h0)
  · rw [m1s, ms, hΔ]
    exact (mo _).trans ((M 1).2.2 h0)

omit [NeZero T.gy] in
/-- the forcing stage of a time step on the ranks -/
theorem callUpd2_impulse {a : SimArgs2} (h : Fit2 a T) (hf : a.flowType = "navier_stokes_with_forcing") {xr : ℝ} (hxr : 0 < xr) (nu cfl : ℝ) {K : Kern2} (hK : K.Local) (hu : CentralRot2 K.upd)
    {sch : Sched2} (hs : Complete (multiMsgs2 T 2 false ([0, 1] : List (Fin 2))) sch.2) (dt : ℝ)
    {S : Sim2 T} {om : C2 → ℝ} (ho : HoldsX2 T 2 om S.prim) {Φ : Fin 2 → C2 → ℝ} (hΦ : HoldsForce2 T 2 Φ S.forcing) (hc : Confined2 a.gy a.gx Φ) :
    let after := callUpd2 (simCfg2 a T xr nu cfl) K sch dt S
    moment2 T xr (fun _ y => y) after.prim = moment2 T xr (fun _ y => y) S.prim + dt * innerTotal2 T 2 (S.forcing 0) ∧
    moment2 T xr (fun x _ => -x) after.prim = moment2 T xr (fun x _ => -x) S.prim + dt * innerTotal2 T 2 (S.forcing 1) := by
  obtain ⟨hT, -⟩ := simCheck2_cart' h.built
  obtain ⟨e1, e2, -⟩ := construct2_ok hT
  have hgx0 : 0 < a.gx := by rw [← e2]; exact Nat.pos_of_ne_zero (NeZero.ne _)
  have hdx : xr / a.gx ≠ 0 := (div_pos hxr (by exact_mod_cast hgx0)).ne'
  have hK0 : ∀ r, K.upd r (fun _ _ => 0) = 0 := fun r => by rw [hu]; ring
  have hgood := h.good hxr nu cfl
  obtain ⟨gn, hd⟩ := h.dbl xr nu cfl (by change a.flowType ≠ _; rw [hf]; simp)
  have hslab : T.py = 1 ∨ T.px = 1 := by
    rcases doublingInit2_ok hd with ⟨-, h⟩ | ⟨-, h⟩
    · exact Or.inr h
    · exact Or.inl h
  have hold := callUpd2_holds (C := simCfg2 a T xr nu cfl) hT hgood.g hgood.ny hgood.nx hslab hK hK0 hs dt ho hΦ hc
  have b1 : Blocks2 T 2 om S.prim := fun c p hc hp => ho c p hc (inArr_of_inner2 hp) (Or.inl hp)
  have b2 : Blocks2 T 2 (refForce2 ((simCfg2 a T xr nu cfl).params a.gy a.gx) K dt Φ om) (callUpd2 (simCfg2 a T xr nu cfl) K sch dt S).prim := fun c p hc hp => hold c p hc (inArr_of_inner2 hp) (Or.inl hp)
  have f : ∀ j, innerTotal2 T 2 (S.forcing j) = total2 a.gy a.gx (Φ j) := fun j => innerTotal2_blocks hT fun c p hc hp => hΦ j c p hc (inArr_of_inner2 hp) (Or.inl hp)
  obtain ⟨i1, i2⟩ := force2_impulse (P := (simCfg2 a T xr nu cfl).params a.gy a.gx) hu (Φ := Φ) hc hdx dt om
  intro after
  rw [f, f, moment2_blocks hT b1, moment2_blocks hT b1, moment2_blocks hT b2, moment2_blocks hT b2]
  refine ⟨i1, ?_⟩
  have neg : ∀ F : C2 → ℝ, total2 a.gy a.gx (fun G => -centre2 (xr / a.gx) 0 G * F G) = -total2 a.gy a.gx (fun G => centre2 (xr / a.gx) 0 G * F G) := by
    intro F
    rw [← neg_one_mul, ← total2_mul]
    exact total2_congr fun G _ => by ring
  rw [neg, neg]
  have := i2
  linarith [show total2 a.gy a.gx (fun G => centre2 (xr / a.gx) 0 G * refForce2 ((simCfg2 a T xr nu cfl).params a.gy a.gx) K dt Φ om G) = total2 a.gy a.gx (fun G => centre2 (xr / a.gx) 0 G * om G) - dt * total2 a.gy a.gx (Φ 1) from i2]

variable {B : Type} [DecidableEq B]

/-- **C106 (2D)** In any correct coupled program, with whatever bodies and at whatever point a flow step of size `dt` is called: its forcing stage changes the impulse
`(∑ y ω, -∑ x ω)` of the flow by `dt` times the sum of the forcing field over the inner cells of all ranks. -/
theorem coupled2_impulse {a : SimArgs2} {xr : ℝ} (hxr : 0 < xr) {nu cfl : ℝ} (hcfl : 0 ≤ cfl) {tol : ℝ} (htol : 0 < tol) {K : Kern2} (hK : K.Local) (hu : CentralRot2 K.upd)
    {A : B → Ib2} {X0 : B → LagField ℝ} {t0 : B → ℝ} {time : ℝ} {om : ℝ → ℝ → ℝ} {u : Fin 2 → ℝ → ℝ → ℝ}
    {S : CSt2 T B} (h : Setup2 a xr nu cfl A X0 t0 time om u S) {o : ℕ → CScheds2} (ho : ∀ n, (o n).Done T (simCfg2 a T xr nu cfl).d) (p : Prog2 B)
    (hp : Proper2 ⟨a.gy, a.gx, xr, nu, widthOf a.width, a.freeStream⟩ K cfl tol A p (refStart2 (xr / a.gx) X0 t0 time om u))
    (ht : Tracked2 T ⟨a.gy, a.gx, xr, nu, widthOf a.width, a.freeStream⟩ K cfl tol A p (refStart2 (xr / a.gx) X0 t0 time om u))
    {sch : Scheds2} (hs : sch.Done T (simCfg2 a T xr nu cfl).d) (dt : ℝ) :
    let now := (cRun2 (simCfg2 a T xr nu cfl) K tol A o p 0 S).1.sim
    let after := callUpd2 (simCfg2 a T xr nu cfl) K sch.upd dt now
    moment2 T xr (fun _ y => y) after.prim = moment2 T xr (fun _ y => y) now.prim + dt * innerTotal2 T 2 (now.forcing 0) ∧
    moment2 T xr (fun x _ => -x) after.prim = moment2 T xr (fun x _ => -x) now.prim + dt * innerTotal2 T 2 (now.forcing 1) := by
  obtain ⟨hT, -⟩ := simCheck2_cart' h.fit.built
  have hK0 : ∀ r, K.upd r (fun _ _ => 0) = 0 := fun r => by rw [hu]; ring
  obtain ⟨-, c, -⟩ := coupled2_holds hxr hcfl htol hK hK0 h ho p hp ht
  exact callUpd2_impulse h.fit h.flowType hxr nu cfl hK hu hs.upd dt c.sim.om (forceClean2_holds hT c.force c.conf) c.conf

/-- **C106 (2D), fixed body** In iteration `n` of the run around a fixed body, the force on the nodes that the drag coefficient reads is the rate at which the forcing stage of the
iteration changes the impulse of the flow: `dx² (∑ y ω after - before) = dt × ∑ force along x`, and the same along y. -/
theorem fixedLoop2_impulse {a : SimArgs2} {xr nu cfl tol : ℝ} {K : Kern2} {A : B → Ib2} {X0 : B → LagField ℝ} {t0 : B → ℝ} {time : ℝ} {om : ℝ → ℝ → ℝ} {u : Fin 2 → ℝ → ℝ → ℝ}
    {S : CSt2 T B} {o : ℕ → CScheds2} {b : B} {pre : ℝ} {fs : Fin 2 → ℝ} (h : Fixed2 a xr nu cfl tol K A X0 t0 time om u S o b) (hu : CentralRot2 K.upd) (n : ℕ) :
    let C := simCfg2 a T xr nu cfl
    let st := fixedState2 C K tol A o b (X0 b) pre fs S
    ∃ dt sim₁ sim, stableDt2 C tol pre (st n).sim = (sim₁, .ok dt) ∧
      fullInteract2 C (A b) (o (4 * n + 2)).ghost (X0 b) (fun _ _ => 0) sim₁ { (st n).ib b with v := vbfStep dt ((st n).ib b).v } = .ok (sim, (st (n + 1)).ib b) ∧
      timeStep2 C K (o (4 * n + 3)).step dt fs sim = ((st (n + 1)).sim, none) ∧
      let after := callUpd2 C K (o (4 * n + 3)).step.upd dt sim
      (xr / a.gx) ^ 2 * (moment2 T xr (fun _ y => y) after.prim - moment2 T xr (fun _ y => y) sim.prim) = dt * nodeTotal (A b).N (((st (n + 1)).ib b).v.gforce 0) ∧
      (xr / a.gx) ^ 2 * (moment2 T xr (fun x _ => -x) after.prim - moment2 T xr (fun x _ => -x) sim.prim) = dt * nodeTotal (A b).N (((st (n + 1)).ib b).v.gforce 1) := by
  intro C st
  obtain ⟨dt, sim₁, ib₁, sim, ib, d1, d2, d3, d4, d5, d6, d7, -⟩ := fixedLoop2_drag (pre := pre) (fs := fs) h 1 n
  have hib : ((st (n + 1)).ib b) = ib := d7
  refine ⟨dt, sim₁, sim, d1, ?_, d6, ?_⟩
  · rw [hib, ← d2]; exact d4
  have hk : ∀ r, Proper2 ⟨a.gy, a.gx, xr, nu, widthOf a.width, a.freeStream⟩ K cfl tol A (.stableDt pre fun dt => .advance b dt (.interact b (X0 b) (fun _ _ => 0) .stop)) r :=
    fun _ => ⟨h.inside, .inl h.auto, trivial⟩
  have hs : Still2 X0 (.stableDt pre fun dt => .advance b dt (.interact b (X0 b) (fun _ _ => 0) .stop)) := fun _ => ⟨rfl, trivial⟩
  have I := coupled2_impulse h.xr h.cfl.le h.tol h.kern hu h.setup h.sched (fixedProg2 b (X0 b) pre fs n (.stableDt pre fun dt => .advance b dt (.interact b (X0 b) (fun _ _ => 0) .stop)))
    (proper_fixed2 (P := ⟨a.gy, a.gx, xr, nu, widthOf a.width, a.freeStream⟩) h.auto h.inside hk n _)
    (tracked2_still _ _ _ _ _ X0 _ (still_fixed2 rfl hs n) _ rfl) (h.sched (4 * n + 3)).1 dt
  have hrun : cRun2 C K tol A o (fixedProg2 b (X0 b) pre fs n (.stableDt pre fun dt => .advance b dt (.interact b (X0 b) (fun _ _ => 0) .stop))) 0 S =
    cRun2 C K tol A o (.stableDt pre fun dt => .advance b dt (.interact b (X0 b) (fun _ _ => 0) .stop)) (0 + 4 * n) (st n) := cRun2_fixed _ n 0 (h.state n)
  have hsim : (cRun2 C K tol A o (.stableDt pre fun dt => .advance b dt (.interact b (X0 b) (fun _ _ => 0) .stop)) (0 + 4 * n) (st n)).1.sim = sim := by
    simp only [cRun2]
    rw [d1]
    dsimp only
    simp only [Function.update_self]
    rw [← d2, show 0 + 4 * n + 1 + 1 = 4 * n + 2 by omega, d4]
  dsimp only at I
  rw [hrun, hsim] at I
  dsimp only
  have q0 : (xr / a.gx) ^ 2 * innerTotal2 T 2 (sim.forcing 0) = nodeTotal (A b).N (ib.v.gforce 0) := d5 0
  have q1 : (xr / a.gx) ^ 2 * innerTotal2 T 2 (sim.forcing 1) = nodeTotal (A b).N (ib.v.gforce 1) := d5 1
  rw [I.1, I.2, hib, ← q0, ← q1]
  constructor <;> ring

end Ranks

/-! ## Examples -/

/-- the third order upwind kernel of `sopht` meets the assumption on advection -/
theorem exKern2_stream : StreamFlux2 exKern2.adv := by
  refine ⟨fun f => upwind3 ((f (some 0) (0, 0) + f (some 0) (0, 1)) / 2) (f none (0, -1)) (f none (0, 0)) (f none (0, 1)) (f none (0, 2)),
    fun f => upwind3 ((f (some 1) (0, 0) + f (some 1) (1, 0)) / 2) (f none (-1, 0)) (f none (0, 0)) (f none (1, 0)) (f none (2, 0)), ?_, ?_, ?_, ?_, ?_⟩
  · intro a f
    simp only [exKern2]
    norm_num
  · intro f h
    simp only
    rw [h (-1) (by norm_num) (by norm_num), h 0 (by norm_num) (by norm_num), h 1 (by norm_num) (by norm_num), h 2 (by norm_num) (by norm_num)]
    unfold upwind3
    split <;> ring
  · intro f h
    simp only
    rw [h (-1) (by norm_num) (by norm_num), h 0 (by norm_num) (by norm_num), h 1 (by norm_num) (by norm_num), h 2 (by norm_num) (by norm_num)]
    unfold upwind3
    split <;> ring
  all_goals
    intro v
    refine ⟨if 0 ≤ v then ![-1 / 6, 5 / 6, 1 / 3, 0] else ![0, 1 / 3, 5 / 6, -1 / 6], ?_, ?_⟩
    · split <;> norm_num [Matrix.cons_val_two, Matrix.cons_val_three]
    · intro f h
      simp only [h]
      rw [show (v + v) / 2 = v by ring]
      unfold upwind3
      split <;> simp only [Matrix.cons_val_zero, Matrix.cons_val_one, Matrix.cons_val] <;> ring

/-- one step of a scalar of total 1 in a single cell of a 16 × 16 grid: the room the theorem asks for is there -/
example : Within2 16 16 (1 + 3 * 1) (fun G : C2 => if G = (8, 5) then (1 : ℝ) else 0) ∧ total2 16 16 (fun G : C2 => if G = (8, 5) then (1 : ℝ) else 0) = 1 := by
  refine ⟨fun G hG => ?_, ?_⟩
  · dsimp only
    rw [if_neg]
    rintro rfl
    exact hG (by unfold Away2; norm_num)
  · unfold total2
    rw [Finset.sum_ite_eq', if_pos (by simp)]

/-- and there the centre of mass moves by `dt U` exactly -/
example : total2 16 16 (fun G => centre2 (1 / (16 : ℕ)) 0 G * refDiff2 ⟨16, 16, 1, 2, 0, false⟩ exKern2 (1 / 10) (refAdv2 ⟨16, 16, 1, 2, 0, false⟩ exKern2 (1 / 10) (fun j _ => ![3, 5] j)
      (fun G : C2 => if G = (8, 5) then (1 : ℝ) else 0)) G) = 11 / 32 + 3 / 10 := by
  have h1 : Within2 16 16 4 (fun G : C2 => if G = (8, 5) then (1 : ℝ) else 0) := fun G hG => by
    dsimp only
    rw [if_neg]
    rintro rfl
    exact hG (by unfold Away2; norm_num)
  have := scalar2_first (P := ⟨16, 16, 1, 2, 0, false⟩) (K := exKern2) (fun _ _ => rfl) exKern2_stream h1 (by norm_num [Params2.dx]) (1 / 10) ![3, 5] 0
  refine this.trans ?_
  unfold total2
  simp only [mul_ite, mul_one, mul_zero]
  rw [Finset.sum_ite_eq', Finset.sum_ite_eq', if_pos (by simp)]
  norm_num [centre2, Params2.dx]

end Sopht
