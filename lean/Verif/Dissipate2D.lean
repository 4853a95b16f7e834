import Verif.Conserve2D
import Mathlib.Analysis.Convex.Jensen
import Mathlib.Analysis.Convex.Mul

/-!
# Diffusion dissipates and keeps order, in 2D (C110)

A passive scalar without velocity (`flow_simulators_mpi_2d.py:260-282`: advection by zero velocity, then the five-point diffusion step) on any number of ranks.
-/

namespace Sopht

open Finset

/-- A penalty on values: convex, zero at zero, nowhere negative; for example `|x| ^ p` or `x ^ 2`. -/
structure Penalty (φ : ℝ → ℝ) : Prop where
  convex : ConvexOn ℝ Set.univ φ
  zero : φ 0 = 0
  nonneg : ∀ x, 0 ≤ φ x

theorem penalty_sq : Penalty fun x => x ^ 2 := ⟨even_two.convexOn_pow, by norm_num, fun x => sq_nonneg x⟩

theorem penalty_abs : Penalty fun x => |x| := by
  refine ⟨⟨convex_univ, fun x _ y _ a b ha hb _ => ?_⟩, abs_zero, abs_nonneg⟩
  simp only [smul_eq_mul]
  calc |a * x + b * y| ≤ |a * x| + |b * y| := abs_add_le _ _
    _ = a * |x| + b * |y| := by rw [abs_mul, abs_mul, abs_of_nonneg ha, abs_of_nonneg hb]

/-- The part above a level `k ≥ 0`: how far values exceed it. -/
theorem penalty_above {k : ℝ} (hk : 0 ≤ k) : Penalty fun x => max (x - k) 0 := by
  refine ⟨⟨convex_univ, fun x _ y _ a b ha hb hab => ?_⟩, max_eq_right (by linarith), fun x => le_max_right _ _⟩
  simp only [smul_eq_mul]
  have h1 := mul_le_mul_of_nonneg_left (le_max_left (x - k) 0) ha
  have h2 := mul_le_mul_of_nonneg_left (le_max_left (y - k) 0) hb
  have h3 := mul_le_mul_of_nonneg_left (le_max_right (x - k) 0) ha
  have h4 := mul_le_mul_of_nonneg_left (le_max_right (y - k) 0) hb
  refine max_le ?_ (by linarith)
  have : k = a * k + b * k := by rw [← add_mul, hab, one_mul]
  linarith

theorem convex5 {φ : ℝ → ℝ} (h : ConvexOn ℝ Set.univ φ) {e : ℝ} (h0 : 0 ≤ e) (h1 : 4 * e ≤ 1) (c n s w o : ℝ) :
    φ (c + e * (n + s + w + o - 4 * c)) ≤ (1 - 4 * e) * φ c + (e * φ n + e * φ s + e * φ w + e * φ o) := by
  have q := h.map_sum_le (t := Finset.univ) (w := ![1 - 4 * e, e, e, e, e]) (p := ![c, n, s, w, o])
    (fun i _ => by fin_cases i <;> first | exact h0 | (change 0 ≤ 1 - 4 * e; linarith))
    (by simp only [Fin.sum_univ_five, Matrix.cons_val]; ring) (fun _ _ => Set.mem_univ _)
  simp only [Fin.sum_univ_five, Matrix.cons_val, smul_eq_mul] at q
  calc _ = φ ((1 - 4 * e) * c + e * n + e * s + e * w + e * o) := by congr 1; ring
    _ ≤ _ := q
    _ = _ := by ring

section Parts
variable {P : Params2} {K : Kern2}

/-- One diffusion step does not increase the sum of a penalty, and keeps the outermost cells at zero. -/
theorem diff2_dissipates (hd : FivePoint K.diff) {φ : ℝ → ℝ} (hφ : Penalty φ) {dt : ℝ} (h0 : 0 ≤ P.nu * dt / P.dx / P.dx) (h1 : 4 * (P.nu * dt / P.dx / P.dx) ≤ 1)
    {om : C2 → ℝ} (h : ∀ G, Dom2 P.gy P.gx G → OnEdge2 P.gy P.gx G → om G = 0) :
    (∀ G, Dom2 P.gy P.gx G → OnEdge2 P.gy P.gx G → refDiff2 P K dt om G = 0) ∧
    total2 P.gy P.gx (fun G => φ (refDiff2 P K dt om G)) ≤ total2 P.gy P.gx fun G => φ (om G) := by
  classical
  refine ⟨fun G hG he => ?_, ?_⟩
  · unfold refDiff2
    rw [if_neg fun hh => hh.2 he]
    exact h G hG he
  set ψ : C2 → ℝ := fun G => if Dom2 P.gy P.gx G then φ (om G) else 0 with hψ
  have hpos : ∀ G, 0 ≤ ψ G := by
    intro G
    simp only [hψ]
    split
    · exact hφ.nonneg _
    · exact le_rfl
  have hw : Within2 P.gy P.gx 1 ψ := by
    intro G hG
    simp only [hψ]
    split
    · rename_i hD
      rw [h G hD, hφ.zero]
      unfold Away2 at hG
      unfold Dom2 at hD
      unfold OnEdge2
      omega
    · rfl
  set e := P.nu * dt / P.dx / P.dx with he
  have hpt : ∀ G, Dom2 P.gy P.gx G → φ (refDiff2 P K dt om G) ≤
      (1 - 4 * e) * ψ G + (e * ψ (G.1 + 1, G.2 + 0) + e * ψ (G.1 + -1, G.2 + 0) + e * ψ (G.1 + 0, G.2 + 1) + e * ψ (G.1 + 0, G.2 + -1)) := by
    intro G hG
    unfold refDiff2
    split
    · rename_i hh
      rw [hd]
      have hn : ∀ d : C2, |d.1| ≤ 1 → |d.2| ≤ 1 → ψ (G.1 + d.1, G.2 + d.2) = φ (om (G.1 + d.1, G.2 + d.2)) := by
        intro d h1 h2
        rw [abs_le] at h1 h2
        simp only [hψ]
        refine if_pos ?_
        obtain ⟨a, b⟩ := hh
        unfold Dom2 at *
        unfold OnEdge2 at b
        simp only
        omega
      have q0 : ψ G = φ (om (G.1 + 0, G.2 + 0)) := by
        rw [add_zero, add_zero]
        exact if_pos hG
      have q1 := hn (1, 0) (by simp) (by simp)
      have q2 := hn (-1, 0) (by simp) (by simp)
      have q3 := hn (0, 1) (by simp) (by simp)
      have q4 := hn (0, -1) (by simp) (by simp)
      simp only at q1 q2 q3 q4
      rw [q0, q1, q2, q3, q4]
      have eG : om G = om (G.1 + 0, G.2 + 0) := by rw [add_zero, add_zero]
      rw [eG]
      exact convex5 hφ.convex h0 h1 _ _ _ _ _
    · rename_i hh
      have hE : OnEdge2 P.gy P.gx G := by
        by_contra hE
        exact hh ⟨hG, hE⟩
      rw [h G hG hE, hφ.zero]
      have := mul_nonneg (sub_nonneg.2 h1) (hpos G)
      have := mul_nonneg h0 (hpos (G.1 + 1, G.2 + 0))
      have := mul_nonneg h0 (hpos (G.1 + -1, G.2 + 0))
      have := mul_nonneg h0 (hpos (G.1 + 0, G.2 + 1))
      have := mul_nonneg h0 (hpos (G.1 + 0, G.2 + -1))
      linarith
  have hs : ∀ d : C2, |d.1| ≤ 1 → |d.2| ≤ 1 → total2 P.gy P.gx (fun G => e * ψ (G.1 + d.1, G.2 + d.2)) = e * total2 P.gy P.gx ψ := by
    intro d h1 h2
    rw [total2_mul e fun G : C2 => ψ (G.1 + d.1, G.2 + d.2), total2_shift hw d (by simpa using h1) (by simpa using h2)]
  have e1 := hs (1, 0) (by simp) (by simp)
  have e2 := hs (-1, 0) (by simp) (by simp)
  have e3 := hs (0, 1) (by simp) (by simp)
  have e4 := hs (0, -1) (by simp) (by simp)
  simp only at e1 e2 e3 e4
  have hle : total2 P.gy P.gx (fun G => φ (refDiff2 P K dt om G)) ≤ total2 P.gy P.gx fun G =>
      (1 - 4 * e) * ψ G + (e * ψ (G.1 + 1, G.2 + 0) + e * ψ (G.1 + -1, G.2 + 0) + e * ψ (G.1 + 0, G.2 + 1) + e * ψ (G.1 + 0, G.2 + -1)) := by
    unfold total2
    refine Finset.sum_le_sum fun G hG => hpt G ?_
    simp only [mem_product, mem_Ico] at hG
    exact ⟨hG.1.1, hG.1.2, hG.2.1, hG.2.2⟩
  rw [total2_add, total2_add, total2_add, total2_add, total2_mul (1 - 4 * e), e1, e2, e3, e4] at hle
  have ee : total2 P.gy P.gx ψ = total2 P.gy P.gx fun G => φ (om G) := total2_congr fun G hG => if_pos hG
  rw [← ee]
  linarith

/-- One diffusion step keeps the order of two fields. -/
theorem diff2_order (hd : FivePoint K.diff) {dt : ℝ} (h0 : 0 ≤ P.nu * dt / P.dx / P.dx) (h1 : 4 * (P.nu * dt / P.dx / P.dx) ≤ 1)
    {om om' : C2 → ℝ} (h : ∀ G, Dom2 P.gy P.gx G → om G ≤ om' G) {G : C2} (hG : Dom2 P.gy P.gx G) : refDiff2 P K dt om G ≤ refDiff2 P K dt om' G := by
  unfold refDiff2
  split
  · rename_i hh
    rw [hd, hd]
    generalize P.nu * dt / P.dx / P.dx = e at h0 h1
    have hn : ∀ d : C2, |d.1| ≤ 1 → |d.2| ≤ 1 → om (G.1 + d.1, G.2 + d.2) ≤ om' (G.1 + d.1, G.2 + d.2) := by
      intro d h1 h2
      rw [abs_le] at h1 h2
      apply h
      obtain ⟨a, b⟩ := hh
      unfold Dom2 at *
      unfold OnEdge2 at b
      simp only
      omega
    have l0 := mul_le_mul_of_nonneg_left (hn (0, 0) (by simp) (by simp)) (sub_nonneg.2 h1)
    have l1 := mul_le_mul_of_nonneg_left (hn (1, 0) (by simp) (by simp)) h0
    have l2 := mul_le_mul_of_nonneg_left (hn (-1, 0) (by simp) (by simp)) h0
    have l3 := mul_le_mul_of_nonneg_left (hn (0, 1) (by simp) (by simp)) h0
    have l4 := mul_le_mul_of_nonneg_left (hn (0, -1) (by simp) (by simp)) h0
    simp only [add_zero] at l0 l1 l2 l3 l4 ⊢
    have e0 : om G = om (G.1, G.2) := rfl
    have e0' : om' G = om' (G.1, G.2) := rfl
    rw [e0, e0']
    linarith
  · exact h G hG

/-- A step of a passive scalar without velocity is a diffusion step. -/
theorem scalar2_still (ha : ∀ a f, (∀ j d, f (some j) d = 0) → K.adv a f = 0) {ft : String} (hf : ft ≠ "navier_stokes") (hf' : ft ≠ "navier_stokes_with_forcing")
    (dt : ℝ) (fs : Fin 2 → ℝ) (Φ : Fin 2 → C2 → ℝ) {F : Fields2} (hu : ∀ j G, F.u j G = 0) :
    (refStep2 ft P K dt fs Φ F).om = refDiff2 P K dt F.om ∧ (refStep2 ft P K dt fs Φ F).u = F.u := by
  have hadv : refAdv2 P K dt F.u F.om = F.om := by
    funext G
    unfold refAdv2
    rw [ha _ _ fun j d => hu j _]
    split <;> simp
  unfold refStep2
  rw [if_neg hf, if_neg hf']
  unfold refScalar2
  simp only [hadv, and_self]

theorem run2_dissipates (hd : FivePoint K.diff) (ha : ∀ a f, (∀ j d, f (some j) d = 0) → K.adv a f = 0) {ft : String} (hf : ft ≠ "navier_stokes")
    (hf' : ft ≠ "navier_stokes_with_forcing") (hdx : 0 < P.dx) (hnu : 0 ≤ P.nu) {cfl tol : ℝ} (hcfl : 0 ≤ cfl) (htol : 0 < tol) {φ : ℝ → ℝ} (hφ : Penalty φ) :
    ∀ (ys : List StepSpec2) (s : Fields2 × ℝ), (∀ y ∈ ys, SmallStep2 P.nu P.dx y.rule) → (∀ j G, s.1.u j G = 0) → (∀ G, Dom2 P.gy P.gx G → OnEdge2 P.gy P.gx G → s.1.om G = 0) →
    total2 P.gy P.gx (fun G => φ ((refRun2 ft P K cfl tol ys s).1.om G)) ≤ total2 P.gy P.gx fun G => φ (s.1.om G)
  | [], _, _, _, _ => le_rfl
  | y :: ys, s, hy, hu, h => by
    have hM : 0 ≤ maxVel2 P.gy P.gx s.1.u := by
      unfold maxVel2
      apply Real.sSup_nonneg
      rintro x ⟨G, -, rfl⟩
      positivity
    obtain ⟨d0, d1⟩ := smallStep2_dt hdx hnu hcfl htol hM (hy y List.mem_cons_self)
    obtain ⟨s1, s2⟩ := scalar2_still (P := P) ha hf hf' (refDt2 P cfl tol s.1 y.rule) y.fs y.Φ hu
    obtain ⟨k1, k2⟩ := diff2_dissipates hd hφ d0 d1 h
    unfold refRun2
    refine (run2_dissipates hd ha hf hf' hdx hnu hcfl htol hφ ys _ (fun y' h' => hy y' (List.mem_cons_of_mem _ h')) ?_ ?_).trans ?_
    · simp only [s2]
      exact hu
    · simp only [s1]
      exact k1
    · simp only [s1]
      exact k2

theorem run2_order (hd : FivePoint K.diff) (ha : ∀ a f, (∀ j d, f (some j) d = 0) → K.adv a f = 0) {ft : String} (hf : ft ≠ "navier_stokes")
    (hf' : ft ≠ "navier_stokes_with_forcing") (hdx : 0 < P.dx) (hnu : 0 ≤ P.nu) {cfl tol : ℝ} (hcfl : 0 ≤ cfl) (htol : 0 < tol) :
    ∀ (ys : List StepSpec2) (s s' : Fields2 × ℝ), (∀ y ∈ ys, SmallStep2 P.nu P.dx y.rule) → (∀ j G, s.1.u j G = 0) → (∀ j G, s'.1.u j G = 0) →
    (∀ G, Dom2 P.gy P.gx G → s.1.om G ≤ s'.1.om G) →
    ∀ G, Dom2 P.gy P.gx G → (refRun2 ft P K cfl tol ys s).1.om G ≤ (refRun2 ft P K cfl tol ys s').1.om G
  | [], _, _, _, _, _, h => h
  | y :: ys, s, s', hy, hu, hu', h => by
    have hM : 0 ≤ maxVel2 P.gy P.gx s.1.u := by
      unfold maxVel2
      apply Real.sSup_nonneg
      rintro x ⟨G, -, rfl⟩
      positivity
    have eu : s'.1.u = s.1.u := by
      funext j G
      rw [hu, hu']
    have edt : refDt2 P cfl tol s'.1 y.rule = refDt2 P cfl tol s.1 y.rule := by
      cases y.rule with
      | fixed dt => rfl
      | stable pre => simp only [refDt2, eu]
    obtain ⟨d0, d1⟩ := smallStep2_dt hdx hnu hcfl htol hM (hy y List.mem_cons_self)
    obtain ⟨s1, s2⟩ := scalar2_still (P := P) ha hf hf' (refDt2 P cfl tol s.1 y.rule) y.fs y.Φ hu
    obtain ⟨s1', s2'⟩ := scalar2_still (P := P) ha hf hf' (refDt2 P cfl tol s.1 y.rule) y.fs y.Φ hu'
    unfold refRun2
    rw [edt]
    refine run2_order hd ha hf hf' hdx hnu hcfl htol ys _ _ (fun y' h' => hy y' (List.mem_cons_of_mem _ h')) ?_ ?_ ?_
    · simp only [s2]
      exact hu
    · simp only [s2']
      exact hu'
    · simp only [s1, s1']
      exact fun G hG => diff2_order hd d0 d1 h hG

end Parts

section Ranks
variable {T : Cart2} [NeZero T.gy] [NeZero T.gx]

/-- **C110 (2D)** A passive scalar without velocity that starts at zero in the outermost cells of the domain: whatever convex penalty of the values is summed over the inner cells of all ranks
(the sum of squares, of absolute values, of any power, of the excess over a level), it does not grow in any number of steps with the stable time step or any given one with `4 ν dt ≤ dx²`. -/
theorem diffusion2_dissipates {a : SimArgs2} (h : Fit2 a T) (hf : a.flowType = "passive_scalar") {xr : ℝ} (hxr : 0 < xr) {nu : ℝ} (hnu : 0 ≤ nu) {cfl : ℝ} (hcfl : 0 ≤ cfl) {tol : ℝ}
    (htol : 0 < tol) {K : Kern2} (hK : K.Local) (hK0 : ∀ r, K.upd r (fun _ _ => 0) = 0) (hd : FivePoint K.diff) (ha : ∀ a f, (∀ j d, f (some j) d = 0) → K.adv a f = 0)
    (time : ℝ) (dbl0 : World C2 C2 ℝ) (conv0 : Dbl2 T → ℂ) (om : ℝ → ℝ → ℝ) {xs : List StepIn2} {ys : List StepSpec2}
    (hxy : List.Forall₂ (Means2 a.gy a.gx T (simCfg2 a T xr nu cfl)) xs ys) (hdt : ∀ y ∈ ys, SmallStep2 nu (xr / a.gx) y.rule) {φ : ℝ → ℝ} (hφ : Penalty φ) :
    let start := initFrom2 T a.g xr time dbl0 conv0 om fun _ _ _ => 0
    let out := simLoop2 (simCfg2 a T xr nu cfl) K tol xs start
    (∀ c p, Valid2 T c → Inner2 T ((2 : ℕ) : ℤ) p → OnEdge2 a.gy a.gx (globalIx2 T ((2 : ℕ) : ℤ) c p) → start.prim c p = 0) →
    out.2 = none ∧ innerTotal2 T 2 (fun c p => φ (out.1.prim c p)) ≤ innerTotal2 T 2 fun c p => φ (start.prim c p) := by
  obtain ⟨hT, hft⟩ := simCheck2_cart' h.built
  obtain ⟨e1, e2, -, -, -, hY, hX⟩ := construct2_ok hT
  have hgx0 : 0 < a.gx := by rw [← e2]; exact Nat.pos_of_ne_zero (NeZero.ne _)
  obtain ⟨r1, -, r3⟩ := sim2_run h hxr nu hcfl htol hK hK0 time dbl0 conv0 om (fun _ _ _ => 0) hxy
  have hinit := initFrom2_holds hT (simCfg2 a T xr nu cfl) time dbl0 conv0 om fun _ _ _ => 0
  intro start out hb
  have hst : ∀ c p, Valid2 T c → Inner2 T ((2 : ℕ) : ℤ) p → start.prim c p = (fieldsFrom2 (xr / a.gx) om fun _ _ _ => 0).om (globalIx2 T ((2 : ℕ) : ℤ) c p) := by
    intro c p hc hp
    have := hinit.om c p hc (inArr_of_inner2 hp) (Or.inl hp)
    simp only [start, h.g]
    exact this
  refine ⟨r1, ?_⟩
  rw [innerTotal2_blocks hT (F := fun G => φ ((refRun2 a.flowType ⟨a.gy, a.gx, xr, nu, widthOf a.width, a.freeStream⟩ K cfl tol ys (fieldsFrom2 (xr / a.gx) om fun _ _ _ => 0, time)).1.om G))
      (v := fun c p => φ (out.1.prim c p)) (fun c p hc hp => congrArg φ (r3 c p hc hp).1),
    innerTotal2_blocks hT (F := fun G => φ ((fieldsFrom2 (xr / a.gx) om fun _ _ _ => 0).om G)) (v := fun c p => φ (start.prim c p)) (fun c p hc hp => congrArg φ (hst c p hc hp))]
  refine run2_dissipates (P := ⟨a.gy, a.gx, xr, nu, widthOf a.width, a.freeStream⟩) (K := K) hd ha (ft := a.flowType) (by rw [hf]; decide) (by rw [hf]; decide)
    (div_pos hxr (by exact_mod_cast hgx0)) hnu hcfl htol hφ ys (fieldsFrom2 (xr / a.gx) om fun _ _ _ => 0, time) hdt (fun _ _ => rfl) ?_
  intro G hG hE
  obtain ⟨c', p', hc', hp', rfl⟩ := domain_owned2 hT 2 ((dom2_iff hT G).1 hG)
  exact (hst c' p' hc' hp').symm.trans (hb c' p' hc' hp' hE)

/-- **C110 (2D)** Two such runs with the same steps, one starting nowhere above the other: it never gets above the other, in any cell of any rank. -/
theorem diffusion2_order {a : SimArgs2} (h : Fit2 a T) (hf : a.flowType = "passive_scalar") {xr : ℝ} (hxr : 0 < xr) {nu : ℝ} (hnu : 0 ≤ nu) {cfl : ℝ} (hcfl : 0 ≤ cfl) {tol : ℝ}
    (htol : 0 < tol) {K : Kern2} (hK : K.Local) (hK0 : ∀ r, K.upd r (fun _ _ => 0) = 0) (hd : FivePoint K.diff) (ha : ∀ a f, (∀ j d, f (some j) d = 0) → K.adv a f = 0)
    (time : ℝ) (dbl0 : World C2 C2 ℝ) (conv0 : Dbl2 T → ℂ) (om om' : ℝ → ℝ → ℝ) {xs : List StepIn2} {ys : List StepSpec2}
    (hxy : List.Forall₂ (Means2 a.gy a.gx T (simCfg2 a T xr nu cfl)) xs ys) (hdt : ∀ y ∈ ys, SmallStep2 nu (xr / a.gx) y.rule) :
    let start := initFrom2 T a.g xr time dbl0 conv0 om fun _ _ _ => 0
    let start' := initFrom2 T a.g xr time dbl0 conv0 om' fun _ _ _ => 0
    let out := simLoop2 (simCfg2 a T xr nu cfl) K tol xs start
    let out' := simLoop2 (simCfg2 a T xr nu cfl) K tol xs start'
    (∀ c p, Valid2 T c → Inner2 T ((2 : ℕ) : ℤ) p → start.prim c p ≤ start'.prim c p) →
    out.2 = none ∧ out'.2 = none ∧ ∀ c p, Valid2 T c → Inner2 T ((2 : ℕ) : ℤ) p → out.1.prim c p ≤ out'.1.prim c p := by
  obtain ⟨hT, hft⟩ := simCheck2_cart' h.built
  obtain ⟨e1, e2, -, -, -, hY, hX⟩ := construct2_ok hT
  have hgx0 : 0 < a.gx := by rw [← e2]; exact Nat.pos_of_ne_zero (NeZero.ne _)
  obtain ⟨r1, -, r3⟩ := sim2_run h hxr nu hcfl htol hK hK0 time dbl0 conv0 om (fun _ _ _ => 0) hxy
  obtain ⟨r1', -, r3'⟩ := sim2_run h hxr nu hcfl htol hK hK0 time dbl0 conv0 om' (fun _ _ _ => 0) hxy
  have hinit := initFrom2_holds hT (simCfg2 a T xr nu cfl) time dbl0 conv0 om fun _ _ _ => 0
  have hinit' := initFrom2_holds hT (simCfg2 a T xr nu cfl) time dbl0 conv0 om' fun _ _ _ => 0
  intro start start' out out' hb
  refine ⟨r1, r1', fun c p hc hp => ?_⟩
  have hD : Dom2 a.gy a.gx (globalIx2 T ((2 : ℕ) : ℤ) c p) := (dom2_iff hT _).2 (inner_inDomain2 hT hc hp)
  have := run2_order (P := ⟨a.gy, a.gx, xr, nu, widthOf a.width, a.freeStream⟩) (K := K) hd ha (ft := a.flowType) (by rw [hf]; decide) (by rw [hf]; decide)
    (div_pos hxr (by exact_mod_cast hgx0)) hnu hcfl htol ys (fieldsFrom2 (xr / a.gx) om fun _ _ _ => 0, time) (fieldsFrom2 (xr / a.gx) om' fun _ _ _ => 0, time) hdt
    (fun _ _ => rfl) (fun _ _ => rfl) ?_ _ hD
  · exact ((r3 c p hc hp).1.le.trans this).trans (r3' c p hc hp).1.ge
  · intro G hG
    obtain ⟨c', p', hc', hp', rfl⟩ := domain_owned2 hT 2 ((dom2_iff hT G).1 hG)
    have e := hinit.om c' p' hc' (inArr_of_inner2 hp') (Or.inl hp')
    have e' := hinit'.om c' p' hc' (inArr_of_inner2 hp') (Or.inl hp')
    have hb' := hb c' p' hc' hp'
    simp only [start, start', h.g] at hb'
    exact ((show _ = _ from e).ge.trans hb').trans (show _ = _ from e').le

end Ranks

/-! ## Examples -/

/-- a scalar in a single cell of a grid of 8 × 8 cells: zero in the outermost cells, with sum of squares 9 -/
example : ∃ om : C2 → ℝ, (∀ G, Dom2 8 8 G → OnEdge2 8 8 G → om G = 0) ∧ total2 8 8 (fun G => om G ^ 2) = 9 := by
  refine ⟨fun G => if G = (4, 3) then (3 : ℝ) else 0, fun G _ hE => ?_, ?_⟩
  · dsimp only
    rw [if_neg]
    rintro rfl
    exact absurd hE (by unfold OnEdge2; decide)
  · unfold total2
    rw [Finset.sum_eq_single (4, 3)]
    · norm_num
    · intro G _ hG
      simp [hG]
    · intro h
      exact absurd (by decide) h

/-- a step takes its sum of squares from 9 to 9 · (1/4 + 4/64) when `ν dt / dx² = 1 / 8`: the inequality can be strict -/
example : ((1 : ℝ) - 4 * (1 / 8)) ^ 2 * 9 + 4 * ((1 / 8) ^ 2 * 9) < 9 := by norm_num

/-- a given time step and a stable one that meet the condition, for `ν = 1 / 100` and `dx = 1 / 8` -/
example : SmallStep2 (1 / 100) (1 / 8) (.fixed (1 / 10)) ∧ SmallStep2 (1 / 100) (1 / 8) (.stable (1 / 2)) := by
  constructor <;> constructor <;> norm_num

end Sopht
