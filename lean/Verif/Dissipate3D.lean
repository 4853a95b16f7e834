import Verif.Conserve3DProps
import Verif.Dissipate2D

/-!
# Diffusion dissipates and keeps order, in 3D (C110)

A passive scalar or a passive vector without velocity (`flow_simulators_mpi_3d.py:356-393`: advection by zero velocity, then the seven-point diffusion step of every component) on any number of
ranks.
-/

namespace Sopht

open Finset

theorem convex7 {φ : ℝ → ℝ} (h : ConvexOn ℝ Set.univ φ) {e : ℝ} (h0 : 0 ≤ e) (h1 : 6 * e ≤ 1) (c n s w o u v : ℝ) :
    φ (c + e * (n + s + w + o + u + v - 6 * c)) ≤ (1 - 6 * e) * φ c + (e * φ n + e * φ s + e * φ w + e * φ o + e * φ u + e * φ v) := by
  have q := h.map_sum_le (t := Finset.univ) (w := ![1 - 6 * e, e, e, e, e, e, e]) (p := ![c, n, s, w, o, u, v])
    (fun i _ => by fin_cases i <;> first | exact h0 | (change 0 ≤ 1 - 6 * e; linarith))
    (by simp only [Fin.sum_univ_seven, Matrix.cons_val]; ring) (fun _ _ => Set.mem_univ _)
  simp only [Fin.sum_univ_seven, Matrix.cons_val, smul_eq_mul] at q
  calc _ = φ ((1 - 6 * e) * c + e * n + e * s + e * w + e * o + e * u + e * v) := by congr 1; ring
    _ ≤ _ := q
    _ = _ := by ring

section Parts
variable {P : Params3} {K : Kern3}

/-- One diffusion step does not increase the sum of a penalty, and keeps the outermost cells at zero. -/
theorem diff3_dissipates (hd : SevenPoint K.diff) {φ : ℝ → ℝ} (hφ : Penalty φ) {dt : ℝ} (h0 : 0 ≤ P.nu * dt / P.dx / P.dx) (h1 : 6 * (P.nu * dt / P.dx / P.dx) ≤ 1)
    {om : C3 → ℝ} (h : ∀ G, Dom3 P.gz P.gy P.gx G → OnEdge3 P.gz P.gy P.gx G → om G = 0) :
    (∀ G, Dom3 P.gz P.gy P.gx G → OnEdge3 P.gz P.gy P.gx G → refDiff3 P K dt om G = 0) ∧
    total3 P.gz P.gy P.gx (fun G => φ (refDiff3 P K dt om G)) ≤ total3 P.gz P.gy P.gx fun G => φ (om G) := by
  classical
  refine ⟨fun G hG he => ?_, ?_⟩
  · unfold refDiff3
    rw [if_neg fun hh => hh.2 he]
    exact h G hG he
  set ψ : C3 → ℝ := fun G => if Dom3 P.gz P.gy P.gx G then φ (om G) else 0 with hψ
  have hpos : ∀ G, 0 ≤ ψ G := by
    intro G
    simp only [hψ]
    split
    · exact hφ.nonneg _
    · exact le_rfl
  have hw : Sup3 P.gz P.gy P.gx (1, 1, 1) ψ := by
    intro G hG
    simp only [hψ]
    split
    · rename_i hD
      rw [h G hD, hφ.zero]
      unfold Deep3 at hG
      simp only at hG
      unfold Dom3 at hD
      unfold OnEdge3
      omega
    · rfl
  set e := P.nu * dt / P.dx / P.dx with he
  have hpt : ∀ G, Dom3 P.gz P.gy P.gx G → φ (refDiff3 P K dt om G) ≤
      (1 - 6 * e) * ψ G + (e * ψ (G + (1, 0, 0)) + e * ψ (G + (-1, 0, 0)) + e * ψ (G + (0, 1, 0)) + e * ψ (G + (0, -1, 0)) + e * ψ (G + (0, 0, 1)) + e * ψ (G + (0, 0, -1))) := by
    intro G hG
    unfold refDiff3
    split
    · rename_i hh
      rw [hd]
      have hn : ∀ d : C3, |d.1| ≤ 1 → |d.2.1| ≤ 1 → |d.2.2| ≤ 1 → ψ (G + d) = φ (om (G + d)) := by
        intro d h1 h2 h3
        rw [abs_le] at h1 h2 h3
        simp only [hψ]
        refine if_pos ?_
        obtain ⟨a, b⟩ := hh
        unfold Dom3 at *
        unfold OnEdge3 at b
        simp only [Prod.fst_add, Prod.snd_add]
        omega
      have q0 : ψ G = φ (om G) := if_pos hG
      have q1 := hn (1, 0, 0) (by simp) (by simp) (by simp)
      have q2 := hn (-1, 0, 0) (by simp) (by simp) (by simp)
      have q3 := hn (0, 1, 0) (by simp) (by simp) (by simp)
      have q4 := hn (0, -1, 0) (by simp) (by simp) (by simp)
      have q5 := hn (0, 0, 1) (by simp) (by simp) (by simp)
      have q6 := hn (0, 0, -1) (by simp) (by simp) (by simp)
      rw [q0, q1, q2, q3, q4, q5, q6]
      have eG : om G = om (G.1 + 0, G.2.1 + 0, G.2.2 + 0) := by simp only [add_zero]
      rw [eG]
      exact convex7 hφ.convex h0 h1 _ _ _ _ _ _ _
    · rename_i hh
      have hE : OnEdge3 P.gz P.gy P.gx G := by
        by_contra hE
        exact hh ⟨hG, hE⟩
      rw [h G hG hE, hφ.zero]
      have := mul_nonneg (sub_nonneg.2 h1) (hpos G)
      have := mul_nonneg h0 (hpos (G + (1, 0, 0)))
      have := mul_nonneg h0 (hpos (G + (-1, 0, 0)))
      have := mul_nonneg h0 (hpos (G + (0, 1, 0)))
      have := mul_nonneg h0 (hpos (G + (0, -1, 0)))
      have := mul_nonneg h0 (hpos (G + (0, 0, 1)))
      have := mul_nonneg h0 (hpos (G + (0, 0, -1)))
      linarith
  have hs : ∀ d : C3, |d.1| ≤ 1 → |d.2.1| ≤ 1 → |d.2.2| ≤ 1 → total3 P.gz P.gy P.gx (fun G => e * ψ (G + d)) = e * total3 P.gz P.gy P.gx ψ := by
    intro d h1 h2 h3
    rw [total3_mul e fun G : C3 => ψ (G + d), total3_shift hw d h1 h2 h3]
  have e1 := hs (1, 0, 0) (by simp) (by simp) (by simp)
  have e2 := hs (-1, 0, 0) (by simp) (by simp) (by simp)
  have e3 := hs (0, 1, 0) (by simp) (by simp) (by simp)
  have e4 := hs (0, -1, 0) (by simp) (by simp) (by simp)
  have e5 := hs (0, 0, 1) (by simp) (by simp) (by simp)
  have e6 := hs (0, 0, -1) (by simp) (by simp) (by simp)
  have hle : total3 P.gz P.gy P.gx (fun G => φ (refDiff3 P K dt om G)) ≤ total3 P.gz P.gy P.gx fun G =>
      (1 - 6 * e) * ψ G + (e * ψ (G + (1, 0, 0)) + e * ψ (G + (-1, 0, 0)) + e * ψ (G + (0, 1, 0)) + e * ψ (G + (0, -1, 0)) + e * ψ (G + (0, 0, 1)) + e * ψ (G + (0, 0, -1))) := by
    unfold total3
    refine Finset.sum_le_sum fun G hG => hpt G ?_
    simp only [mem_product, mem_Ico] at hG
    unfold Dom3
    omega
  rw [total3_add, total3_add, total3_add, total3_add, total3_add, total3_add, total3_mul (1 - 6 * e), e1, e2, e3, e4, e5, e6] at hle
  have ee : total3 P.gz P.gy P.gx ψ = total3 P.gz P.gy P.gx fun G => φ (om G) := total3_congr fun G hG => if_pos hG
  rw [← ee]
  linarith

/-- One diffusion step keeps the order of two fields. -/
theorem diff3_order (hd : SevenPoint K.diff) {dt : ℝ} (h0 : 0 ≤ P.nu * dt / P.dx / P.dx) (h1 : 6 * (P.nu * dt / P.dx / P.dx) ≤ 1)
    {om om' : C3 → ℝ} (h : ∀ G, Dom3 P.gz P.gy P.gx G → om G ≤ om' G) {G : C3} (hG : Dom3 P.gz P.gy P.gx G) : refDiff3 P K dt om G ≤ refDiff3 P K dt om' G := by
  unfold refDiff3
  split
  · rename_i hh
    rw [hd, hd]
    generalize P.nu * dt / P.dx / P.dx = e at h0 h1
    have hn : ∀ d : C3, |d.1| ≤ 1 → |d.2.1| ≤ 1 → |d.2.2| ≤ 1 → om (G + d) ≤ om' (G + d) := by
      intro d h1 h2 h3
      rw [abs_le] at h1 h2 h3
      apply h
      obtain ⟨a, b⟩ := hh
      unfold Dom3 at *
      unfold OnEdge3 at b
      simp only [Prod.fst_add, Prod.snd_add]
      omega
    have l0 := mul_le_mul_of_nonneg_left (h G hG) (sub_nonneg.2 h1)
    have l1 := mul_le_mul_of_nonneg_left (hn (1, 0, 0) (by simp) (by simp) (by simp)) h0
    have l2 := mul_le_mul_of_nonneg_left (hn (-1, 0, 0) (by simp) (by simp) (by simp)) h0
    have l3 := mul_le_mul_of_nonneg_left (hn (0, 1, 0) (by simp) (by simp) (by simp)) h0
    have l4 := mul_le_mul_of_nonneg_left (hn (0, -1, 0) (by simp) (by simp) (by simp)) h0
    have l5 := mul_le_mul_of_nonneg_left (hn (0, 0, 1) (by simp) (by simp) (by simp)) h0
    have l6 := mul_le_mul_of_nonneg_left (hn (0, 0, -1) (by simp) (by simp) (by simp)) h0
    have e0 : (G.1 + 0, G.2.1 + 0, G.2.2 + 0) = G := by simp only [add_zero]
    rw [e0]
    change _ + e * (om (G + (1, 0, 0)) + om (G + (-1, 0, 0)) + om (G + (0, 1, 0)) + om (G + (0, -1, 0)) + om (G + (0, 0, 1)) + om (G + (0, 0, -1)) - 6 * om G) ≤
      _ + e * (om' (G + (1, 0, 0)) + om' (G + (-1, 0, 0)) + om' (G + (0, 1, 0)) + om' (G + (0, -1, 0)) + om' (G + (0, 0, 1)) + om' (G + (0, 0, -1)) - 6 * om' G)
    linarith
  · exact h G hG

/-- The scalar (`none`) or a component of the vector. -/
def compo3 (F : Fields3) : Option (Fin 3) → C3 → ℝ
  | none => F.sc
  | some j => F.om j

/-- Without velocity and without the Navier-Stokes equations, a step leaves a component alone or is a diffusion step of it. -/
theorem passive3_still (ha : ∀ a f, (∀ j d, f (some j) d = 0) → K.adv a f = 0) {ft : String} (hf : isNS ft = false)
    (dt : ℝ) (fs : Fin 3 → ℝ) (Φ : Fin 3 → C3 → ℝ) :
    (∀ i, (∀ F : Fields3, (∀ j G, F.u j G = 0) → compo3 (refStep3 ft P K dt fs Φ F) i = compo3 F i) ∨
      ∀ F : Fields3, (∀ j G, F.u j G = 0) → compo3 (refStep3 ft P K dt fs Φ F) i = refDiff3 P K dt (compo3 F i)) ∧
    ∀ F : Fields3, (refStep3 ft P K dt fs Φ F).u = F.u := by
  have hadv : ∀ (F : Fields3), (∀ j G, F.u j G = 0) → ∀ f, refAdv3 P K dt F.u f = f := by
    intro F hu f
    funext G
    unfold refAdv3
    rw [ha _ _ fun j d => hu j _]
    split <;> simp
  have n1 : ft ≠ "navier_stokes" := by rintro rfl; cases hf
  have n2 : ft ≠ "navier_stokes_with_forcing" := by rintro rfl; cases hf
  by_cases hv : ft = "passive_vector"
  · have e : ∀ F, refStep3 ft P K dt fs Φ F = refVector3 P K dt F := by
      intro F
      unfold refStep3
      rw [if_neg n1, if_neg n2, if_pos hv]
    refine ⟨fun i => ?_, fun F => by rw [e]; rfl⟩
    cases i with
    | none => exact Or.inl fun F hu => by rw [e]; rfl
    | some j =>
      refine Or.inr fun F hu => ?_
      rw [e]
      simp only [compo3, refVector3, hadv F hu]
  · have e : ∀ F, refStep3 ft P K dt fs Φ F = refScalar3 P K dt F := by
      intro F
      unfold refStep3
      rw [if_neg n1, if_neg n2, if_neg hv]
    refine ⟨fun i => ?_, fun F => by rw [e]; rfl⟩
    cases i with
    | none =>
      refine Or.inr fun F hu => ?_
      rw [e]
      simp only [compo3, refScalar3, hadv F hu]
    | some j => exact Or.inl fun F hu => by rw [e]; rfl

theorem run3_dissipates (hd : SevenPoint K.diff) (ha : ∀ a f, (∀ j d, f (some j) d = 0) → K.adv a f = 0) {ft : String} (hf : isNS ft = false)
    (hdx : 0 < P.dx) (hnu : 0 ≤ P.nu) {cfl tol : ℝ} (hcfl : 0 ≤ cfl) (htol : 0 < tol) {φ : ℝ → ℝ} (hφ : Penalty φ) (i : Option (Fin 3)) :
    ∀ (ys : List StepSpec3) (s : Fields3 × ℝ), (∀ y ∈ ys, SmallStep3 P.nu P.dx y.rule) → (∀ j G, s.1.u j G = 0) →
    (∀ G, Dom3 P.gz P.gy P.gx G → OnEdge3 P.gz P.gy P.gx G → compo3 s.1 i G = 0) →
    total3 P.gz P.gy P.gx (fun G => φ (compo3 (refRun3 ft P K cfl tol ys s).1 i G)) ≤ total3 P.gz P.gy P.gx fun G => φ (compo3 s.1 i G)
  | [], _, _, _, _ => le_rfl
  | y :: ys, s, hy, hu, h => by
    have hM : 0 ≤ maxVel3 P.gz P.gy P.gx s.1.u := by
      unfold maxVel3
      apply Real.sSup_nonneg
      rintro x ⟨G, -, rfl⟩
      positivity
    obtain ⟨d0, d1⟩ := smallStep3_dt hdx hnu hcfl htol hM (hy y List.mem_cons_self)
    obtain ⟨s1, s2⟩ := passive3_still (P := P) ha hf (refDt3 P cfl tol s.1 y.rule) y.fs y.Φ
    obtain ⟨k1, k2⟩ := diff3_dissipates hd hφ d0 d1 h
    unfold refRun3
    refine (run3_dissipates hd ha hf hdx hnu hcfl htol hφ i ys _ (fun y' h' => hy y' (List.mem_cons_of_mem _ h')) ?_ ?_).trans ?_
    · simp only [s2]
      exact hu
    · rcases s1 i with q | q <;> simp only [q s.1 hu]
      · exact h
      · exact k1
    · rcases s1 i with q | q <;> simp only [q s.1 hu]
      · exact le_rfl
      · exact k2

theorem run3_order (hd : SevenPoint K.diff) (ha : ∀ a f, (∀ j d, f (some j) d = 0) → K.adv a f = 0) {ft : String} (hf : isNS ft = false)
    (hdx : 0 < P.dx) (hnu : 0 ≤ P.nu) {cfl tol : ℝ} (hcfl : 0 ≤ cfl) (htol : 0 < tol) (i : Option (Fin 3)) :
    ∀ (ys : List StepSpec3) (s s' : Fields3 × ℝ), (∀ y ∈ ys, SmallStep3 P.nu P.dx y.rule) → (∀ j G, s.1.u j G = 0) → (∀ j G, s'.1.u j G = 0) →
    (∀ G, Dom3 P.gz P.gy P.gx G → compo3 s.1 i G ≤ compo3 s'.1 i G) →
    ∀ G, Dom3 P.gz P.gy P.gx G → compo3 (refRun3 ft P K cfl tol ys s).1 i G ≤ compo3 (refRun3 ft P K cfl tol ys s').1 i G
  | [], _, _, _, _, _, h => h
  | y :: ys, s, s', hy, hu, hu', h => by
    have hM : 0 ≤ maxVel3 P.gz P.gy P.gx s.1.u := by
      unfold maxVel3
      apply Real.sSup_nonneg
      rintro x ⟨G, -, rfl⟩
      positivity
    have eu : s'.1.u = s.1.u := by
      funext j G
      rw [hu, hu']
    have edt : refDt3 P cfl tol s'.1 y.rule = refDt3 P cfl tol s.1 y.rule := by
      cases y.rule with
      | fixed dt => rfl
      | stable pre => simp only [refDt3, eu]
    obtain ⟨d0, d1⟩ := smallStep3_dt hdx hnu hcfl htol hM (hy y List.mem_cons_self)
    obtain ⟨s1, s2⟩ := passive3_still (P := P) ha hf (refDt3 P cfl tol s.1 y.rule) y.fs y.Φ
    unfold refRun3
    rw [edt]
    refine run3_order hd ha hf hdx hnu hcfl htol i ys _ _ (fun y' h' => hy y' (List.mem_cons_of_mem _ h')) ?_ ?_ ?_
    · simp only [s2]
      exact hu
    · simp only [s2]
      exact hu'
    · rcases s1 i with q | q <;> simp only [q s.1 hu, q s'.1 hu']
      · exact h
      · exact fun G hG => diff3_order hd d0 d1 h hG

end Parts

section Ranks
variable {T : Cart3} [NeZero T.gz] [NeZero T.gy] [NeZero T.gx]

/-- **C110 (3D)** A passive scalar or vector without velocity: for the scalar and for each component of the vector that starts at zero in the outermost cells of the domain, whatever convex
penalty of the values is summed over the inner cells of all ranks, it does not grow in any number of steps with the stable time step or any given one with `6 ν dt ≤ dx²`. -/
theorem diffusion3_dissipates {a : SimArgs3} (h : Fit3 a T) (hf : isNS a.flowType = false) {xr : ℝ} (hxr : 0 < xr) {nu : ℝ} (hnu : 0 ≤ nu) {cfl : ℝ} (hcfl : 0 ≤ cfl) {tol : ℝ}
    (htol : 0 < tol) {K : Kern3} (hK : K.Local) (hK0 : ∀ r, K.upd r (fun _ _ => 0) = 0) (hd : SevenPoint K.diff) (ha : ∀ a f, (∀ j d, f (some j) d = 0) → K.adv a f = 0)
    (time : ℝ) (dbl0 : World C3 C3 ℝ) (conv0 : Dbl3 T → ℂ) (sc : ℝ → ℝ → ℝ → ℝ) (om : Fin 3 → ℝ → ℝ → ℝ → ℝ) {xs : List StepIn3} {ys : List StepSpec3}
    (hxy : List.Forall₂ (Means3 a.gz a.gy a.gx T (simCfg3 a xr nu cfl)) xs ys) (hdt : ∀ y ∈ ys, SmallStep3 nu (xr / a.gx) y.rule) {φ : ℝ → ℝ} (hφ : Penalty φ) :
    let start := initFrom3 T a.g xr time dbl0 conv0 sc om fun _ _ _ _ => 0
    let out := simLoop3 (simCfg3 a xr nu cfl) K tol xs start
    out.2 = none ∧
    ((∀ c p, Valid3 T c → Inner3 T a.g p → OnEdge3 a.gz a.gy a.gx (globalIx3 T a.g c p) → start.sc c p = 0) →
      innerTotal3 T a.g (fun c p => φ (out.1.sc c p)) ≤ innerTotal3 T a.g fun c p => φ (start.sc c p)) ∧
    ∀ j, (∀ c p, Valid3 T c → Inner3 T a.g p → OnEdge3 a.gz a.gy a.gx (globalIx3 T a.g c p) → start.om j c p = 0) →
      innerTotal3 T a.g (fun c p => φ (out.1.om j c p)) ≤ innerTotal3 T a.g fun c p => φ (start.om j c p) := by
  obtain ⟨hT, hft⟩ := simCheck3_cart h.built
  have hgx0 : 0 < a.gx := by
    obtain ⟨-, -, e2, -⟩ := construct3_ok hT
    rw [← e2]; exact Nat.pos_of_ne_zero (NeZero.ne _)
  obtain ⟨r1, -, r3⟩ := sim3_run h hxr hnu hcfl htol hK hK0 time dbl0 conv0 sc om (fun _ _ _ _ => 0) hxy
  have hinit := initFrom3_holds hT (simCfg3 a xr nu cfl) time dbl0 conv0 sc om fun _ _ _ _ => 0
  intro start out
  have key := fun i hE => run3_dissipates (P := argParams3 a xr nu) (K := K) hd ha (ft := a.flowType) hf
    (div_pos hxr (by exact_mod_cast hgx0)) hnu hcfl htol hφ i ys (fieldsFrom3 (xr / a.gx) sc om fun _ _ _ _ => 0, time) hdt (fun _ _ => rfl) hE
  have e0 : ∀ c p, Valid3 T c → Inner3 T a.g p → start.sc c p = (fieldsFrom3 (xr / a.gx) sc om fun _ _ _ _ => 0).sc (globalIx3 T a.g c p) :=
    fun c p hc hp => hinit.sc c p hc (inArr_of_inner3 hp) (Or.inl hp)
  have e1 : ∀ j c p, Valid3 T c → Inner3 T a.g p → start.om j c p = (fieldsFrom3 (xr / a.gx) sc om fun _ _ _ _ => 0).om j (globalIx3 T a.g c p) :=
    fun j c p hc hp => hinit.om j c p hc (inArr_of_inner3 hp) (Or.inl hp)
  refine ⟨r1, fun hb => ?_, fun j hb => ?_⟩
  · have q := key none ?_
    · rw [innerTotal3_holds hT (F := fun G => φ ((refRun3 a.flowType (argParams3 a xr nu) K cfl tol ys (fieldsFrom3 (xr / a.gx) sc om fun _ _ _ _ => 0, time)).1.sc G))
          (v := fun c p => φ (out.1.sc c p)) (fun c p hc hp => congrArg φ (r3 c p hc hp).1),
        innerTotal3_holds hT (F := fun G => φ ((fieldsFrom3 (xr / a.gx) sc om fun _ _ _ _ => 0).sc G)) (v := fun c p => φ (start.sc c p)) (fun c p hc hp => congrArg φ (e0 c p hc hp))]
      exact q
    · intro G hG hE
      obtain ⟨c', p', hc', hp', rfl⟩ := domain_owned3 hT a.g ((dom3_iff hT G).1 hG)
      exact (e0 c' p' hc' hp').symm.trans (hb c' p' hc' hp' hE)
  · have q := key (some j) ?_
    · rw [innerTotal3_holds hT (F := fun G => φ ((refRun3 a.flowType (argParams3 a xr nu) K cfl tol ys (fieldsFrom3 (xr / a.gx) sc om fun _ _ _ _ => 0, time)).1.om j G))
          (v := fun c p => φ (out.1.om j c p)) (fun c p hc hp => congrArg φ ((r3 c p hc hp).2 j).1),
        innerTotal3_holds hT (F := fun G => φ ((fieldsFrom3 (xr / a.gx) sc om fun _ _ _ _ => 0).om j G)) (v := fun c p => φ (start.om j c p)) (fun c p hc hp => congrArg φ (e1 j c p hc hp))]
      exact q
    · intro G hG hE
      obtain ⟨c', p', hc', hp', rfl⟩ := domain_owned3 hT a.g ((dom3_iff hT G).1 hG)
      exact (e1 j c' p' hc' hp').symm.trans (hb c' p' hc' hp' hE)

/-- **C110 (3D)** Two such runs with the same steps: a component (or the scalar) that starts nowhere above the other run's never gets above it, in any cell of any rank. -/
theorem diffusion3_order {a : SimArgs3} (h : Fit3 a T) (hf : isNS a.flowType = false) {xr : ℝ} (hxr : 0 < xr) {nu : ℝ} (hnu : 0 ≤ nu) {cfl : ℝ} (hcfl : 0 ≤ cfl) {tol : ℝ}
    (htol : 0 < tol) {K : Kern3} (hK : K.Local) (hK0 : ∀ r, K.upd r (fun _ _ => 0) = 0) (hd : SevenPoint K.diff) (ha : ∀ a f, (∀ j d, f (some j) d = 0) → K.adv a f = 0)
    (time : ℝ) (dbl0 : World C3 C3 ℝ) (conv0 : Dbl3 T → ℂ) (sc sc' : ℝ → ℝ → ℝ → ℝ) (om om' : Fin 3 → ℝ → ℝ → ℝ → ℝ) {xs : List StepIn3} {ys : List StepSpec3}
    (hxy : List.Forall₂ (Means3 a.gz a.gy a.gx T (simCfg3 a xr nu cfl)) xs ys) (hdt : ∀ y ∈ ys, SmallStep3 nu (xr / a.gx) y.rule) :
    let start := initFrom3 T a.g xr time dbl0 conv0 sc om fun _ _ _ _ => 0
    let start' := initFrom3 T a.g xr time dbl0 conv0 sc' om' fun _ _ _ _ => 0
    let out := simLoop3 (simCfg3 a xr nu cfl) K tol xs start
    let out' := simLoop3 (simCfg3 a xr nu cfl) K tol xs start'
    out.2 = none ∧ out'.2 = none ∧
    ((∀ c p, Valid3 T c → Inner3 T a.g p → start.sc c p ≤ start'.sc c p) → ∀ c p, Valid3 T c → Inner3 T a.g p → out.1.sc c p ≤ out'.1.sc c p) ∧
    ∀ j, (∀ c p, Valid3 T c → Inner3 T a.g p → start.om j c p ≤ start'.om j c p) → ∀ c p, Valid3 T c → Inner3 T a.g p → out.1.om j c p ≤ out'.1.om j c p := by
  obtain ⟨hT, hft⟩ := simCheck3_cart h.built
  have hgx0 : 0 < a.gx := by
    obtain ⟨-, -, e2, -⟩ := construct3_ok hT
    rw [← e2]; exact Nat.pos_of_ne_zero (NeZero.ne _)
  obtain ⟨r1, -, r3⟩ := sim3_run h hxr hnu hcfl htol hK hK0 time dbl0 conv0 sc om (fun _ _ _ _ => 0) hxy
  obtain ⟨r1', -, r3'⟩ := sim3_run h hxr hnu hcfl htol hK hK0 time dbl0 conv0 sc' om' (fun _ _ _ _ => 0) hxy
  have hinit := initFrom3_holds hT (simCfg3 a xr nu cfl) time dbl0 conv0 sc om fun _ _ _ _ => 0
  have hinit' := initFrom3_holds hT (simCfg3 a xr nu cfl) time dbl0 conv0 sc' om' fun _ _ _ _ => 0
  intro start start' out out'
  have key := fun i hE => run3_order (P := argParams3 a xr nu) (K := K) hd ha (ft := a.flowType) hf
    (div_pos hxr (by exact_mod_cast hgx0)) hnu hcfl htol i ys (fieldsFrom3 (xr / a.gx) sc om fun _ _ _ _ => 0, time) (fieldsFrom3 (xr / a.gx) sc' om' fun _ _ _ _ => 0, time)
    hdt (fun _ _ => rfl) (fun _ _ => rfl) hE
  have e0 : ∀ c p, Valid3 T c → Inner3 T a.g p → start.sc c p = (fieldsFrom3 (xr / a.gx) sc om fun _ _ _ _ => 0).sc (globalIx3 T a.g c p) :=
    fun c p hc hp => hinit.sc c p hc (inArr_of_inner3 hp) (Or.inl hp)
  have e1 : ∀ j c p, Valid3 T c → Inner3 T a.g p → start.om j c p = (fieldsFrom3 (xr / a.gx) sc om fun _ _ _ _ => 0).om j (globalIx3 T a.g c p) :=
    fun j c p hc hp => hinit.om j c p hc (inArr_of_inner3 hp) (Or.inl hp)
  have e0' : ∀ c p, Valid3 T c → Inner3 T a.g p → start'.sc c p = (fieldsFrom3 (xr / a.gx) sc' om' fun _ _ _ _ => 0).sc (globalIx3 T a.g c p) :=
    fun c p hc hp => hinit'.sc c p hc (inArr_of_inner3 hp) (Or.inl hp)
  have e1' : ∀ j c p, Valid3 T c → Inner3 T a.g p → start'.om j c p = (fieldsFrom3 (xr / a.gx) sc' om' fun _ _ _ _ => 0).om j (globalIx3 T a.g c p) :=
    fun j c p hc hp => hinit'.om j c p hc (inArr_of_inner3 hp) (Or.inl hp)
  refine ⟨r1, r1', fun hb c p hc hp => ?_, fun j hb c p hc hp => ?_⟩
  · have hD : Dom3 a.gz a.gy a.gx (globalIx3 T a.g c p) := (dom3_iff hT _).2 (inner_inDomain3 hT hc hp)
    have q := key none ?_ _ hD
    · exact ((show _ = _ from (r3 c p hc hp).1).le.trans q).trans (show _ = _ from (r3' c p hc hp).1).ge
    · intro G hG
      obtain ⟨c', p', hc', hp', rfl⟩ := domain_owned3 hT a.g ((dom3_iff hT G).1 hG)
      exact ((e0 c' p' hc' hp').ge.trans (hb c' p' hc' hp')).trans (e0' c' p' hc' hp').le
  · have hD : Dom3 a.gz a.gy a.gx (globalIx3 T a.g c p) := (dom3_iff hT _).2 (inner_inDomain3 hT hc hp)
    have q := key (some j) ?_ _ hD
    · exact ((show _ = _ from ((r3 c p hc hp).2 j).1).le.trans q).trans (show _ = _ from ((r3' c p hc hp).2 j).1).ge
    · intro G hG
      obtain ⟨c', p', hc', hp', rfl⟩ := domain_owned3 hT a.g ((dom3_iff hT G).1 hG)
      exact ((e1 j c' p' hc' hp').ge.trans (hb c' p' hc' hp')).trans (e1' j c' p' hc' hp').le

end Ranks

/-! ## Examples -/

/-- a scalar in a single cell of a grid of 8 × 8 × 8 cells: zero in the outermost cells, with sum of squares 9 -/
example : ∃ sc : ℝ → ℝ → ℝ → ℝ, (∀ G, Dom3 8 8 8 G → OnEdge3 8 8 8 G → atCentre3 (1 / 8) sc G = 0) ∧ total3 8 8 8 (fun G => (atCentre3 (1 / 8) sc G) ^ 2) = 9 := by
  obtain ⟨sc, h⟩ := atCentre3_surjective (dx := 1 / 8) (by norm_num) fun G => if G = (4, 4, 3) then (3 : ℝ) else 0
  refine ⟨sc, fun G _ hE => ?_, ?_⟩
  · rw [h]
    dsimp only
    rw [if_neg]
    rintro rfl
    exact absurd hE (by unfold OnEdge3; decide)
  · rw [h]
    unfold total3
    rw [Finset.sum_eq_single (4, 4, 3)]
    · norm_num
    · intro G _ hG
      simp [hG]
    · intro h
      exact absurd (by decide) h

/-- a given time step and a stable one that meet the condition, for `ν = 1 / 100` and `dx = 1 / 8` -/
example : SmallStep3 (1 / 100) (1 / 8) (.fixed (1 / 10)) ∧ SmallStep3 (1 / 100) (1 / 8) (.stable (1 / 2)) := by
  constructor <;> constructor <;> norm_num

end Sopht
