import Verif.Conserve2D
import Verif.Restart2D
import Mathlib.Algebra.BigOperators.Finprod

/-!
# Size and place of the grid (C107, 2D)

flow_simulators_mpi_2d.py:258-300 and UnboundedPoissonSolverMPI2D.py: the flow is that of an unbounded fluid, wherever the grid was put.
-/

namespace Sopht

open Finset

/-! ## Specification -/

/-- Kernels that change nothing where the transported field (the forcing) vanishes in the cells they look at. -/
structure Quiet2 (K : Kern2) : Prop where
  diff : ∀ a f, (∀ d, Cross2 1 d → f () d = 0) → K.diff a f = 0
  adv : ∀ a f, (∀ d, Cross2 2 d → f none d = 0) → K.adv a f = 0
  upd : ∀ a f, (∀ j d, Cross2 1 d → f j d = 0) → K.upd a f = 0

/-- The fields `F'` on a grid of `gy'` × `gx'` cells are the fields `F` on a grid of `gy` × `gx` cells moved by `s` cells; the vorticity vanishes closer than `k` cells to the sides,
the velocities agree in the cells which are no outermost cells of either grid. -/
structure Moved2 (gy gx gy' gx' k : ℕ) (s : C2) (F F' : Fields2) : Prop where
  om : ∀ G, F'.om (G + s) = F.om G
  in1 : Within2 gy gx k F.om
  in2 : Within2 gy' gx' k F'.om
  u : ∀ j G, Away2 gy gx 1 G → Away2 gy' gx' 1 (G + s) → F'.u j (G + s) = F.u j G

/-! ## Stencils -/

section Stencils
variable {gy gx gy' gx' : ℕ} {s : C2}

theorem away2_near {k r : ℕ} {G d : C2} (h : Away2 gy gx (k + r) (G + d)) (hd : Cross2 r d) : Away2 gy gx k G := by
  unfold Cross2 at hd
  unfold Away2 at *
  simp only [Prod.fst_add, Prod.snd_add] at h
  push_cast at h
  omega

theorem away2_step {k r : ℕ} {G d : C2} (h : Away2 gy gx (k + r) G) (hd : Cross2 r d) : Away2 gy gx k (G + d) := by
  unfold Cross2 at hd
  unfold Away2 at *
  simp only [Prod.fst_add, Prod.snd_add]
  push_cast at h
  omega

/-- a kernel moves with its fields -/
theorem stencil2_moved {ι : Type} {r m : ℕ} (Z : ι → Prop) {kern : (ι → C2 → ℝ) → ℝ} (hloc : CrossLocal2 r kern)
    (hz : ∀ f, (∀ i, Z i → ∀ d, Cross2 r d → f i d = 0) → kern f = 0) {A A' : ι → C2 → ℝ} (hA : ∀ i, Z i → ∀ G, A' i (G + s) = A i G)
    (in1 : ∀ i, Z i → Within2 gy gx (m + r + r) (A i)) (in2 : ∀ i, Z i → Within2 gy' gx' (m + r + r) (A' i))
    (hB : ∀ i, ¬ Z i → ∀ G, Away2 gy gx m G → Away2 gy' gx' m (G + s) → A' i (G + s) = A i G)
    {e e' : C2 → Prop} [DecidablePred e] [DecidablePred e'] (c1 : ∀ G, Away2 gy gx (m + r) G → e G) (c2 : ∀ G, Away2 gy' gx' (m + r) G → e' G)
    {om om' : C2 → ℝ} (ho : ∀ G, om' (G + s) = om G) (G : C2) :
    (if e' (G + s) then om' (G + s) + kern (fun i d => A' i (G + s + d)) else om' (G + s)) = if e G then om G + kern (fun i d => A i (G + d)) else om G := by
  have sh : ∀ d : C2, G + s + d = G + d + s := fun d => by abel
  by_cases h : ∃ i d, Z i ∧ Cross2 r d ∧ A i (G + d) ≠ 0
  · obtain ⟨i, d, hi, hd, hne⟩ := h
    have a1 : Away2 gy gx (m + r) G := away2_near (by_contra fun hn => hne (in1 i hi _ hn)) hd
    have a2 : Away2 gy' gx' (m + r) (G + s) := by
      refine away2_near (d := d) (by_contra fun hn => hne ?_) hd
      rw [← hA i hi, ← sh]
      exact in2 i hi _ hn
    rw [if_pos (c1 _ a1), if_pos (c2 _ a2), ho]
    congr 1
    apply hloc
    intro i d hd
    rw [sh]
    by_cases hi : Z i
    · exact hA i hi _
    · exact hB i hi _ (away2_step a1 hd) (by rw [← sh]; exact away2_step a2 hd)
  · push Not at h
    have z1 : kern (fun i d => A i (G + d)) = 0 := hz _ fun i hi d hd => h i d hi hd
    have z2 : kern (fun i d => A' i (G + s + d)) = 0 := hz _ fun i hi d hd => by
      rw [sh, hA i hi]
      exact h i d hi hd
    rw [z1, z2, ho]
    simp

/-- a kernel carries a field no farther than its reach -/
theorem stencil2_within {ι : Type} {r k : ℕ} (Z : ι → Prop) {kern : (ι → C2 → ℝ) → ℝ}
    (hz : ∀ f, (∀ i, Z i → ∀ d, Cross2 r d → f i d = 0) → kern f = 0) {A : ι → C2 → ℝ} (in1 : ∀ i, Z i → Within2 gy gx (k + r) (A i))
    {e : C2 → Prop} [DecidablePred e] {om : C2 → ℝ} (ho : Within2 gy gx k om) :
    Within2 gy gx k fun G => if e G then om G + kern (fun i d => A i (G + d)) else om G := by
  intro G hG
  have z1 : kern (fun i d => A i (G + d)) = 0 := hz _ fun i hi d hd => in1 i hi _ fun ha => hG (away2_near ha hd)
  dsimp only
  rw [z1, ho G hG]
  simp

/-- sums move with the fields -/
theorem total2_moved {f f' : C2 → ℝ} (h : ∀ G, f' (G + s) = f G) (h1 : Within2 gy gx 0 f) (h2 : Within2 gy' gx' 0 f') : total2 gy' gx' f' = total2 gy gx f := by
  have key : ∀ {gy gx : ℕ} {f : C2 → ℝ}, Within2 gy gx 0 f → total2 gy gx f = ∑ᶠ G, f G := by
    intro gy gx f h
    unfold total2
    rw [finsum_eq_sum_of_support_subset]
    intro G hG
    simp only [coe_product, coe_Ico, Set.mem_prod, Set.mem_Ico]
    by_contra hn
    refine hG (h G ?_)
    unfold Away2
    simp only [Nat.cast_zero, sub_zero]
    tauto
  rw [key h1, key h2, ← finsum_comp_equiv (Equiv.addRight s)]
  exact finsum_congr fun G => h G

theorem freeSolution2_total (gy gx : ℕ) (dx : ℝ) (F : C2 → ℝ) (G : C2) :
    freeSolution2 gy gx dx F G = total2 gy gx fun H => F H * greens2 dx |G.1 - H.1| |G.2 - H.2| * dx ^ 2 := by
  have ico : ∀ (n : ℕ) (f : ℤ → ℝ), ∑ i ∈ Ico (0 : ℤ) n, f i = ∑ i ∈ range n, f i := by
    intro n f
    symm
    refine Finset.sum_nbij' (fun i : ℕ => (i : ℤ)) Int.toNat ?_ ?_ ?_ ?_ ?_
    · intro i hi; simp at hi ⊢; omega
    · intro i hi; simp at hi ⊢; omega
    · intro i _; simp
    · intro i hi; simp at hi ⊢; omega
    · intro i _; rfl
  unfold freeSolution2 total2
  rw [Finset.sum_product, ico]
  refine Finset.sum_congr rfl fun i _ => ?_
  rw [ico]

/-- the unbounded solve does not know where the grid is -/
theorem freeSolution2_moved {om om' : C2 → ℝ} (h : ∀ G, om' (G + s) = om G) (h1 : Within2 gy gx 0 om) (h2 : Within2 gy' gx' 0 om') (dx : ℝ) (G : C2) :
    freeSolution2 gy' gx' dx om' (G + s) = freeSolution2 gy gx dx om G := by
  rw [freeSolution2_total, freeSolution2_total]
  refine total2_moved (s := s) (fun H => ?_) (fun H hH => ?_) fun H hH => ?_
  · rw [h]
    simp only [Prod.fst_add, Prod.snd_add, add_sub_add_right_eq_sub]
  · rw [h1 H hH]; ring
  · rw [h2 H hH]; ring

end Stencils

/-! ## Steps -/

section Steps
variable {P P' : Params2} {K : Kern2} {s : C2}

/-- what the advection kernel is given: the vorticity and the velocities -/
def advArg2 (F : Fields2) : Option (Fin 2) → C2 → ℝ
  | none => F.om
  | some j => F.u j

theorem adv2_moved (hK : K.Local) (hq : Quiet2 K) (hdx : P'.dx = P.dx) (dt : ℝ) {k : ℕ} (hk : 2 ≤ k) {F F' : Fields2} (h : Moved2 P.gy P.gx P'.gy P'.gx (k + 3) s F F') :
    (∀ G, refAdv2 P' K dt F'.u F'.om (G + s) = refAdv2 P K dt F.u F.om G) ∧ Within2 P.gy P.gx (k + 1) (refAdv2 P K dt F.u F.om) ∧
      Within2 P'.gy P'.gx (k + 1) (refAdv2 P' K dt F'.u F'.om) := by
  obtain ⟨m, rfl⟩ : ∃ m, k = m + 1 := ⟨k - 1, by omega⟩
  have z : ∀ a : ℝ, ∀ f : Option (Fin 2) → C2 → ℝ, (∀ i, i = none → ∀ d, Cross2 2 d → f i d = 0) → K.adv a f = 0 := fun a f hf => hq.adv a f fun d hd => hf none rfl d hd
  have e : ∀ (P : Params2) (F : Fields2), refAdv2 P K dt F.u F.om = fun G => if Dom2 P.gy P.gx G then
      F.om G + K.adv (-(dt / P.dx)) (fun i d => advArg2 F i (G + d)) else F.om G := by
    intro P F
    funext G
    unfold refAdv2
    congr 2
    congr 1
    funext i d
    rcases i with _ | j <;> rfl
  have dom : ∀ {gy gx k : ℕ} {G : C2}, Away2 gy gx k G → Dom2 gy gx G := by
    intro gy gx k G hG
    unfold Away2 at hG
    unfold Dom2
    omega
  rw [e, e, hdx]
  refine ⟨?_, ?_, ?_⟩
  · refine stencil2_moved (gy := P.gy) (gx := P.gx) (gy' := P'.gy) (gx' := P'.gx) (r := 2) (m := m) (· = none) (hK.adv _) (z _) ?_ ?_ ?_ ?_ (fun G hG => dom hG) (fun G hG => dom hG) h.om
    · rintro i rfl; exact h.om
    · rintro i rfl; exact h.in1
    · rintro i rfl; exact h.in2
    · rintro (_ | j) hi G a1 a2
      · exact absurd rfl hi
      · refine h.u j G ?_ ?_
        · unfold Away2 at *; push_cast at *; omega
        · unfold Away2 at *; push_cast at *; omega
  · exact stencil2_within (r := 2) (k := m + 1 + 1) (A := advArg2 F) (· = none) (z _) (by rintro i rfl; exact h.in1) (h.in1.mono (by omega))
  · exact stencil2_within (r := 2) (k := m + 1 + 1) (A := advArg2 F') (· = none) (z _) (by rintro i rfl; exact h.in2) (h.in2.mono (by omega))

theorem diff2_moved (hK : K.Local) (hq : Quiet2 K) (hdx : P'.dx = P.dx) (hnu : P'.nu = P.nu) (dt : ℝ) {k : ℕ} (hk : 1 ≤ k) {om om' : C2 → ℝ} (h : ∀ G, om' (G + s) = om G)
    (h1 : Within2 P.gy P.gx (k + 1) om) (h2 : Within2 P'.gy P'.gx (k + 1) om') :
    (∀ G, refDiff2 P' K dt om' (G + s) = refDiff2 P K dt om G) ∧ Within2 P.gy P.gx k (refDiff2 P K dt om) ∧ Within2 P'.gy P'.gx k (refDiff2 P' K dt om') := by
  obtain ⟨m, rfl⟩ : ∃ m, k = m + 1 := ⟨k - 1, by omega⟩
  have z : ∀ a : ℝ, ∀ f : Unit → C2 → ℝ, (∀ i, True → ∀ d, Cross2 1 d → f i d = 0) → K.diff a f = 0 := fun a f hf => hq.diff a f fun d hd => hf () trivial d hd
  have e : ∀ (P : Params2) (om : C2 → ℝ), refDiff2 P K dt om = fun G => if Dom2 P.gy P.gx G ∧ ¬ OnEdge2 P.gy P.gx G then
      om G + K.diff (P.nu * dt / P.dx / P.dx) (fun i d => (fun (_ : Unit) => om) i (G + d)) else om G := fun _ _ => rfl
  have dom : ∀ {gy gx : ℕ} {G : C2}, Away2 gy gx (m + 1) G → Dom2 gy gx G ∧ ¬ OnEdge2 gy gx G := by
    intro gy gx G hG
    unfold Away2 at hG
    unfold Dom2 OnEdge2
    push_cast at hG
    omega
  rw [e, e, hdx, hnu]
  refine ⟨?_, ?_, ?_⟩
  · exact stencil2_moved (gy := P.gy) (gx := P.gx) (gy' := P'.gy) (gx' := P'.gx) (r := 1) (m := m) (fun _ => True) (hK.diff _) (z _) (fun _ _ => h) (fun _ _ => h1) (fun _ _ => h2)
      (fun _ hi => absurd trivial hi) (fun G hG => dom hG) (fun G hG => dom hG) h
  · exact stencil2_within (r := 1) (fun _ => True) (z _) (fun _ _ => h1) (h1.mono (by omega))
  · exact stencil2_within (r := 1) (fun _ => True) (z _) (fun _ _ => h2) (h2.mono (by omega))

theorem force2_moved (hK : K.Local) (hq : Quiet2 K) (hdx : P'.dx = P.dx) (dt : ℝ) {k : ℕ} (hk : 1 ≤ k) {om om' : C2 → ℝ} (h : ∀ G, om' (G + s) = om G)
    (h1 : Within2 P.gy P.gx k om) (h2 : Within2 P'.gy P'.gx k om') {Φ Φ' : Fin 2 → C2 → ℝ} (hΦ : ∀ j G, Φ' j (G + s) = Φ j G) (hΦ1 : ∀ j, Within2 P.gy P.gx (k + 1) (Φ j))
    (hΦ2 : ∀ j, Within2 P'.gy P'.gx (k + 1) (Φ' j)) :
    (∀ G, refForce2 P' K dt Φ' om' (G + s) = refForce2 P K dt Φ om G) ∧ Within2 P.gy P.gx k (refForce2 P K dt Φ om) ∧ Within2 P'.gy P'.gx k (refForce2 P' K dt Φ' om') := by
  obtain ⟨m, rfl⟩ : ∃ m, k = m + 1 := ⟨k - 1, by omega⟩
  have z : ∀ a : ℝ, ∀ f : Fin 2 → C2 → ℝ, (∀ i, True → ∀ d, Cross2 1 d → f i d = 0) → K.upd a f = 0 := fun a f hf => hq.upd a f fun j d hd => hf j trivial d hd
  have e : ∀ (P : Params2) (Φ : Fin 2 → C2 → ℝ) (om : C2 → ℝ), refForce2 P K dt Φ om = fun G => if Dom2 P.gy P.gx G then
      om G + K.upd (dt / (2 * P.dx)) (fun i d => Φ i (G + d)) else om G := fun _ _ _ => rfl
  have dom : ∀ {gy gx k : ℕ} {G : C2}, Away2 gy gx k G → Dom2 gy gx G := by
    intro gy gx k G hG
    unfold Away2 at hG
    unfold Dom2
    omega
  rw [e, e, hdx]
  refine ⟨?_, ?_, ?_⟩
  · exact stencil2_moved (gy := P.gy) (gx := P.gx) (gy' := P'.gy) (gx' := P'.gx) (r := 1) (m := m) (fun _ => True) (hK.upd _) (z _) (fun i _ => hΦ i) (fun i _ => hΦ1 i) (fun i _ => hΦ2 i)
      (fun _ hi => absurd trivial hi) (fun G hG => dom hG) (fun G hG => dom hG) h
  · exact stencil2_within (r := 1) (fun _ => True) (z _) (fun i _ => hΦ1 i) h1
  · exact stencil2_within (r := 1) (fun _ => True) (z _) (fun i _ => hΦ2 i) h2

theorem ns2_moved (hK : K.Local) (hq : Quiet2 K) (hdx : P'.dx = P.dx) (hnu : P'.nu = P.nu) (hfs : P'.freeStream = P.freeStream) (dt : ℝ) (fs : Fin 2 → ℝ) {k : ℕ} (hk : 2 ≤ k)
    (hw : P.w ≤ k) (hw' : P'.w ≤ k) {F F' : Fields2} (h : Moved2 P.gy P.gx P'.gy P'.gx (k + 3) s F F') :
    Moved2 P.gy P.gx P'.gy P'.gx k s (refNS2 P K dt fs F) (refNS2 P' K dt fs F') := by
  obtain ⟨a1, a2, a3⟩ := adv2_moved hK hq hdx dt hk h
  obtain ⟨d1, d2, d3⟩ := diff2_moved hK hq hdx hnu dt (by omega) a1 a2 a3
  have o1 : (refNS2 P K dt fs F).om = refDiff2 P K dt (refAdv2 P K dt F.u F.om) := pen2_within (d2.mono hw)
  have o2 : (refNS2 P' K dt fs F').om = refDiff2 P' K dt (refAdv2 P' K dt F'.u F'.om) := pen2_within (d3.mono hw')
  refine ⟨by rw [o1, o2]; exact d1, by rw [o1]; exact d2, by rw [o2]; exact d3, ?_⟩
  have away : ∀ {gy gx : ℕ} {G : C2}, Away2 gy gx 1 G → Dom2 gy gx G ∧ ¬ OnEdge2 gy gx G := by
    intro gy gx G hG
    unfold Away2 at hG
    unfold Dom2 OnEdge2
    push_cast at hG
    omega
  have hv : ∀ G, Away2 P.gy P.gx 1 G → Away2 P'.gy P'.gx 1 (G + s) → refVel2 P' K (refNS2 P' K dt fs F').om (G + s) = refVel2 P K (refNS2 P K dt fs F).om G := by
    intro G g1 g2
    rw [o1, o2]
    unfold refVel2
    rw [if_pos (away g1), if_pos (away g2), hdx]
    apply hK.curl
    intro _ d _
    have := freeSolution2_moved d1 (d2.mono (Nat.zero_le _)) (d3.mono (Nat.zero_le _)) P.dx (G + d)
    rw [show G + d + s = G + s + d by abel] at this
    exact this
  intro j G g1 g2
  have hv := hv G g1 g2
  have hu : ∀ (P : Params2) (F : Fields2) (G : C2), (refNS2 P K dt fs F).u j G =
      if P.freeStream then ![(refVel2 P K (refNS2 P K dt fs F).om G).1, (refVel2 P K (refNS2 P K dt fs F).om G).2] j + fs j else ![(refVel2 P K (refNS2 P K dt fs F).om G).1, (refVel2 P K (refNS2 P K dt fs F).om G).2] j := by
    intro P F G
    unfold refNS2 refFree2
    match j with
    | 0 => rfl
    | 1 => rfl
  rw [hu, hu, hv, hfs]

theorem step2_moved (hK : K.Local) (hq : Quiet2 K) (ft : String) (hdx : P'.dx = P.dx) (hnu : P'.nu = P.nu) (hfs : P'.freeStream = P.freeStream) (dt : ℝ) (fs : Fin 2 → ℝ) {k : ℕ} (hk : 2 ≤ k)
    (hw : P.w ≤ k) (hw' : P'.w ≤ k) {Φ Φ' : Fin 2 → C2 → ℝ} (hΦ : ∀ j G, Φ' j (G + s) = Φ j G) (hΦ1 : ∀ j, Within2 P.gy P.gx (k + 3 + 1) (Φ j))
    (hΦ2 : ∀ j, Within2 P'.gy P'.gx (k + 3 + 1) (Φ' j)) {F F' : Fields2} (h : Moved2 P.gy P.gx P'.gy P'.gx (k + 3) s F F') :
    Moved2 P.gy P.gx P'.gy P'.gx k s (refStep2 ft P K dt fs Φ F) (refStep2 ft P' K dt fs Φ' F') := by
  unfold refStep2
  split_ifs
  · exact ns2_moved hK hq hdx hnu hfs dt fs hk hw hw' h
  · obtain ⟨f1, f2, f3⟩ := force2_moved (P := P) (P' := P') hK hq hdx dt (by omega) h.om h.in1 h.in2 hΦ hΦ1 hΦ2
    exact ns2_moved hK hq hdx hnu hfs dt fs hk hw hw' ⟨f1, f2, f3, h.u⟩
  · obtain ⟨a1, a2, a3⟩ := adv2_moved hK hq hdx dt hk h
    obtain ⟨d1, d2, d3⟩ := diff2_moved hK hq hdx hnu dt (by omega) a1 a2 a3
    exact ⟨d1, d2, d3, h.u⟩

/-- any number of steps -/
theorem run2_moved (hK : K.Local) (hq : Quiet2 K) (ft : String) (hdx : P'.dx = P.dx) (hnu : P'.nu = P.nu) (hfs : P'.freeStream = P.freeStream) (cfl tol : ℝ) {k : ℕ} (hk : 2 ≤ k)
    (hw : P.w ≤ k) (hw' : P'.w ≤ k) {ys ys' : List StepSpec2} {s0 s0' : Fields2 × ℝ}
    (hys : List.Forall₂ (fun y y' => y'.fs = y.fs ∧ ∀ j G, y'.Φ j (G + s) = y.Φ j G) ys ys')
    (hΦ1 : ∀ y ∈ ys, ∀ j, Within2 P.gy P.gx (k + 3 * ys.length + 1) (y.Φ j)) (hΦ2 : ∀ y ∈ ys', ∀ j, Within2 P'.gy P'.gx (k + 3 * ys.length + 1) (y.Φ j))
    (hdt : ∀ n, (refRun2 ft P K cfl tol (ys.take n) s0).2 - s0.2 = (refRun2 ft P' K cfl tol (ys'.take n) s0').2 - s0'.2)
    (h : Moved2 P.gy P.gx P'.gy P'.gx (k + 3 * ys.length) s s0.1 s0'.1) : ∀ n, n ≤ ys.length →
    Moved2 P.gy P.gx P'.gy P'.gx (k + 3 * (ys.length - n)) s (refRun2 ft P K cfl tol (ys.take n) s0).1 (refRun2 ft P' K cfl tol (ys'.take n) s0').1
  | 0, _ => by simpa [refRun2] using h
  | n + 1, hn => by
    have hlen := hys.length_eq
    have ih := run2_moved hK hq ft hdx hnu hfs cfl tol hk hw hw' hys hΦ1 hΦ2 hdt h n (by omega)
    have t1 : ys.take (n + 1) = ys.take n ++ [ys[n]'(by omega)] := by simp
    have t2 : ys'.take (n + 1) = ys'.take n ++ [ys'[n]'(by omega)] := by simp
    have m1 : ys[n]'(by omega) ∈ ys := List.getElem_mem _
    have m2 : ys'[n]'(by omega) ∈ ys' := List.getElem_mem _
    have hy : (ys'[n]'(by omega)).fs = (ys[n]'(by omega)).fs ∧ ∀ j G, (ys'[n]'(by omega)).Φ j (G + s) = (ys[n]'(by omega)).Φ j G := hys.get _ _
    have dn := hdt n
    have dn1 := hdt (n + 1)
    rw [t1, t2] at dn1 ⊢
    rw [refRun2_append, refRun2_append] at dn1 ⊢
    generalize refRun2 ft P K cfl tol (ys.take n) s0 = r at ih dn dn1 ⊢
    generalize refRun2 ft P' K cfl tol (ys'.take n) s0' = r' at ih dn dn1 ⊢
    generalize ys[n]'(by omega) = y at m1 hy dn1 ⊢
    generalize ys'[n]'(by omega) = y' at m2 hy dn1 ⊢
    simp only [refRun2] at dn1 ⊢
    have e : refDt2 P' cfl tol r'.1 y'.rule = refDt2 P cfl tol r.1 y.rule := by linarith
    rw [e, hy.1]
    have hN : ys.length - n = (ys.length - (n + 1)) + 1 := by omega
    rw [hN, Nat.mul_succ] at ih
    exact step2_moved hK hq ft hdx hnu hfs _ _ (by omega) (by omega) (by omega) hy.2 (fun j => (hΦ1 y m1 j).mono (by omega)) (fun j => (hΦ2 y' m2 j).mono (by omega)) ih

end Steps

/-! ## On the ranks -/

theorem refRun2_fixed_time {ft : String} {P : Params2} {K : Kern2} {cfl tol : ℝ} : ∀ {ys : List StepSpec2} {dts : List ℝ} {s0 : Fields2 × ℝ},
    ys.map StepSpec2.rule = dts.map DtRule.fixed → (refRun2 ft P K cfl tol ys s0).2 = s0.2 + dts.sum
  | [], [], _, _ => by simp [refRun2]
  | [], _ :: _, _, h => by simp at h
  | _ :: _, [], _, h => by simp at h
  | y :: ys, dt :: dts, s0, h => by
    simp only [List.map_cons, List.cons.injEq] at h
    rw [refRun2, refRun2_fixed_time h.2, h.1, List.sum_cons]
    simp only [refDt2]
    ring

section Ranks
variable {T T' : Cart2} [NeZero T.gy] [NeZero T.gx] [NeZero T'.gy] [NeZero T'.gx]

/-- C107: two simulations with the same grid spacing, viscosity, flow type and free stream on grids of possibly different sizes, decompositions and penalty zones, the second started from
the fields of the first moved by `s` cells and driven with the forcings moved by `s` cells; the vorticity (the scalar) and the forcings of the run stay inside both grids and the time advances alike. Then after the
run the vorticity of the second is that of the first moved by `s` cells and zero in the other cells, and the velocities agree in the cells which are outermost in neither grid. -/
theorem sim2_placement {a a' : SimArgs2} (h : Fit2 a T) (h' : Fit2 a' T') (hft : a'.flowType = a.flowType) (hfs : a'.freeStream = a.freeStream)
    {xr xr' : ℝ} (hxr : 0 < xr) (hxr' : 0 < xr') (hdx : xr' / a'.gx = xr / a.gx) (nu : ℝ) {cfl : ℝ} (hcfl : 0 ≤ cfl) {tol : ℝ} (htol : 0 < tol)
    {K : Kern2} (hK : K.Local) (hK0 : ∀ r, K.upd r (fun _ _ => 0) = 0) (hq : Quiet2 K)
    (time time' : ℝ) (dbl0 dbl0' : World C2 C2 ℝ) (conv0 : Dbl2 T → ℂ) (conv0' : Dbl2 T' → ℂ) (om om' : ℝ → ℝ → ℝ) (u u' : Fin 2 → ℝ → ℝ → ℝ)
    {xs xs' : List StepIn2} {ys ys' : List StepSpec2} (hxy : List.Forall₂ (Means2 a.gy a.gx T (simCfg2 a T xr nu cfl)) xs ys)
    (hxy' : List.Forall₂ (Means2 a'.gy a'.gx T' (simCfg2 a' T' xr' nu cfl)) xs' ys')
    (s : C2) (k : ℕ) (hk : 2 ≤ k) (hw : widthOf a.width ≤ k) (hw' : widthOf a'.width ≤ k)
    (hom : ∀ x y, om' (x + s.2 * (xr / a.gx)) (y + s.1 * (xr / a.gx)) = om x y) (hu : ∀ j x y, u' j (x + s.2 * (xr / a.gx)) (y + s.1 * (xr / a.gx)) = u j x y)
    (hys : List.Forall₂ (fun y y' => y'.fs = y.fs ∧ ∀ j G, y'.Φ j (G + s) = y.Φ j G) ys ys')
    (in1 : Within2 a.gy a.gx (k + 3 * xs.length) (fieldsFrom2 (xr / a.gx) om u).om)
    (in2 : Within2 a'.gy a'.gx (k + 3 * xs.length) (fieldsFrom2 (xr / a.gx) om' u').om)
    (hΦ1 : ∀ y ∈ ys, ∀ j, Within2 a.gy a.gx (k + 3 * xs.length + 1) (y.Φ j)) (hΦ2 : ∀ y ∈ ys', ∀ j, Within2 a'.gy a'.gx (k + 3 * xs.length + 1) (y.Φ j))
    (hdt : ∀ n, (simLoop2 (simCfg2 a T xr nu cfl) K tol (xs.take n) (initFrom2 T a.g xr time dbl0 conv0 om u)).1.time - time =
      (simLoop2 (simCfg2 a' T' xr' nu cfl) K tol (xs'.take n) (initFrom2 T' a'.g xr' time' dbl0' conv0' om' u')).1.time - time') :
    let out := simLoop2 (simCfg2 a T xr nu cfl) K tol xs (initFrom2 T a.g xr time dbl0 conv0 om u)
    let out' := simLoop2 (simCfg2 a' T' xr' nu cfl) K tol xs' (initFrom2 T' a'.g xr' time' dbl0' conv0' om' u')
    out.2 = none ∧ out'.2 = none ∧
    (∀ c p c' p', Valid2 T c → Inner2 T ((2 : ℕ) : ℤ) p → Valid2 T' c' → Inner2 T' ((2 : ℕ) : ℤ) p' → globalIx2 T' ((2 : ℕ) : ℤ) c' p' = globalIx2 T ((2 : ℕ) : ℤ) c p + s →
      out'.1.prim c' p' = out.1.prim c p ∧
        (Away2 a.gy a.gx 1 (globalIx2 T ((2 : ℕ) : ℤ) c p) → Away2 a'.gy a'.gx 1 (globalIx2 T' ((2 : ℕ) : ℤ) c' p') → ∀ j, out'.1.vel j c' p' = out.1.vel j c p)) ∧
    (∀ c' p', Valid2 T' c' → Inner2 T' ((2 : ℕ) : ℤ) p' → ¬ Dom2 a.gy a.gx (globalIx2 T' ((2 : ℕ) : ℤ) c' p' - s) → out'.1.prim c' p' = 0) ∧
    (∀ c p, Valid2 T c → Inner2 T ((2 : ℕ) : ℤ) p → ¬ Dom2 a'.gy a'.gx (globalIx2 T ((2 : ℕ) : ℤ) c p + s) → out.1.prim c p = 0) := by
  have hlen : xs.length = ys.length := hxy.length_eq
  have hpre : ∀ n, (refRun2 a.flowType ⟨a.gy, a.gx, xr, nu, widthOf a.width, a.freeStream⟩ K cfl tol (ys.take n) (fieldsFrom2 (xr / a.gx) om u, time)).2 - time =
      (refRun2 a.flowType ⟨a'.gy, a'.gx, xr', nu, widthOf a'.width, a'.freeStream⟩ K cfl tol (ys'.take n) (fieldsFrom2 (xr / a.gx) om' u', time')).2 - time' := by
    intro n
    have r := (sim2_run h hxr nu hcfl htol hK hK0 time dbl0 conv0 om u (List.forall₂_take n hxy)).2.1
    have r' := (sim2_run h' hxr' nu hcfl htol hK hK0 time' dbl0' conv0' om' u' (List.forall₂_take n hxy')).2.1
    have q := hdt n
    rw [hft, hdx] at r'
    rw [← r, ← r']
    exact q
  have start : Moved2 a.gy a.gx a'.gy a'.gx (k + 3 * ys.length) s (fieldsFrom2 (xr / a.gx) om u) (fieldsFrom2 (xr / a.gx) om' u') := by
    refine ⟨fun G => ?_, hlen ▸ in1, hlen ▸ in2, fun j G _ _ => ?_⟩
    · simp only [fieldsFrom2, Prod.fst_add, Prod.snd_add]
      rw [← hom]
      push_cast
      congr 1 <;> ring
    · simp only [fieldsFrom2, Prod.fst_add, Prod.snd_add]
      rw [← hu]
      push_cast
      congr 1 <;> ring
  have fin := run2_moved (P := ⟨a.gy, a.gx, xr, nu, widthOf a.width, a.freeStream⟩) (P' := ⟨a'.gy, a'.gx, xr', nu, widthOf a'.width, a'.freeStream⟩)
    (s0 := (fieldsFrom2 (xr / a.gx) om u, time)) (s0' := (fieldsFrom2 (xr / a.gx) om' u', time'))
    hK hq a.flowType hdx rfl hfs cfl tol hk hw hw' hys (hlen ▸ hΦ1) (hlen ▸ hΦ2) hpre start ys.length le_rfl
  rw [List.take_length, List.take_of_length_le (by rw [hys.length_eq])] at fin
  obtain ⟨r1, r2, r3⟩ := sim2_run h hxr nu hcfl htol hK hK0 time dbl0 conv0 om u hxy
  obtain ⟨q1, q2, q3⟩ := sim2_run h' hxr' nu hcfl htol hK hK0 time' dbl0' conv0' om' u' hxy'
  rw [hft, hdx] at q3
  have out0 : ∀ {gy gx k : ℕ} {G : C2}, ¬ Dom2 gy gx G → ¬ Away2 gy gx k G := by
    intro gy gx k G hG
    unfold Dom2 at hG
    unfold Away2
    omega
  intro out out'
  refine ⟨r1, q1, ?_, ?_, ?_⟩
  · intro c p c' p' hc hp hc' hp' hG
    obtain ⟨e1, e2⟩ := r3 c p hc hp
    obtain ⟨f1, f2⟩ := q3 c' p' hc' hp'
    refine ⟨?_, fun g1 g2 j => ?_⟩
    · rw [e1, f1, hG]
      exact fin.om _
    · rw [e2, f2, hG]
      rw [hG] at g2
      exact fin.u j _ g1 g2
  · intro c' p' hc' hp' hn
    rw [(q3 c' p' hc' hp').1]
    have q := fin.om (globalIx2 T' ((2 : ℕ) : ℤ) c' p' - s)
    rw [sub_add_cancel] at q
    rw [q]
    exact fin.in1 _ (out0 hn)
  · intro c p hc hp hn
    rw [(r3 c p hc hp).1]
    have q := fin.om (globalIx2 T ((2 : ℕ) : ℤ) c p)
    rw [← q]
    exact fin.in2 _ (out0 hn)

/-- C107: with given time steps the time advances alike of itself. -/
theorem sim2_placement_fixed {a a' : SimArgs2} (h : Fit2 a T) (h' : Fit2 a' T') (hft : a'.flowType = a.flowType) (hfs : a'.freeStream = a.freeStream)
    {xr xr' : ℝ} (hxr : 0 < xr) (hxr' : 0 < xr') (hdx : xr' / a'.gx = xr / a.gx) (nu : ℝ) {cfl : ℝ} (hcfl : 0 ≤ cfl) {tol : ℝ} (htol : 0 < tol)
    {K : Kern2} (hK : K.Local) (hK0 : ∀ r, K.upd r (fun _ _ => 0) = 0) (hq : Quiet2 K)
    (time time' : ℝ) (dbl0 dbl0' : World C2 C2 ℝ) (conv0 : Dbl2 T → ℂ) (conv0' : Dbl2 T' → ℂ) (om om' : ℝ → ℝ → ℝ) (u u' : Fin 2 → ℝ → ℝ → ℝ)
    {xs xs' : List StepIn2} {ys ys' : List StepSpec2} (hxy : List.Forall₂ (Means2 a.gy a.gx T (simCfg2 a T xr nu cfl)) xs ys)
    (hxy' : List.Forall₂ (Means2 a'.gy a'.gx T' (simCfg2 a' T' xr' nu cfl)) xs' ys')
    {dts : List ℝ} (hd : xs.map StepIn2.rule = dts.map DtRule.fixed) (hd' : xs'.map StepIn2.rule = dts.map DtRule.fixed)
    (s : C2) (k : ℕ) (hk : 2 ≤ k) (hw : widthOf a.width ≤ k) (hw' : widthOf a'.width ≤ k)
    (hom : ∀ x y, om' (x + s.2 * (xr / a.gx)) (y + s.1 * (xr / a.gx)) = om x y) (hu : ∀ j x y, u' j (x + s.2 * (xr / a.gx)) (y + s.1 * (xr / a.gx)) = u j x y)
    (hys : List.Forall₂ (fun y y' => y'.fs = y.fs ∧ ∀ j G, y'.Φ j (G + s) = y.Φ j G) ys ys')
    (in1 : Within2 a.gy a.gx (k + 3 * xs.length) (fieldsFrom2 (xr / a.gx) om u).om)
    (in2 : Within2 a'.gy a'.gx (k + 3 * xs.length) (fieldsFrom2 (xr / a.gx) om' u').om)
    (hΦ1 : ∀ y ∈ ys, ∀ j, Within2 a.gy a.gx (k + 3 * xs.length + 1) (y.Φ j)) (hΦ2 : ∀ y ∈ ys', ∀ j, Within2 a'.gy a'.gx (k + 3 * xs.length + 1) (y.Φ j)) :
    let out := simLoop2 (simCfg2 a T xr nu cfl) K tol xs (initFrom2 T a.g xr time dbl0 conv0 om u)
    let out' := simLoop2 (simCfg2 a' T' xr' nu cfl) K tol xs' (initFrom2 T' a'.g xr' time' dbl0' conv0' om' u')
    out.2 = none ∧ out'.2 = none ∧ out.1.time - time = out'.1.time - time' ∧
    (∀ c p c' p', Valid2 T c → Inner2 T ((2 : ℕ) : ℤ) p → Valid2 T' c' → Inner2 T' ((2 : ℕ) : ℤ) p' → globalIx2 T' ((2 : ℕ) : ℤ) c' p' = globalIx2 T ((2 : ℕ) : ℤ) c p + s →
      out'.1.prim c' p' = out.1.prim c p ∧
        (Away2 a.gy a.gx 1 (globalIx2 T ((2 : ℕ) : ℤ) c p) → Away2 a'.gy a'.gx 1 (globalIx2 T' ((2 : ℕ) : ℤ) c' p') → ∀ j, out'.1.vel j c' p' = out.1.vel j c p)) ∧
    (∀ c' p', Valid2 T' c' → Inner2 T' ((2 : ℕ) : ℤ) p' → ¬ Dom2 a.gy a.gx (globalIx2 T' ((2 : ℕ) : ℤ) c' p' - s) → out'.1.prim c' p' = 0) ∧
    (∀ c p, Valid2 T c → Inner2 T ((2 : ℕ) : ℤ) p → ¬ Dom2 a'.gy a'.gx (globalIx2 T ((2 : ℕ) : ℤ) c p + s) → out.1.prim c p = 0) := by
  have rules : ∀ {T : Cart2} {gy gx : ℕ} {C : Cfg2} {xs : List StepIn2} {ys : List StepSpec2}, List.Forall₂ (Means2 gy gx T C) xs ys → ys.map StepSpec2.rule = xs.map StepIn2.rule := by
    intro T gy gx C xs ys hxy
    induction hxy with
    | nil => rfl
    | cons h _ ih => rw [List.map_cons, List.map_cons, ih, h.rule]
  have hdt : ∀ n, (simLoop2 (simCfg2 a T xr nu cfl) K tol (xs.take n) (initFrom2 T a.g xr time dbl0 conv0 om u)).1.time - time =
      (simLoop2 (simCfg2 a' T' xr' nu cfl) K tol (xs'.take n) (initFrom2 T' a'.g xr' time' dbl0' conv0' om' u')).1.time - time' := by
    intro n
    rw [(sim2_run h hxr nu hcfl htol hK hK0 time dbl0 conv0 om u (List.forall₂_take n hxy)).2.1, (sim2_run h' hxr' nu hcfl htol hK hK0 time' dbl0' conv0' om' u' (List.forall₂_take n hxy')).2.1,
      refRun2_fixed_time (dts := dts.take n) (by rw [List.map_take, rules hxy, hd, List.map_take]),
      refRun2_fixed_time (dts := dts.take n) (by rw [List.map_take, rules hxy', hd', List.map_take])]
    ring
  obtain ⟨r1, r2, r3, r4, r5⟩ := sim2_placement h h' hft hfs hxr hxr' hdx nu hcfl htol hK hK0 hq time time' dbl0 dbl0' conv0 conv0' om om' u u' hxy hxy' s k hk hw hw' hom hu hys in1 in2 hΦ1 hΦ2 hdt
  refine ⟨r1, r2, ?_, r3, r4, r5⟩
  have q := hdt (max xs.length xs'.length)
  rwa [List.take_of_length_le (le_max_left _ _), List.take_of_length_le (le_max_right _ _)] at q

end Ranks

/-! ## The assumptions hold -/

/-- the kernels of `sopht` change nothing where the carried field vanishes -/
theorem exKern2_quiet : Quiet2 exKern2 := by
  constructor
  · intro a f h
    simp only [exKern2]
    repeat rw [h _ (by simp [Cross2])]
    ring
  · intro a f h
    simp only [exKern2]
    repeat rw [h _ (by simp [Cross2])]
    simp [upwind3]
  · intro a f h
    simp only [exKern2]
    repeat rw [h _ _ (by simp [Cross2])]
    ring

/-- A simulation of one step on 16 × 16 cells with two ranks and penalty zones of two cells, and one on 24 × 32 cells with four ranks and penalty zones of four cells, the fluid moved by 3 and 7 cells:
all the assumptions are met by a vorticity that is not zero. -/
example : ∃ om om' : ℝ → ℝ → ℝ, Fit2 ⟨16, 16, 1, 2, "navier_stokes", true, 2, .int 2⟩ ⟨16, 16, 1, 2, 16, 8, false⟩ ∧
    Fit2 ⟨24, 32, 1, 4, "navier_stokes", true, 2, .int 4⟩ ⟨24, 32, 1, 4, 24, 8, false⟩ ∧ (2 : ℝ) / (32 : ℕ) = 1 / (16 : ℕ) ∧ widthOf (.int 2) ≤ 4 ∧ widthOf (.int 4) ≤ 4 ∧
    (∀ x y, om' (x + (7 : ℤ) * (1 / (16 : ℕ))) (y + (3 : ℤ) * (1 / (16 : ℕ))) = om x y) ∧
    Within2 16 16 (4 + 3 * 1) (fieldsFrom2 (1 / (16 : ℕ)) om fun _ _ _ => 0).om ∧ Within2 24 32 (4 + 3 * 1) (fieldsFrom2 (1 / (16 : ℕ)) om' fun _ _ _ => 0).om ∧
    (fieldsFrom2 (1 / (16 : ℕ)) om fun _ _ _ => 0).om (8, 8) = 1 ∧ (fieldsFrom2 (1 / (16 : ℕ)) om' fun _ _ _ => 0).om (11, 15) = 1 := by
  have hn : ∀ n : ℤ, ((n : ℝ) + 1 / 2) * (1 / (16 : ℕ)) = 17 / 32 ↔ n = 8 := by
    intro n
    constructor
    · intro h
      have : (n : ℝ) = 8 := by push_cast at h; linarith
      exact_mod_cast this
    · rintro rfl
      norm_num
  have hx : ∀ n : ℤ, ((n : ℝ) + 1 / 2) * (1 / (16 : ℕ)) - 7 / 16 = 17 / 32 ↔ n = 15 := by
    intro n
    constructor
    · intro h
      have : (n : ℝ) = 15 := by push_cast at h; linarith
      exact_mod_cast this
    · rintro rfl
      norm_num
  have hy : ∀ n : ℤ, ((n : ℝ) + 1 / 2) * (1 / (16 : ℕ)) - 3 / 16 = 17 / 32 ↔ n = 11 := by
    intro n
    constructor
    · intro h
      have : (n : ℝ) = 11 := by push_cast at h; linarith
      exact_mod_cast this
    · rintro rfl
      norm_num
  refine ⟨fun x y => if x = 17 / 32 ∧ y = 17 / 32 then 1 else 0, fun x y => if x - 7 / 16 = 17 / 32 ∧ y - 3 / 16 = 17 / 32 then 1 else 0,
    ⟨by decide, ⟨by decide, fun _ => ⟨by decide, 2, rfl⟩⟩, rfl, by decide, by decide, by decide, by decide⟩,
    ⟨by decide, ⟨by decide, fun _ => ⟨by decide, 4, rfl⟩⟩, rfl, by decide, by decide, by decide, by decide⟩, by norm_num, by decide, by decide, ?_, ?_, ?_, ?_, ?_⟩
  · intro x y
    dsimp only
    refine if_congr ?_ rfl rfl
    push_cast
    constructor <;> rintro ⟨h1, h2⟩ <;> constructor <;> linarith
  · intro G hG
    simp only [fieldsFrom2]
    rw [if_neg]
    rintro ⟨h1, h2⟩
    rw [hn] at h1 h2
    exact hG (by unfold Away2; rw [h1, h2]; decide)
  · intro G hG
    simp only [fieldsFrom2]
    rw [if_neg]
    rintro ⟨h1, h2⟩
    rw [hx] at h1
    rw [hy] at h2
    exact hG (by unfold Away2; rw [h1, h2]; decide)
  · simp only [fieldsFrom2]
    exact if_pos ⟨(hn 8).2 rfl, (hn 8).2 rfl⟩
  · simp only [fieldsFrom2]
    exact if_pos ⟨(hx 15).2 rfl, (hy 11).2 rfl⟩

end Sopht
