import Verif.Conserve3DProps
import Verif.Restart3D
import Verif.Placement2D

/-!
# Size and place of the grid (C107, 3D)

flow_simulators_mpi_3d.py:330-480 and UnboundedPoissonSolverMPI3D.py: the flow is that of an unbounded fluid, wherever the grid was put.
-/

namespace Sopht

open Finset

/-! ## Specification -/

/-- Kernels that change nothing where the transported field (the forcing, the field whose curl is taken) vanishes in the cells they look at. -/
structure Quiet3 (K : Kern3) : Prop where
  diff : ∀ a f, (∀ d, Cross3 1 d → f () d = 0) → K.diff a f = 0
  adv : ∀ a f, (∀ d, Cross3 2 d → f none d = 0) → K.adv a f = 0
  upd : ∀ a f, (∀ j d, Cross3 1 d → f j d = 0) → K.upd a f = 0

/-- The fields `F'` on a grid of `gz'` × `gy'` × `gx'` cells are the fields `F` on a grid of `gz` × `gy` × `gx` cells moved by `s` cells; scalar and vorticity vanish closer than `k` cells to the
sides, the velocities agree in the cells which are no outermost cells of either grid. -/
structure Moved3 (gz gy gx gz' gy' gx' k : ℕ) (s : C3) (F F' : Fields3) : Prop where
  sc : ∀ G, F'.sc (G + s) = F.sc G
  om : ∀ j G, F'.om j (G + s) = F.om j G
  sc1 : Within3 gz gy gx k F.sc
  sc2 : Within3 gz' gy' gx' k F'.sc
  in1 : ∀ j, Within3 gz gy gx k (F.om j)
  in2 : ∀ j, Within3 gz' gy' gx' k (F'.om j)
  u : ∀ j G, Away3 gz gy gx 1 G → Away3 gz' gy' gx' 1 (G + s) → F'.u j (G + s) = F.u j G

/-! ## Stencils -/

theorem Within3.mono {gz gy gx k l : ℕ} {f : C3 → ℝ} (h : Within3 gz gy gx k f) (hl : l ≤ k) : Within3 gz gy gx l f :=
  within3_sup.2 ((within3_sup.1 h).mono (by simp only; omega) (by simp only; omega) (by simp only; omega))

section Stencils
variable {gz gy gx gz' gy' gx' : ℕ} {s : C3}

theorem away3_near {k r : ℕ} {G d : C3} (h : Away3 gz gy gx (k + r) (G + d)) (hd : Cross3 r d) : Away3 gz gy gx k G := by
  unfold Cross3 at hd
  unfold Away3 at *
  simp only [Prod.fst_add, Prod.snd_add] at h
  push_cast at h
  omega

theorem away3_step {k r : ℕ} {G d : C3} (h : Away3 gz gy gx (k + r) G) (hd : Cross3 r d) : Away3 gz gy gx k (G + d) := by
  unfold Cross3 at hd
  unfold Away3 at *
  simp only [Prod.fst_add, Prod.snd_add]
  push_cast at h
  omega

/-- a kernel moves with its fields -/
theorem stencil3_moved {ι : Type} {r m : ℕ} (Z : ι → Prop) {kern : (ι → C3 → ℝ) → ℝ} (hloc : CrossLocal3 r kern)
    (hz : ∀ f, (∀ i, Z i → ∀ d, Cross3 r d → f i d = 0) → kern f = 0) {A A' : ι → C3 → ℝ} (hA : ∀ i, Z i → ∀ G, A' i (G + s) = A i G)
    (in1 : ∀ i, Z i → Within3 gz gy gx (m + r + r) (A i)) (in2 : ∀ i, Z i → Within3 gz' gy' gx' (m + r + r) (A' i))
    (hB : ∀ i, ¬ Z i → ∀ G, Away3 gz gy gx m G → Away3 gz' gy' gx' m (G + s) → A' i (G + s) = A i G)
    {e e' : C3 → Prop} [DecidablePred e] [DecidablePred e'] (c1 : ∀ G, Away3 gz gy gx (m + r) G → e G) (c2 : ∀ G, Away3 gz' gy' gx' (m + r) G → e' G)
    {om om' : C3 → ℝ} (ho : ∀ G, om' (G + s) = om G) (G : C3) :
    (if e' (G + s) then om' (G + s) + kern (fun i d => A' i (G + s + d)) else om' (G + s)) = if e G then om G + kern (fun i d => A i (G + d)) else om G := by
  have sh : ∀ d : C3, G + s + d = G + d + s := fun d => by abel
  by_cases h : ∃ i d, Z i ∧ Cross3 r d ∧ A i (G + d) ≠ 0
  · obtain ⟨i, d, hi, hd, hne⟩ := h
    have a1 : Away3 gz gy gx (m + r) G := away3_near (by_contra fun hn => hne (in1 i hi _ hn)) hd
    have a2 : Away3 gz' gy' gx' (m + r) (G + s) := by
      refine away3_near (d := d) (by_contra fun hn => hne ?_) hd
      rw [← hA i hi, ← sh]
      exact in2 i hi _ hn
    rw [if_pos (c1 _ a1), if_pos (c2 _ a2), ho]
    congr 1
    apply hloc
    intro i d hd
    rw [sh]
    by_cases hi : Z i
    · exact hA i hi _
    · exact hB i hi _ (away3_step a1 hd) (by rw [← sh]; exact away3_step a2 hd)
  · push Not at h
    have z1 : kern (fun i d => A i (G + d)) = 0 := hz _ fun i hi d hd => h i d hi hd
    have z2 : kern (fun i d => A' i (G + s + d)) = 0 := hz _ fun i hi d hd => by
      rw [sh, hA i hi]
      exact h i d hi hd
    rw [z1, z2, ho]
    simp

/-- a kernel carries a field no farther than its reach -/
theorem stencil3_within {ι : Type} {r k : ℕ} (Z : ι → Prop) {kern : (ι → C3 → ℝ) → ℝ}
    (hz : ∀ f, (∀ i, Z i → ∀ d, Cross3 r d → f i d = 0) → kern f = 0) {A : ι → C3 → ℝ} (in1 : ∀ i, Z i → Within3 gz gy gx (k + r) (A i))
    {e : C3 → Prop} [DecidablePred e] {om : C3 → ℝ} (ho : Within3 gz gy gx k om) :
    Within3 gz gy gx k fun G => if e G then om G + kern (fun i d => A i (G + d)) else om G := by
  intro G hG
  have z1 : kern (fun i d => A i (G + d)) = 0 := hz _ fun i hi d hd => in1 i hi _ fun ha => hG (away3_near ha hd)
  dsimp only
  rw [z1, ho G hG]
  simp

/-- sums move with the fields -/
theorem total3_moved {f f' : C3 → ℝ} (h : ∀ G, f' (G + s) = f G) (h1 : Within3 gz gy gx 0 f) (h2 : Within3 gz' gy' gx' 0 f') : total3 gz' gy' gx' f' = total3 gz gy gx f := by
  rw [total3_finsum (within3_sup.1 h1), total3_finsum (within3_sup.1 h2), ← finsum_comp_equiv (Equiv.addRight s)]
  exact finsum_congr fun G => h G

theorem freeSolution3_total (gz gy gx : ℕ) (dx : ℝ) (F : C3 → ℝ) (G : C3) :
    freeSolution3 gz gy gx dx F G = total3 gz gy gx fun H => F H * greens3 dx |G.1 - H.1| |G.2.1 - H.2.1| |G.2.2 - H.2.2| * dx ^ 3 := by
  have ico : ∀ (n : ℕ) (f : ℤ → ℝ), ∑ i ∈ Ico (0 : ℤ) n, f i = ∑ i ∈ range n, f i := by
    intro n f
    symm
    refine Finset.sum_nbij' (fun i : ℕ => (i : ℤ)) Int.toNat ?_ ?_ ?_ ?_ ?_
    · intro i hi; simp at hi ⊢; omega
    · intro i hi; simp at hi ⊢; omega
    · intro i _; simp
    · intro i hi; simp at hi ⊢; omega
    · intro i _; rfl
  unfold freeSolution3 total3
  rw [Finset.sum_product, ico]
  refine Finset.sum_congr rfl fun i _ => ?_
  rw [Finset.sum_product, ico]
  refine Finset.sum_congr rfl fun i _ => ?_
  rw [ico]

/-- the unbounded solve does not know where the grid is -/
theorem freeSolution3_moved {om om' : C3 → ℝ} (h : ∀ G, om' (G + s) = om G) (h1 : Within3 gz gy gx 0 om) (h2 : Within3 gz' gy' gx' 0 om') (dx : ℝ) (G : C3) :
    freeSolution3 gz' gy' gx' dx om' (G + s) = freeSolution3 gz gy gx dx om G := by
  rw [freeSolution3_total, freeSolution3_total]
  refine total3_moved (s := s) (fun H => ?_) (fun H hH => ?_) fun H hH => ?_
  · rw [h]
    simp only [Prod.fst_add, Prod.snd_add, add_sub_add_right_eq_sub]
  · rw [h1 H hH]; ring
  · rw [h2 H hH]; ring

/-- where a vorticity that vanishes near the sides of both grids is not zero, the velocities agree -/
theorem crossF_moved {k : ℕ} (hk : 1 ≤ k) {u u' om om' : Fin 3 → C3 → ℝ} (h : ∀ j G, om' j (G + s) = om j G) (h1 : ∀ j, Within3 gz gy gx k (om j)) (h2 : ∀ j, Within3 gz' gy' gx' k (om' j))
    (hu : ∀ j G, Away3 gz gy gx 1 G → Away3 gz' gy' gx' 1 (G + s) → u' j (G + s) = u j G) (j : Fin 3) (G : C3) : crossF u' om' j (G + s) = crossF u om j G := by
  have aw : ∀ {gz gy gx : ℕ} {G : C3}, Away3 gz gy gx k G → Away3 gz gy gx 1 G := by
    intro gz gy gx G hG
    unfold Away3 at *
    omega
  by_cases hz : ∀ i, om i G = 0
  · have e : ∀ i, om' i (G + s) = 0 := fun i => by rw [h, hz]
    have a0 := hz 0
    have a1 := hz 1
    have a2 := hz 2
    have e0 := e 0
    have e1 := e 1
    have e2 := e 2
    unfold crossF
    match j with
    | 0 => simp [a1, a2, e1, e2]
    | 1 => simp [a0, a2, e0, e2]
    | 2 => simp [a0, a1, e0, e1]
  · push Not at hz
    obtain ⟨i, hi⟩ := hz
    have b1 : Away3 gz gy gx 1 G := aw (by_contra fun hn => hi (h1 i G hn))
    have b2 : Away3 gz' gy' gx' 1 (G + s) := aw (by_contra fun hn => hi (by rw [← h]; exact h2 i _ hn))
    have v : ∀ i, u' i (G + s) = u i G := fun i => hu i G b1 b2
    have v0 := v 0
    have v1 := v 1
    have v2 := v 2
    have o0 := h 0 G
    have o1 := h 1 G
    have o2 := h 2 G
    unfold crossF
    match j with
    | 0 => simp [v1, v2, o1, o2]
    | 1 => simp [v0, v2, o0, o2]
    | 2 => simp [v0, v1, o0, o1]

theorem crossF_within {k : ℕ} {u om : Fin 3 → C3 → ℝ} (h : ∀ j, Within3 gz gy gx k (om j)) (j : Fin 3) : Within3 gz gy gx k (crossF u om j) :=
  within3_sup.2 (crossF_sup (fun j => within3_sup.1 (h j)) j)

end Stencils

/-! ## Steps -/

/-- what the advection kernel is given: the carried field and the velocities -/
def advArg3 (u : Fin 3 → C3 → ℝ) (f : C3 → ℝ) : Option (Fin 3) → C3 → ℝ
  | none => f
  | some j => u j

theorem away3_dom {gz gy gx k : ℕ} {G : C3} (hG : Away3 gz gy gx k G) : Dom3 gz gy gx G := by
  unfold Away3 at hG
  unfold Dom3
  omega

theorem away3_in {gz gy gx k : ℕ} {G : C3} (hG : Away3 gz gy gx (k + 1) G) : Dom3 gz gy gx G ∧ ¬ OnEdge3 gz gy gx G := by
  unfold Away3 at hG
  unfold Dom3 OnEdge3
  push_cast at hG
  omega

section Steps
variable {P P' : Params3} {K : Kern3} {s : C3}

theorem adv3_moved (hK : K.Local) (hq : Quiet3 K) (hdx : P'.dx = P.dx) (dt : ℝ) {k : ℕ} (hk : 2 ≤ k) {u u' : Fin 3 → C3 → ℝ}
    (hu : ∀ j G, Away3 P.gz P.gy P.gx 1 G → Away3 P'.gz P'.gy P'.gx 1 (G + s) → u' j (G + s) = u j G) {f f' : C3 → ℝ} (h : ∀ G, f' (G + s) = f G)
    (h1 : Within3 P.gz P.gy P.gx (k + 3) f) (h2 : Within3 P'.gz P'.gy P'.gx (k + 3) f') :
    (∀ G, refAdv3 P' K dt u' f' (G + s) = refAdv3 P K dt u f G) ∧ Within3 P.gz P.gy P.gx (k + 1) (refAdv3 P K dt u f) ∧
      Within3 P'.gz P'.gy P'.gx (k + 1) (refAdv3 P' K dt u' f') := by
  obtain ⟨m, rfl⟩ : ∃ m, k = m + 1 := ⟨k - 1, by omega⟩
  have z : ∀ a : ℝ, ∀ f : Option (Fin 3) → C3 → ℝ, (∀ i, i = none → ∀ d, Cross3 2 d → f i d = 0) → K.adv a f = 0 := fun a f hf => hq.adv a f fun d hd => hf none rfl d hd
  have e : ∀ (P : Params3) (u : Fin 3 → C3 → ℝ) (f : C3 → ℝ), refAdv3 P K dt u f = fun G => if Dom3 P.gz P.gy P.gx G then
      f G + K.adv (-(dt / P.dx)) (fun i d => advArg3 u f i (G + d)) else f G := by
    intro P u f
    funext G
    unfold refAdv3
    congr 2
    congr 1
    funext i d
    rcases i with _ | j <;> rfl
  rw [e, e, hdx]
  refine ⟨?_, ?_, ?_⟩
  · refine stencil3_moved (gz := P.gz) (gy := P.gy) (gx := P.gx) (gz' := P'.gz) (gy' := P'.gy) (gx' := P'.gx) (r := 2) (m := m) (· = none) (hK.adv _) (z _) ?_ ?_ ?_ ?_
      (fun G hG => away3_dom hG) (fun G hG => away3_dom hG) h
    · rintro i rfl; exact h
    · rintro i rfl; exact h1
    · rintro i rfl; exact h2
    · rintro (_ | j) hi G a1 a2
      · exact absurd rfl hi
      · refine hu j G ?_ ?_
        · unfold Away3 at *; push_cast at *; omega
        · unfold Away3 at *; push_cast at *; omega
  · exact stencil3_within (r := 2) (k := m + 1 + 1) (A := advArg3 u f) (· = none) (z _) (by rintro i rfl; exact h1) (h1.mono (by omega))
  · exact stencil3_within (r := 2) (k := m + 1 + 1) (A := advArg3 u' f') (· = none) (z _) (by rintro i rfl; exact h2) (h2.mono (by omega))

theorem diff3_moved (hK : K.Local) (hq : Quiet3 K) (hdx : P'.dx = P.dx) (hnu : P'.nu = P.nu) (dt : ℝ) {k : ℕ} (hk : 1 ≤ k) {om om' : C3 → ℝ} (h : ∀ G, om' (G + s) = om G)
    (h1 : Within3 P.gz P.gy P.gx (k + 1) om) (h2 : Within3 P'.gz P'.gy P'.gx (k + 1) om') :
    (∀ G, refDiff3 P' K dt om' (G + s) = refDiff3 P K dt om G) ∧ Within3 P.gz P.gy P.gx k (refDiff3 P K dt om) ∧ Within3 P'.gz P'.gy P'.gx k (refDiff3 P' K dt om') := by
  obtain ⟨m, rfl⟩ : ∃ m, k = m + 1 := ⟨k - 1, by omega⟩
  have z : ∀ a : ℝ, ∀ f : Unit → C3 → ℝ, (∀ i, True → ∀ d, Cross3 1 d → f i d = 0) → K.diff a f = 0 := fun a f hf => hq.diff a f fun d hd => hf () trivial d hd
  have e : ∀ (P : Params3) (om : C3 → ℝ), refDiff3 P K dt om = fun G => if Dom3 P.gz P.gy P.gx G ∧ ¬ OnEdge3 P.gz P.gy P.gx G then
      om G + K.diff (P.nu * dt / P.dx / P.dx) (fun i d => (fun (_ : Unit) => om) i (G + d)) else om G := fun _ _ => rfl
  rw [e, e, hdx, hnu]
  refine ⟨?_, ?_, ?_⟩
  · exact stencil3_moved (gz := P.gz) (gy := P.gy) (gx := P.gx) (gz' := P'.gz) (gy' := P'.gy) (gx' := P'.gx) (r := 1) (m := m) (fun _ => True) (hK.diff _) (z _) (fun _ _ => h) (fun _ _ => h1)
      (fun _ _ => h2) (fun _ hi => absurd trivial hi) (fun G hG => away3_in hG) (fun G hG => away3_in hG) h
  · exact stencil3_within (r := 1) (fun _ => True) (z _) (fun _ _ => h1) (h1.mono (by omega))
  · exact stencil3_within (r := 1) (fun _ => True) (z _) (fun _ _ => h2) (h2.mono (by omega))

theorem upd3_moved (hK : K.Local) (hq : Quiet3 K) (hdx : P'.dx = P.dx) (dt : ℝ) {k : ℕ} (hk : 1 ≤ k) {om om' : Fin 3 → C3 → ℝ} (h : ∀ j G, om' j (G + s) = om j G)
    (h1 : ∀ j, Within3 P.gz P.gy P.gx k (om j)) (h2 : ∀ j, Within3 P'.gz P'.gy P'.gx k (om' j)) {Φ Φ' : Fin 3 → C3 → ℝ} (hΦ : ∀ j G, Φ' j (G + s) = Φ j G)
    (hΦ1 : ∀ j, Within3 P.gz P.gy P.gx (k + 1) (Φ j)) (hΦ2 : ∀ j, Within3 P'.gz P'.gy P'.gx (k + 1) (Φ' j)) :
    (∀ j G, refUpd3 P' K dt Φ' om' j (G + s) = refUpd3 P K dt Φ om j G) ∧ (∀ j, Within3 P.gz P.gy P.gx k (refUpd3 P K dt Φ om j)) ∧
      ∀ j, Within3 P'.gz P'.gy P'.gx k (refUpd3 P' K dt Φ' om' j) := by
  obtain ⟨m, rfl⟩ : ∃ m, k = m + 1 := ⟨k - 1, by omega⟩
  have z : ∀ (a : ℝ) (j : Fin 3), ∀ f : Fin 3 → C3 → ℝ, (∀ i, True → ∀ d, Cross3 1 d → f i d = 0) → comp3 (K.upd a f) j = 0 := fun a j f hf => by
    rw [hq.upd a f fun i d hd => hf i trivial d hd]
    unfold comp3
    match j with
    | 0 => rfl
    | 1 => rfl
    | 2 => rfl
  have l : ∀ (a : ℝ) (j : Fin 3), CrossLocal3 1 fun f => comp3 (K.upd a f) j := fun a j f f' hf => by
    simp only
    rw [hK.upd a f f' hf]
  have e : ∀ (P : Params3) (Φ : Fin 3 → C3 → ℝ) (om : Fin 3 → C3 → ℝ) (j : Fin 3), refUpd3 P K dt Φ om j = fun G => if Dom3 P.gz P.gy P.gx G then
      om j G + (fun f => comp3 (K.upd (dt / (2 * P.dx)) f) j) (fun i d => Φ i (G + d)) else om j G := fun _ _ _ _ => rfl
  have key : ∀ j, (∀ G, refUpd3 P' K dt Φ' om' j (G + s) = refUpd3 P K dt Φ om j G) ∧ Within3 P.gz P.gy P.gx (m + 1) (refUpd3 P K dt Φ om j) ∧
      Within3 P'.gz P'.gy P'.gx (m + 1) (refUpd3 P' K dt Φ' om' j) := by
    intro j
    rw [e, e, hdx]
    refine ⟨?_, ?_, ?_⟩
    · exact stencil3_moved (gz := P.gz) (gy := P.gy) (gx := P.gx) (gz' := P'.gz) (gy' := P'.gy) (gx' := P'.gx) (r := 1) (m := m) (fun _ => True) (l _ j) (z _ j) (fun i _ => hΦ i)
        (fun i _ => hΦ1 i) (fun i _ => hΦ2 i) (fun _ hi => absurd trivial hi) (fun G hG => away3_dom hG) (fun G hG => away3_dom hG) (h j)
    · exact stencil3_within (r := 1) (fun _ => True) (z _ j) (fun i _ => hΦ1 i) (h1 j)
    · exact stencil3_within (r := 1) (fun _ => True) (z _ j) (fun i _ => hΦ2 i) (h2 j)
  exact ⟨fun j => (key j).1, fun j => (key j).2.1, fun j => (key j).2.2⟩

theorem filter3_moved (hflt : P'.flt = P.flt) {k : ℕ} (hk : 1 ≤ k) {f f' : C3 → ℝ} (h : ∀ G, f' (G + s) = f G) (h1 : Within3 P.gz P.gy P.gx (k + fltOrder P.flt) f)
    (h2 : Within3 P'.gz P'.gy P'.gx (k + fltOrder P.flt) f') :
    (∀ G, refFilter3 P' f' (G + s) = refFilter3 P f G) ∧ Within3 P.gz P.gy P.gx k (refFilter3 P f) ∧ Within3 P'.gz P'.gy P'.gx k (refFilter3 P' f') := by
  have s1 := within3_sup.1 h1
  have s2 := within3_sup.1 h2
  push_cast at s1 s2
  rw [← hflt] at s2
  obtain ⟨e1, w1⟩ := filter3_sup (P := P) (k := k) (by omega) s1
  obtain ⟨e2, w2⟩ := filter3_sup (P := P') (k := k) (by omega) s2
  rw [e1, e2]
  refine ⟨fun G => ?_, within3_sup.2 w1, within3_sup.2 w2⟩
  have q := congrFun ((gFilter_inv P.flt).shift f' s) G
  rw [hflt, ← q]
  congr 1
  funext G
  exact h G

theorem vort3_moved (hK : K.Local) (hq : Quiet3 K) (hdx : P'.dx = P.dx) (hnu : P'.nu = P.nu) (hflt : P'.flt = P.flt) (dt : ℝ) {k : ℕ} (hk : 1 ≤ k)
    (hw : P.w ≤ k) (hw' : P'.w ≤ k) {F F' : Fields3} (h : Moved3 P.gz P.gy P.gx P'.gz P'.gy P'.gx (k + (3 + fltOrder P.flt)) s F F') :
    (∀ j G, refVort3 P' K dt F' j (G + s) = refVort3 P K dt F j G) ∧ (∀ j, Within3 P.gz P.gy P.gx k (refVort3 P K dt F j)) ∧
      ∀ j, Within3 P'.gz P'.gy P'.gx k (refVort3 P' K dt F' j) := by
  obtain ⟨u1, u2, u3⟩ := upd3_moved (P := P) (P' := P') hK hq hdx dt (k := k + fltOrder P.flt + 1 + 1) (by omega) h.om (fun j => (h.in1 j).mono (by omega)) (fun j => (h.in2 j).mono (by omega))
    (crossF_moved (by omega) h.om h.in1 h.in2 h.u) (fun j => (crossF_within h.in1 j).mono (by omega)) (fun j => (crossF_within h.in2 j).mono (by omega))
  have key : ∀ j, (∀ G, refVort3 P' K dt F' j (G + s) = refVort3 P K dt F j G) ∧ Within3 P.gz P.gy P.gx k (refVort3 P K dt F j) ∧ Within3 P'.gz P'.gy P'.gx k (refVort3 P' K dt F' j) := by
    intro j
    obtain ⟨d1, d2, d3⟩ := diff3_moved (P := P) (P' := P') hK hq hdx hnu dt (k := k + fltOrder P.flt) (by omega) (u1 j) ((u2 j).mono (by omega)) ((u3 j).mono (by omega))
    obtain ⟨f1, f2, f3⟩ := filter3_moved (P := P) (P' := P') hflt hk d1 d2 d3
    have o1 : refVort3 P K dt F j = refFilter3 P (refDiff3 P K dt (refUpd3 P K dt (crossF F.u F.om) F.om j)) := pen3_within (f2.mono hw)
    have o2 : refVort3 P' K dt F' j = refFilter3 P' (refDiff3 P' K dt (refUpd3 P' K dt (crossF F'.u F'.om) F'.om j)) := pen3_within (f3.mono hw')
    rw [o1, o2]
    exact ⟨f1, f2, f3⟩
  exact ⟨fun j => (key j).1, fun j => (key j).2.1, fun j => (key j).2.2⟩

theorem ns3_moved (hK : K.Local) (hq : Quiet3 K) (hdx : P'.dx = P.dx) (hnu : P'.nu = P.nu) (hflt : P'.flt = P.flt) (hfs : P'.freeStream = P.freeStream) (dt : ℝ) (fs : Fin 3 → ℝ) {k : ℕ}
    (hk : 1 ≤ k) (hw : P.w ≤ k) (hw' : P'.w ≤ k) {F F' : Fields3} (h : Moved3 P.gz P.gy P.gx P'.gz P'.gy P'.gx (k + (3 + fltOrder P.flt)) s F F') :
    Moved3 P.gz P.gy P.gx P'.gz P'.gy P'.gx k s (refNS3 P K dt fs F) (refNS3 P' K dt fs F') := by
  obtain ⟨d1, d2, d3⟩ := vort3_moved (P := P) (P' := P') hK hq hdx hnu hflt dt hk hw hw' h
  refine ⟨h.sc, d1, h.sc1.mono (by omega), h.sc2.mono (by omega), d2, d3, ?_⟩
  intro j G g1 g2
  have hv : refVel3 P' K (refVort3 P' K dt F') j (G + s) = refVel3 P K (refVort3 P K dt F) j G := by
    unfold refVel3
    rw [if_pos (away3_in g1), if_pos (away3_in g2), hdx]
    congr 1
    apply hK.curl
    intro i d _
    have := freeSolution3_moved (d1 i) ((d2 i).mono (Nat.zero_le _)) ((d3 i).mono (Nat.zero_le _)) P.dx (G + d)
    rw [show G + d + s = G + s + d by abel] at this
    exact this
  change (if P'.freeStream then refVel3 P' K (refVort3 P' K dt F') j (G + s) + fs j else refVel3 P' K (refVort3 P' K dt F') j (G + s)) =
    if P.freeStream then refVel3 P K (refVort3 P K dt F) j G + fs j else refVel3 P K (refVort3 P K dt F) j G
  rw [hv, hfs]

theorem step3_moved (hK : K.Local) (hq : Quiet3 K) (ft : String) (hdx : P'.dx = P.dx) (hnu : P'.nu = P.nu) (hflt : P'.flt = P.flt) (hfs : P'.freeStream = P.freeStream) (dt : ℝ)
    (fs : Fin 3 → ℝ) {k : ℕ} (hk : 2 ≤ k) (hw : P.w ≤ k) (hw' : P'.w ≤ k) {Φ Φ' : Fin 3 → C3 → ℝ} (hΦ : ∀ j G, Φ' j (G + s) = Φ j G)
    (hΦ1 : ∀ j, Within3 P.gz P.gy P.gx (k + (3 + fltOrder P.flt) + 1) (Φ j)) (hΦ2 : ∀ j, Within3 P'.gz P'.gy P'.gx (k + (3 + fltOrder P.flt) + 1) (Φ' j)) {F F' : Fields3}
    (h : Moved3 P.gz P.gy P.gx P'.gz P'.gy P'.gx (k + (3 + fltOrder P.flt)) s F F') :
    Moved3 P.gz P.gy P.gx P'.gz P'.gy P'.gx k s (refStep3 ft P K dt fs Φ F) (refStep3 ft P' K dt fs Φ' F') := by
  have ad : ∀ {f f' : C3 → ℝ}, (∀ G, f' (G + s) = f G) → Within3 P.gz P.gy P.gx (k + (3 + fltOrder P.flt)) f → Within3 P'.gz P'.gy P'.gx (k + (3 + fltOrder P.flt)) f' →
      (∀ G, refDiff3 P' K dt (refAdv3 P' K dt F'.u f') (G + s) = refDiff3 P K dt (refAdv3 P K dt F.u f) G) ∧ Within3 P.gz P.gy P.gx k (refDiff3 P K dt (refAdv3 P K dt F.u f)) ∧
        Within3 P'.gz P'.gy P'.gx k (refDiff3 P' K dt (refAdv3 P' K dt F'.u f')) := by
    intro f f' hf h1 h2
    obtain ⟨a1, a2, a3⟩ := adv3_moved (P := P) (P' := P') hK hq hdx dt hk h.u hf (h1.mono (by omega)) (h2.mono (by omega))
    exact diff3_moved (P := P) (P' := P') hK hq hdx hnu dt (by omega) a1 a2 a3
  unfold refStep3
  split_ifs
  · exact ns3_moved hK hq hdx hnu hflt hfs dt fs (by omega) hw hw' h
  · obtain ⟨f1, f2, f3⟩ := upd3_moved (P := P) (P' := P') hK hq hdx dt (by omega) h.om h.in1 h.in2 hΦ hΦ1 hΦ2
    exact ns3_moved hK hq hdx hnu hflt hfs dt fs (by omega) hw hw' ⟨h.sc, f1, h.sc1, h.sc2, f2, f3, h.u⟩
  · exact ⟨h.sc, fun j => (ad (h.om j) (h.in1 j) (h.in2 j)).1, h.sc1.mono (by omega), h.sc2.mono (by omega), fun j => (ad (h.om j) (h.in1 j) (h.in2 j)).2.1,
      fun j => (ad (h.om j) (h.in1 j) (h.in2 j)).2.2, h.u⟩
  · obtain ⟨a1, a2, a3⟩ := ad h.sc h.sc1 h.sc2
    exact ⟨a1, h.om, a2, a3, fun j => (h.in1 j).mono (by omega), fun j => (h.in2 j).mono (by omega), h.u⟩

/-- any number of steps -/
theorem run3_moved (hK : K.Local) (hq : Quiet3 K) (ft : String) (hdx : P'.dx = P.dx) (hnu : P'.nu = P.nu) (hflt : P'.flt = P.flt) (hfs : P'.freeStream = P.freeStream) (cfl tol : ℝ) {k : ℕ}
    (hk : 2 ≤ k) (hw : P.w ≤ k) (hw' : P'.w ≤ k) {ys ys' : List StepSpec3} {s0 s0' : Fields3 × ℝ}
    (hys : List.Forall₂ (fun y y' => y'.fs = y.fs ∧ ∀ j G, y'.Φ j (G + s) = y.Φ j G) ys ys')
    (hΦ1 : ∀ y ∈ ys, ∀ j, Within3 P.gz P.gy P.gx (k + (3 + fltOrder P.flt) * ys.length + 1) (y.Φ j))
    (hΦ2 : ∀ y ∈ ys', ∀ j, Within3 P'.gz P'.gy P'.gx (k + (3 + fltOrder P.flt) * ys.length + 1) (y.Φ j))
    (hdt : ∀ n, (refRun3 ft P K cfl tol (ys.take n) s0).2 - s0.2 = (refRun3 ft P' K cfl tol (ys'.take n) s0').2 - s0'.2)
    (h : Moved3 P.gz P.gy P.gx P'.gz P'.gy P'.gx (k + (3 + fltOrder P.flt) * ys.length) s s0.1 s0'.1) : ∀ n, n ≤ ys.length →
    Moved3 P.gz P.gy P.gx P'.gz P'.gy P'.gx (k + (3 + fltOrder P.flt) * (ys.length - n)) s (refRun3 ft P K cfl tol (ys.take n) s0).1 (refRun3 ft P' K cfl tol (ys'.take n) s0').1
  | 0, _ => by simpa [refRun3] using h
  | n + 1, hn => by
    have hlen := hys.length_eq
    have ih := run3_moved hK hq ft hdx hnu hflt hfs cfl tol hk hw hw' hys hΦ1 hΦ2 hdt h n (by omega)
    have t1 : ys.take (n + 1) = ys.take n ++ [ys[n]'(by omega)] := by simp
    have t2 : ys'.take (n + 1) = ys'.take n ++ [ys'[n]'(by omega)] := by simp
    have m1 : ys[n]'(by omega) ∈ ys := List.getElem_mem _
    have m2 : ys'[n]'(by omega) ∈ ys' := List.getElem_mem _
    have hy : (ys'[n]'(by omega)).fs = (ys[n]'(by omega)).fs ∧ ∀ j G, (ys'[n]'(by omega)).Φ j (G + s) = (ys[n]'(by omega)).Φ j G := hys.get _ _
    have dn := hdt n
    have dn1 := hdt (n + 1)
    rw [t1, t2] at dn1 ⊢
    rw [refRun3_append, refRun3_append] at dn1 ⊢
    generalize refRun3 ft P K cfl tol (ys.take n) s0 = r at ih dn dn1 ⊢
    generalize refRun3 ft P' K cfl tol (ys'.take n) s0' = r' at ih dn dn1 ⊢
    generalize ys[n]'(by omega) = y at m1 hy dn1 ⊢
    generalize ys'[n]'(by omega) = y' at m2 hy dn1 ⊢
    simp only [refRun3] at dn1 ⊢
    have e : refDt3 P' cfl tol r'.1 y'.rule = refDt3 P cfl tol r.1 y.rule := by linarith
    rw [e, hy.1]
    have hN : ys.length - n = (ys.length - (n + 1)) + 1 := by omega
    have hle : (3 + fltOrder P.flt) * (ys.length - (n + 1)) + (3 + fltOrder P.flt) ≤ (3 + fltOrder P.flt) * ys.length := by
      rw [← Nat.mul_succ]
      exact Nat.mul_le_mul_left _ (by omega)
    rw [hN, Nat.mul_succ, ← Nat.add_assoc] at ih
    exact step3_moved hK hq ft hdx hnu hflt hfs _ _ (by omega) (by omega) (by omega) hy.2 (fun j => (hΦ1 y m1 j).mono (by omega)) (fun j => (hΦ2 y' m2 j).mono (by omega)) ih

end Steps

/-! ## On the ranks -/

theorem refRun3_fixed_time {ft : String} {P : Params3} {K : Kern3} {cfl tol : ℝ} : ∀ {ys : List StepSpec3} {dts : List ℝ} {s0 : Fields3 × ℝ},
    ys.map StepSpec3.rule = dts.map DtRule.fixed → (refRun3 ft P K cfl tol ys s0).2 = s0.2 + dts.sum
  | [], [], _, _ => by simp [refRun3]
  | [], _ :: _, _, h => by simp at h
  | _ :: _, [], _, h => by simp at h
  | y :: ys, dt :: dts, s0, h => by
    simp only [List.map_cons, List.cons.injEq] at h
    rw [refRun3, refRun3_fixed_time h.2, h.1, List.sum_cons]
    simp only [refDt3]
    ring

section Ranks
variable {T T' : Cart3} [NeZero T.gz] [NeZero T.gy] [NeZero T.gx] [NeZero T'.gz] [NeZero T'.gy] [NeZero T'.gx]

/-- C107: two simulations with the same grid spacing, viscosity, flow type, filter and free stream on grids of possibly different sizes, decompositions, ghost and penalty zones, the second
started from the fields of the first moved by `s` cells and driven with the forcings moved by `s` cells; the fields and the forcings of the run stay inside both grids and the time advances alike.
Then after the run the fields of the second are those of the first moved by `s` cells and zero in the other cells, and the velocities agree in the cells which are outermost in neither grid. -/
theorem sim3_placement {a a' : SimArgs3} (h : Fit3 a T) (h' : Fit3 a' T') (hft : a'.flowType = a.flowType) (hfs : a'.freeStream = a.freeStream) (hflt : filterInUse a' = filterInUse a)
    {xr xr' : ℝ} (hxr : 0 < xr) (hxr' : 0 < xr') (hdx : xr' / a'.gx = xr / a.gx) {nu : ℝ} (hnu : 0 ≤ nu) {cfl : ℝ} (hcfl : 0 ≤ cfl) {tol : ℝ} (htol : 0 < tol)
    {K : Kern3} (hK : K.Local) (hK0 : ∀ r, K.upd r (fun _ _ => 0) = 0) (hq : Quiet3 K)
    (time time' : ℝ) (dbl0 dbl0' : World C3 C3 ℝ) (conv0 : Dbl3 T → ℂ) (conv0' : Dbl3 T' → ℂ) (sc sc' : ℝ → ℝ → ℝ → ℝ) (om om' u u' : Fin 3 → ℝ → ℝ → ℝ → ℝ)
    {xs xs' : List StepIn3} {ys ys' : List StepSpec3} (hxy : List.Forall₂ (Means3 a.gz a.gy a.gx T (simCfg3 a xr nu cfl)) xs ys)
    (hxy' : List.Forall₂ (Means3 a'.gz a'.gy a'.gx T' (simCfg3 a' xr' nu cfl)) xs' ys')
    (s : C3) (k : ℕ) (hk : 2 ≤ k) (hw : widthOf a.width ≤ k) (hw' : widthOf a'.width ≤ k)
    (hsc : ∀ x y z, sc' (x + s.2.2 * (xr / a.gx)) (y + s.2.1 * (xr / a.gx)) (z + s.1 * (xr / a.gx)) = sc x y z)
    (hom : ∀ j x y z, om' j (x + s.2.2 * (xr / a.gx)) (y + s.2.1 * (xr / a.gx)) (z + s.1 * (xr / a.gx)) = om j x y z)
    (hu : ∀ j x y z, u' j (x + s.2.2 * (xr / a.gx)) (y + s.2.1 * (xr / a.gx)) (z + s.1 * (xr / a.gx)) = u j x y z)
    (hys : List.Forall₂ (fun y y' => y'.fs = y.fs ∧ ∀ j G, y'.Φ j (G + s) = y.Φ j G) ys ys')
    (sc1 : Within3 a.gz a.gy a.gx (k + reach3 a * xs.length) (fieldsFrom3 (xr / a.gx) sc om u).sc)
    (sc2 : Within3 a'.gz a'.gy a'.gx (k + reach3 a * xs.length) (fieldsFrom3 (xr / a.gx) sc' om' u').sc)
    (in1 : ∀ j, Within3 a.gz a.gy a.gx (k + reach3 a * xs.length) ((fieldsFrom3 (xr / a.gx) sc om u).om j))
    (in2 : ∀ j, Within3 a'.gz a'.gy a'.gx (k + reach3 a * xs.length) ((fieldsFrom3 (xr / a.gx) sc' om' u').om j))
    (hΦ1 : ∀ y ∈ ys, ∀ j, Within3 a.gz a.gy a.gx (k + reach3 a * xs.length + 1) (y.Φ j)) (hΦ2 : ∀ y ∈ ys', ∀ j, Within3 a'.gz a'.gy a'.gx (k + reach3 a * xs.length + 1) (y.Φ j))
    (hdt : ∀ n, (simLoop3 (simCfg3 a xr nu cfl) K tol (xs.take n) (initFrom3 T a.g xr time dbl0 conv0 sc om u)).1.time - time =
      (simLoop3 (simCfg3 a' xr' nu cfl) K tol (xs'.take n) (initFrom3 T' a'.g xr' time' dbl0' conv0' sc' om' u')).1.time - time') :
    let out := simLoop3 (simCfg3 a xr nu cfl) K tol xs (initFrom3 T a.g xr time dbl0 conv0 sc om u)
    let out' := simLoop3 (simCfg3 a' xr' nu cfl) K tol xs' (initFrom3 T' a'.g xr' time' dbl0' conv0' sc' om' u')
    out.2 = none ∧ out'.2 = none ∧
    (∀ c p c' p', Valid3 T c → Inner3 T a.g p → Valid3 T' c' → Inner3 T' a'.g p' → globalIx3 T' a'.g c' p' = globalIx3 T a.g c p + s →
      out'.1.sc c' p' = out.1.sc c p ∧ ∀ j, out'.1.om j c' p' = out.1.om j c p ∧
        (Away3 a.gz a.gy a.gx 1 (globalIx3 T a.g c p) → Away3 a'.gz a'.gy a'.gx 1 (globalIx3 T' a'.g c' p') → out'.1.vel j c' p' = out.1.vel j c p)) ∧
    (∀ c' p', Valid3 T' c' → Inner3 T' a'.g p' → ¬ Dom3 a.gz a.gy a.gx (globalIx3 T' a'.g c' p' - s) → out'.1.sc c' p' = 0 ∧ ∀ j, out'.1.om j c' p' = 0) ∧
    (∀ c p, Valid3 T c → Inner3 T a.g p → ¬ Dom3 a'.gz a'.gy a'.gx (globalIx3 T a.g c p + s) → out.1.sc c p = 0 ∧ ∀ j, out.1.om j c p = 0) := by
  have hlen : xs.length = ys.length := hxy.length_eq
  have hfn : filterNums (filterInUse a') = filterNums (filterInUse a) := by rw [hflt]
  have hpre : ∀ n, (refRun3 a.flowType ⟨a.gz, a.gy, a.gx, xr, nu, widthOf a.width, a.freeStream, filterNums (filterInUse a)⟩ K cfl tol (ys.take n) (fieldsFrom3 (xr / a.gx) sc om u, time)).2 - time =
      (refRun3 a.flowType ⟨a'.gz, a'.gy, a'.gx, xr', nu, widthOf a'.width, a'.freeStream, filterNums (filterInUse a')⟩ K cfl tol (ys'.take n) (fieldsFrom3 (xr / a.gx) sc' om' u', time')).2 - time' := by
    intro n
    have r := (sim3_run h hxr hnu hcfl htol hK hK0 time dbl0 conv0 sc om u (List.forall₂_take n hxy)).2.1
    have r' := (sim3_run h' hxr' hnu hcfl htol hK hK0 time' dbl0' conv0' sc' om' u' (List.forall₂_take n hxy')).2.1
    have q := hdt n
    rw [hft, hdx] at r'
    rw [← r, ← r']
    exact q
  have cen : ∀ f f' : ℝ → ℝ → ℝ → ℝ, (∀ x y z, f' (x + s.2.2 * (xr / a.gx)) (y + s.2.1 * (xr / a.gx)) (z + s.1 * (xr / a.gx)) = f x y z) → ∀ G, atCentre3 (xr / a.gx) f' (G + s) = atCentre3 (xr / a.gx) f G := by
    intro f f' hf G
    simp only [atCentre3, Prod.fst_add, Prod.snd_add]
    rw [← hf]
    push_cast
    congr 1 <;> ring
  have start : Moved3 a.gz a.gy a.gx a'.gz a'.gy a'.gx (k + reach3 a * ys.length) s (fieldsFrom3 (xr / a.gx) sc om u) (fieldsFrom3 (xr / a.gx) sc' om' u') := by
    rw [← hlen]
    exact ⟨cen _ _ hsc, fun j => cen _ _ (hom j), sc1, sc2, in1, in2, fun j G _ _ => cen _ _ (hu j) G⟩
  have fin := run3_moved (P := ⟨a.gz, a.gy, a.gx, xr, nu, widthOf a.width, a.freeStream, filterNums (filterInUse a)⟩)
    (P' := ⟨a'.gz, a'.gy, a'.gx, xr', nu, widthOf a'.width, a'.freeStream, filterNums (filterInUse a')⟩)
    (s0 := (fieldsFrom3 (xr / a.gx) sc om u, time)) (s0' := (fieldsFrom3 (xr / a.gx) sc' om' u', time'))
    hK hq a.flowType hdx rfl hfn hfs cfl tol hk hw hw' hys (hlen ▸ hΦ1) (hlen ▸ hΦ2) hpre start ys.length le_rfl
  rw [List.take_length, List.take_of_length_le (by rw [hys.length_eq])] at fin
  obtain ⟨r1, r2, r3⟩ := sim3_run h hxr hnu hcfl htol hK hK0 time dbl0 conv0 sc om u hxy
  obtain ⟨q1, q2, q3⟩ := sim3_run h' hxr' hnu hcfl htol hK hK0 time' dbl0' conv0' sc' om' u' hxy'
  rw [hft, hdx] at q3
  have out0 : ∀ {gz gy gx k : ℕ} {G : C3}, ¬ Dom3 gz gy gx G → ¬ Away3 gz gy gx k G := fun hG ha => hG (away3_dom ha)
  intro out out'
  refine ⟨r1, q1, ?_, ?_, ?_⟩
  · intro c p c' p' hc hp hc' hp' hG
    obtain ⟨e1, e2⟩ := r3 c p hc hp
    obtain ⟨f1, f2⟩ := q3 c' p' hc' hp'
    refine ⟨?_, fun j => ⟨?_, fun g1 g2 => ?_⟩⟩
    · rw [e1, f1, hG]
      exact fin.sc _
    · rw [(e2 j).1, (f2 j).1, hG]
      exact fin.om j _
    · rw [(e2 j).2, (f2 j).2, hG]
      rw [hG] at g2
      exact fin.u j _ g1 g2
  · intro c' p' hc' hp' hn
    obtain ⟨f1, f2⟩ := q3 c' p' hc' hp'
    refine ⟨?_, fun j => ?_⟩
    · rw [f1]
      have q := fin.sc (globalIx3 T' a'.g c' p' - s)
      rw [sub_add_cancel] at q
      rw [q]
      exact fin.sc1 _ (out0 hn)
    · rw [(f2 j).1]
      have q := fin.om j (globalIx3 T' a'.g c' p' - s)
      rw [sub_add_cancel] at q
      rw [q]
      exact fin.in1 j _ (out0 hn)
  · intro c p hc hp hn
    obtain ⟨e1, e2⟩ := r3 c p hc hp
    refine ⟨?_, fun j => ?_⟩
    · rw [e1, ← fin.sc (globalIx3 T a.g c p)]
      exact fin.sc2 _ (out0 hn)
    · rw [(e2 j).1, ← fin.om j (globalIx3 T a.g c p)]
      exact fin.in2 j _ (out0 hn)

/-- C107: with given time steps the time advances alike of itself. -/
theorem sim3_placement_fixed {a a' : SimArgs3} (h : Fit3 a T) (h' : Fit3 a' T') (hft : a'.flowType = a.flowType) (hfs : a'.freeStream = a.freeStream) (hflt : filterInUse a' = filterInUse a)
    {xr xr' : ℝ} (hxr : 0 < xr) (hxr' : 0 < xr') (hdx : xr' / a'.gx = xr / a.gx) {nu : ℝ} (hnu : 0 ≤ nu) {cfl : ℝ} (hcfl : 0 ≤ cfl) {tol : ℝ} (htol : 0 < tol)
    {K : Kern3} (hK : K.Local) (hK0 : ∀ r, K.upd r (fun _ _ => 0) = 0) (hq : Quiet3 K)
    (time time' : ℝ) (dbl0 dbl0' : World C3 C3 ℝ) (conv0 : Dbl3 T → ℂ) (conv0' : Dbl3 T' → ℂ) (sc sc' : ℝ → ℝ → ℝ → ℝ) (om om' u u' : Fin 3 → ℝ → ℝ → ℝ → ℝ)
    {xs xs' : List StepIn3} {ys ys' : List StepSpec3} (hxy : List.Forall₂ (Means3 a.gz a.gy a.gx T (simCfg3 a xr nu cfl)) xs ys)
    (hxy' : List.Forall₂ (Means3 a'.gz a'.gy a'.gx T' (simCfg3 a' xr' nu cfl)) xs' ys')
    {dts : List ℝ} (hd : xs.map StepIn3.rule = dts.map DtRule.fixed) (hd' : xs'.map StepIn3.rule = dts.map DtRule.fixed)
    (s : C3) (k : ℕ) (hk : 2 ≤ k) (hw : widthOf a.width ≤ k) (hw' : widthOf a'.width ≤ k)
    (hsc : ∀ x y z, sc' (x + s.2.2 * (xr / a.gx)) (y + s.2.1 * (xr / a.gx)) (z + s.1 * (xr / a.gx)) = sc x y z)
    (hom : ∀ j x y z, om' j (x + s.2.2 * (xr / a.gx)) (y + s.2.1 * (xr / a.gx)) (z + s.1 * (xr / a.gx)) = om j x y z)
    (hu : ∀ j x y z, u' j (x + s.2.2 * (xr / a.gx)) (y + s.2.1 * (xr / a.gx)) (z + s.1 * (xr / a.gx)) = u j x y z)
    (hys : List.Forall₂ (fun y y' => y'.fs = y.fs ∧ ∀ j G, y'.Φ j (G + s) = y.Φ j G) ys ys')
    (sc1 : Within3 a.gz a.gy a.gx (k + reach3 a * xs.length) (fieldsFrom3 (xr / a.gx) sc om u).sc)
    (sc2 : Within3 a'.gz a'.gy a'.gx (k + reach3 a * xs.length) (fieldsFrom3 (xr / a.gx) sc' om' u').sc)
    (in1 : ∀ j, Within3 a.gz a.gy a.gx (k + reach3 a * xs.length) ((fieldsFrom3 (xr / a.gx) sc om u).om j))
    (in2 : ∀ j, Within3 a'.gz a'.gy a'.gx (k + reach3 a * xs.length) ((fieldsFrom3 (xr / a.gx) sc' om' u').om j))
    (hΦ1 : ∀ y ∈ ys, ∀ j, Within3 a.gz a.gy a.gx (k + reach3 a * xs.length + 1) (y.Φ j)) (hΦ2 : ∀ y ∈ ys', ∀ j, Within3 a'.gz a'.gy a'.gx (k + reach3 a * xs.length + 1) (y.Φ j)) :
    let out := simLoop3 (simCfg3 a xr nu cfl) K tol xs (initFrom3 T a.g xr time dbl0 conv0 sc om u)
    let out' := simLoop3 (simCfg3 a' xr' nu cfl) K tol xs' (initFrom3 T' a'.g xr' time' dbl0' conv0' sc' om' u')
    out.2 = none ∧ out'.2 = none ∧ out.1.time - time = out'.1.time - time' ∧
    (∀ c p c' p', Valid3 T c → Inner3 T a.g p → Valid3 T' c' → Inner3 T' a'.g p' → globalIx3 T' a'.g c' p' = globalIx3 T a.g c p + s →
      out'.1.sc c' p' = out.1.sc c p ∧ ∀ j, out'.1.om j c' p' = out.1.om j c p ∧
        (Away3 a.gz a.gy a.gx 1 (globalIx3 T a.g c p) → Away3 a'.gz a'.gy a'.gx 1 (globalIx3 T' a'.g c' p') → out'.1.vel j c' p' = out.1.vel j c p)) ∧
    (∀ c' p', Valid3 T' c' → Inner3 T' a'.g p' → ¬ Dom3 a.gz a.gy a.gx (globalIx3 T' a'.g c' p' - s) → out'.1.sc c' p' = 0 ∧ ∀ j, out'.1.om j c' p' = 0) ∧
    (∀ c p, Valid3 T c → Inner3 T a.g p → ¬ Dom3 a'.gz a'.gy a'.gx (globalIx3 T a.g c p + s) → out.1.sc c p = 0 ∧ ∀ j, out.1.om j c p = 0) := by
  have rules : ∀ {T : Cart3} {gz gy gx : ℕ} {C : Cfg3} {xs : List StepIn3} {ys : List StepSpec3}, List.Forall₂ (Means3 gz gy gx T C) xs ys → ys.map StepSpec3.rule = xs.map StepIn3.rule := by
    intro T gz gy gx C xs ys hxy
    induction hxy with
    | nil => rfl
    | cons h _ ih => rw [List.map_cons, List.map_cons, ih, h.rule]
  have hdt : ∀ n, (simLoop3 (simCfg3 a xr nu cfl) K tol (xs.take n) (initFrom3 T a.g xr time dbl0 conv0 sc om u)).1.time - time =
      (simLoop3 (simCfg3 a' xr' nu cfl) K tol (xs'.take n) (initFrom3 T' a'.g xr' time' dbl0' conv0' sc' om' u')).1.time - time' := by
    intro n
    rw [(sim3_run h hxr hnu hcfl htol hK hK0 time dbl0 conv0 sc om u (List.forall₂_take n hxy)).2.1, (sim3_run h' hxr' hnu hcfl htol hK hK0 time' dbl0' conv0' sc' om' u' (List.forall₂_take n hxy')).2.1,
      refRun3_fixed_time (dts := dts.take n) (by rw [List.map_take, rules hxy, hd, List.map_take]),
      refRun3_fixed_time (dts := dts.take n) (by rw [List.map_take, rules hxy', hd', List.map_take])]
    ring
  obtain ⟨r1, r2, r3, r4, r5⟩ := sim3_placement h h' hft hfs hflt hxr hxr' hdx hnu hcfl htol hK hK0 hq time time' dbl0 dbl0' conv0 conv0' sc sc' om om' u u' hxy hxy' s k hk hw hw' hsc hom hu hys
    sc1 sc2 in1 in2 hΦ1 hΦ2 hdt
  refine ⟨r1, r2, ?_, r3, r4, r5⟩
  have q := hdt (max xs.length xs'.length)
  rwa [List.take_of_length_le (le_max_left _ _), List.take_of_length_le (le_max_right _ _)] at q

end Ranks

/-! ## The assumptions hold -/

/-- the kernels of `sopht` change nothing where the carried field vanishes -/
theorem exKern3_quiet : Quiet3 exKern3 := by
  constructor
  · intro a f h
    simp only [exKern3]
    repeat rw [h _ (by simp [Cross3])]
    ring
  · intro a f h
    simp only [exKern3]
    have hx : ∀ i : Fin 3, f none 0 = 0 ∧ f none (axisStep i) = 0 ∧ f none (-axisStep i) = 0 ∧ f none (2 • axisStep i) = 0 ∧ f none (-2 • axisStep i) = 0 := by
      intro i
      fin_cases i <;> refine ⟨h _ ?_, h _ ?_, h _ ?_, h _ ?_, h _ ?_⟩ <;> simp [Cross3, axisStep]
    rw [Finset.sum_eq_zero, mul_zero]
    intro i _
    obtain ⟨h0, h1, h2, h3, h4⟩ := hx i
    rw [h0, h1, h2, h3, h4]
    simp [upwind3]
  · intro a f h
    simp only [exKern3]
    repeat rw [h _ _ (by simp [Cross3])]
    simp

/-- Vorticity in one cell of a grid of 24³ cells and in the cell 3, 7 and 5 cells further of a grid of 32 × 32 × 48 cells, with room for one step with a filter of order five, and the two simulators: all the
assumptions are met. -/
example : (∃ om om' : ℝ → ℝ → ℝ → ℝ, (∀ x y z, om' (x + (5 : ℤ) * (1 / (24 : ℕ))) (y + (7 : ℤ) * (1 / (24 : ℕ))) (z + (3 : ℤ) * (1 / (24 : ℕ))) = om x y z) ∧
      Within3 24 24 24 (2 + 8 * 1) (atCentre3 (1 / (24 : ℕ)) om) ∧ Within3 32 32 48 (2 + 8 * 1) (atCentre3 (1 / (24 : ℕ)) om') ∧ atCentre3 (1 / (24 : ℕ)) om (12, 12, 12) = 1) ∧
    (2 : ℝ) / (48 : ℕ) = 1 / (24 : ℕ) ∧
    reach3 ⟨24, 24, 24, 2, 1, 1, "navier_stokes", true, some (.int 5, "convolution"), true, 1, .int 2⟩ = 8 ∧
    filterInUse ⟨32, 32, 48, 1, 2, 1, "navier_stokes", true, some (.int 5, "convolution"), true, 2, .int 2⟩ =
      filterInUse ⟨24, 24, 24, 2, 1, 1, "navier_stokes", true, some (.int 5, "convolution"), true, 1, .int 2⟩ ∧
    Fit3 ⟨24, 24, 24, 2, 1, 1, "navier_stokes", true, some (.int 5, "convolution"), true, 1, .int 2⟩ ⟨24, 24, 24, 2, 1, 1, 12, 24, 24, false⟩ ∧
    Fit3 ⟨32, 32, 48, 1, 2, 1, "navier_stokes", true, some (.int 5, "convolution"), true, 2, .int 2⟩ ⟨32, 32, 48, 1, 2, 1, 32, 16, 48, false⟩ := by
  refine ⟨?_, by norm_num, by decide, by decide, ?_, ?_⟩
  · have hn : ∀ (n m : ℤ), ((n : ℝ) + 1 / 2) * (1 / (24 : ℕ)) - m * (1 / (24 : ℕ)) = 25 / 48 ↔ n = 12 + m := by
      intro n m
      push_cast
      constructor
      · intro h
        have : (n : ℝ) = 12 + m := by linarith
        exact_mod_cast this
      · rintro rfl
        push_cast
        ring
    have hn0 : ∀ (n : ℤ), ((n : ℝ) + 1 / 2) * (1 / (24 : ℕ)) = 25 / 48 ↔ n = 12 := by
      intro n
      have := hn n 0
      simpa using this
    refine ⟨fun x y z => if x = 25 / 48 ∧ y = 25 / 48 ∧ z = 25 / 48 then 1 else 0,
      fun x y z => if x - (5 : ℤ) * (1 / (24 : ℕ)) = 25 / 48 ∧ y - (7 : ℤ) * (1 / (24 : ℕ)) = 25 / 48 ∧ z - (3 : ℤ) * (1 / (24 : ℕ)) = 25 / 48 then 1 else 0, ?_, ?_, ?_, ?_⟩
    · intro x y z
      simp only [add_sub_cancel_right]
    · intro G hG
      simp only [atCentre3]
      rw [if_neg]
      rintro ⟨h1, h2, h3⟩
      rw [hn0] at h1 h2 h3
      exact hG (by unfold Away3; rw [h1, h2, h3]; decide)
    · intro G hG
      simp only [atCentre3]
      rw [if_neg]
      rintro ⟨h1, h2, h3⟩
      rw [hn] at h1 h2 h3
      exact hG (by unfold Away3; rw [h1, h2, h3]; decide)
    · simp only [atCentre3]
      exact if_pos ⟨(hn0 12).2 rfl, (hn0 12).2 rfl, (hn0 12).2 rfl⟩
  all_goals
    refine ⟨by decide, (by intro h; cases h), fun _ => ⟨by decide, by decide, ⟨2, rfl, by decide, by decide, by decide, by decide⟩, by unfold EvenTopo3; decide, ?_⟩⟩
    intro o ty hf
    simp [filterInUse] at hf
    omega

end Sopht
