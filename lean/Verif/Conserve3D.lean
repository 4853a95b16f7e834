import Verif.Restart3D
import Verif.Conserve2D

/-!
# Circulation, maximum principle and divergence in 3D (C90, C91, C92, C93)

As in 2D (`Verif/Conserve2D.lean`), the kernels of the `sopht` package are the central differences the prefactors of the simulator are made for
(`flow_simulators_mpi_3d.py:356-424`, `451-458`), and an advection kernel in flux form.  The Laplacian filter is the one of the repository.
-/

namespace Sopht

open Finset

/-! ## Specification -/

/-- The seven-point Laplacian. -/
def SevenPoint (k : ℝ → (Unit → C3 → ℝ) → ℝ) : Prop :=
  ∀ a f, k a f = a * (f () (1, 0, 0) + f () (-1, 0, 0) + f () (0, 1, 0) + f () (0, -1, 0) + f () (0, 0, 1) + f () (0, 0, -1) - 6 * f () (0, 0, 0))

/-- Curl of a vector field (component 0 along x), cells are `(z, y, x)`: `(∂f₂/∂y - ∂f₁/∂z, ∂f₀/∂z - ∂f₂/∂x, ∂f₁/∂x - ∂f₀/∂y)`. -/
def CentralCurl3 (k : ℝ → (Fin 3 → C3 → ℝ) → ℝ × ℝ × ℝ) : Prop :=
  ∀ a f, k a f = (a * (f 2 (0, 1, 0) - f 2 (0, -1, 0) - (f 1 (1, 0, 0) - f 1 (-1, 0, 0))),
    a * (f 0 (1, 0, 0) - f 0 (-1, 0, 0) - (f 2 (0, 0, 1) - f 2 (0, 0, -1))),
    a * (f 1 (0, 0, 1) - f 1 (0, 0, -1) - (f 0 (0, 1, 0) - f 0 (0, -1, 0))))

/-- Divergence of a vector field, argument `1 / dx`. -/
def CentralDivKern3 (k : ℝ → (Fin 3 → C3 → ℝ) → ℝ) : Prop :=
  ∀ a f, k a f = a / 2 * (f 0 (0, 0, 1) - f 0 (0, 0, -1) + (f 1 (0, 1, 0) - f 1 (0, -1, 0)) + (f 2 (1, 0, 0) - f 2 (-1, 0, 0)))

/-- Advection in flux form: what leaves a cell through a face enters the next cell; no flux where the advected field vanishes in the four cells around the face. -/
def FluxForm3 (k : ℝ → (Option (Fin 3) → C3 → ℝ) → ℝ) : Prop :=
  ∃ X : Fin 3 → (Option (Fin 3) → C3 → ℝ) → ℝ,
    (∀ a f, k a f = a * ∑ i, (X i f - X i fun j d => f j (d - axisStep i))) ∧
    ∀ i f, (∀ n : ℤ, -1 ≤ n → n ≤ 2 → f none (n • axisStep i) = 0) → X i f = 0

/-- `f` vanishes in all cells less than `k` cells away from a side of the grid, and outside. -/
def Within3 (gz gy gx k : ℕ) (f : C3 → ℝ) : Prop := ∀ G, ¬ Away3 gz gy gx k G → f G = 0

/-- Sum over the grid. -/
noncomputable def total3 (gz gy gx : ℕ) (f : C3 → ℝ) : ℝ := ∑ G ∈ Ico (0 : ℤ) gz ×ˢ Ico (0 : ℤ) gy ×ˢ Ico (0 : ℤ) gx, f G

/-- Central divergence of a vector field (component 0 along x) at cell `G = (z, y, x)`, times `2 dx`. -/
def centralDiv3 (U : Fin 3 → C3 → ℝ) (G : C3) : ℝ :=
  U 0 (G.1, G.2.1, G.2.2 + 1) - U 0 (G.1, G.2.1, G.2.2 - 1) + (U 1 (G.1, G.2.1 + 1, G.2.2) - U 1 (G.1, G.2.1 - 1, G.2.2)) +
    (U 2 (G.1 + 1, G.2.1, G.2.2) - U 2 (G.1 - 1, G.2.1, G.2.2))

/-! ## Support -/

variable {gz gy gx : ℕ}

/-- `f` vanishes off the cells `k` deep inside the grid. -/
def Sup3 (gz gy gx : ℕ) (k : C3) (f : C3 → ℝ) : Prop := ∀ G, ¬ Deep3 gz gy gx k G → f G = 0

theorem Sup3.mono {k k' : C3} {f : C3 → ℝ} (h : Sup3 gz gy gx k' f) (h1 : k.1 ≤ k'.1) (h2 : k.2.1 ≤ k'.2.1) (h3 : k.2.2 ≤ k'.2.2) : Sup3 gz gy gx k f :=
  fun G hG => h G fun hd => hG (deep3_anti h1 h2 h3 hd)

theorem within3_sup {k : ℕ} {f : C3 → ℝ} : Within3 gz gy gx k f ↔ Sup3 gz gy gx (k, k, k) f := by
  have : ∀ G, Away3 gz gy gx k G ↔ Deep3 gz gy gx (k, k, k) G := by
    intro G
    unfold Away3 Deep3
    simp only
    omega
  unfold Within3 Sup3
  simp only [this]

/-- `f` is zero in a cell one step from a cell that is not deep -/
theorem Sup3.zero {k d : C3} {f : C3 → ℝ} {n : ℤ} (h : Sup3 gz gy gx (k + (n, n, n)) f) {G : C3} (hG : ¬ Deep3 gz gy gx k G) (h1 : |d.1| ≤ n) (h2 : |d.2.1| ≤ n) (h3 : |d.2.2| ≤ n) :
    f (G + d) = 0 := by
  rw [abs_le] at h1 h2 h3
  apply h
  unfold Deep3 at *
  simp only [Prod.fst_add, Prod.snd_add]
  omega

theorem Sup3.self {k : C3} {f : C3 → ℝ} {n : ℤ} (hn : 0 ≤ n) (h : Sup3 gz gy gx (k + (n, n, n)) f) : Sup3 gz gy gx k f := by
  refine h.mono ?_ ?_ ?_ <;> simp only [Prod.fst_add, Prod.snd_add] <;> omega

/-! ## Sums -/

theorem total3_finsum {f : C3 → ℝ} (h : Sup3 gz gy gx (0, 0, 0) f) : total3 gz gy gx f = ∑ᶠ G, f G := by
  unfold total3
  symm
  apply finsum_eq_sum_of_support_subset
  intro G hG
  have : Deep3 gz gy gx (0, 0, 0) G := by
    by_contra hn
    exact hG (h G hn)
  unfold Deep3 at this
  simp only [coe_product, coe_Ico, Set.mem_prod, Set.mem_Ico]
  simp only at this
  omega

theorem total3_shift {k : C3} {f : C3 → ℝ} (h : Sup3 gz gy gx k f) (d : C3) (h1 : |d.1| ≤ k.1) (h2 : |d.2.1| ≤ k.2.1) (h3 : |d.2.2| ≤ k.2.2) :
    total3 gz gy gx (fun G => f (G + d)) = total3 gz gy gx f := by
  rw [abs_le] at h1 h2 h3
  rw [total3_finsum (h.mono (by simp only; omega) (by simp only; omega) (by simp only; omega)), total3_finsum]
  · exact finsum_comp_equiv (Equiv.addRight d)
  · intro G hG
    apply h
    intro ha
    apply hG
    unfold Deep3 at *
    simp only [Prod.fst_add, Prod.snd_add] at ha
    simp only
    omega

theorem total3_congr {f f' : C3 → ℝ} (h : ∀ G, Dom3 gz gy gx G → f G = f' G) : total3 gz gy gx f = total3 gz gy gx f' := by
  refine Finset.sum_congr rfl fun G hG => h G ?_
  simp only [mem_product, mem_Ico] at hG
  unfold Dom3
  omega

theorem total3_add (f f' : C3 → ℝ) : total3 gz gy gx (fun G => f G + f' G) = total3 gz gy gx f + total3 gz gy gx f' := Finset.sum_add_distrib
theorem total3_sub (f f' : C3 → ℝ) : total3 gz gy gx (fun G => f G - f' G) = total3 gz gy gx f - total3 gz gy gx f' := Finset.sum_sub_distrib _ _
theorem total3_mul (a : ℝ) (f : C3 → ℝ) : total3 gz gy gx (fun G => a * f G) = a * total3 gz gy gx f := (Finset.mul_sum _ _ _).symm

theorem axisStep_abs (a : Fin 3) : |(axisStep a).1| ≤ 1 ∧ |(axisStep a).2.1| ≤ 1 ∧ |(axisStep a).2.2| ≤ 1 := by
  match a with
  | 0 => decide
  | 1 => decide
  | 2 => decide

/-! ## The operators on the whole lattice -/

/-- One dimensional Laplacian along axis `a`, scaled as in the filter. -/
noncomputable def gLap (a : Fin 3) (f : C3 → ℝ) (G : C3) : ℝ := (2 * f G - f (G + axisStep a) - f (G - axisStep a)) / 4

/-- Diffusion with number `e`. -/
noncomputable def gDiff (e : ℝ) (f : C3 → ℝ) (G : C3) : ℝ := f G - 4 * e * (gLap 0 f G + gLap 1 f G + gLap 2 f G)

/-- The filter. -/
noncomputable def gFilter : Option (ℕ × String) → (C3 → ℝ) → C3 → ℝ
  | none => fun f => f
  | some (p, ty) => if ty = "multiplicative" then fun f => f - (fun f => gLap 2 (gLap 1 (gLap 0 f)))^[p] f
      else fun f => (fun f => f - (gLap 2)^[p] f) ((fun f => f - (gLap 1)^[p] f) ((fun f => f - (gLap 0)^[p] f) f))

theorem gLap_sup {k : C3} {a : Fin 3} {f : C3 → ℝ} (h : Sup3 gz gy gx (k + axisStep a) f) : Sup3 gz gy gx k (gLap a f) := by
  intro G hG
  have h0 : f G = 0 := by
    apply h
    intro hd
    apply hG
    refine deep3_anti ?_ ?_ ?_ hd <;> (match a with | 0 => simp [axisStep] | 1 => simp [axisStep] | 2 => simp [axisStep])
  have h1 : f (G + axisStep a) = 0 := by
    apply h
    intro hd
    apply hG
    unfold Deep3 at *
    match a with | 0 => simp [axisStep] at hd ⊢; omega | 1 => simp [axisStep] at hd ⊢; omega | 2 => simp [axisStep] at hd ⊢; omega
  have h2 : f (G - axisStep a) = 0 := by
    apply h
    intro hd
    apply hG
    unfold Deep3 at *
    match a with | 0 => simp [axisStep] at hd ⊢; omega | 1 => simp [axisStep] at hd ⊢; omega | 2 => simp [axisStep] at hd ⊢; omega
  unfold gLap
  rw [h0, h1, h2]
  norm_num

theorem serialLap_gLap {k : C3} (k1 : 1 ≤ k.1) (k2 : 1 ≤ k.2.1) (k3 : 1 ≤ k.2.2) {a : Fin 3} {f : C3 → ℝ} (h : Sup3 gz gy gx (k + axisStep a) f) :
    serialLap gz gy gx 1 false a f = gLap a f ∧ Sup3 gz gy gx k (gLap a f) := by
  have hs := gLap_sup h
  refine ⟨?_, hs⟩
  funext G
  unfold serialLap
  split
  · rename_i hn
    symm
    apply hs
    intro hd
    apply hn.2
    unfold Away3
    unfold Deep3 at hd
    omega
  · rfl

/-- operators that agree and shrink the support by `e`, applied `n` times -/
theorem iterate_sup {A B : (C3 → ℝ) → C3 → ℝ} {e : C3} (e0 : 0 ≤ e.1 ∧ 0 ≤ e.2.1 ∧ 0 ≤ e.2.2)
    (h : ∀ {k : C3}, 1 ≤ k.1 → 1 ≤ k.2.1 → 1 ≤ k.2.2 → ∀ {f}, Sup3 gz gy gx (k + e) f → A f = B f ∧ Sup3 gz gy gx k (B f)) {f : C3 → ℝ} :
    ∀ (n : ℕ) {k : C3}, 1 ≤ k.1 → 1 ≤ k.2.1 → 1 ≤ k.2.2 → Sup3 gz gy gx (k + n • e) f → A^[n] f = B^[n] f ∧ Sup3 gz gy gx k (B^[n] f)
  | 0, k, _, _, _, hf => ⟨rfl, by simpa using hf⟩
  | n + 1, k, h1, h2, h3, hf => by
    have hf' : Sup3 gz gy gx (k + e + n • e) f := by
      rw [add_assoc, ← succ_nsmul']
      exact hf
    obtain ⟨e1, s1⟩ := iterate_sup e0 h n (k := k + e) (by simp only [Prod.fst_add]; omega) (by simp only [Prod.fst_add, Prod.snd_add]; omega)
      (by simp only [Prod.snd_add]; omega) hf'
    rw [Function.iterate_succ_apply', Function.iterate_succ_apply', e1]
    exact h h1 h2 h3 s1

theorem convDir_sup {k : C3} (k1 : 1 ≤ k.1) (k2 : 1 ≤ k.2.1) (k3 : 1 ≤ k.2.2) {a : Fin 3} {p : ℕ} {f : C3 → ℝ} (h : Sup3 gz gy gx (k + p • axisStep a) f) :
    serialConvDir gz gy gx 1 false p a f = f - (gLap a)^[p] f ∧ Sup3 gz gy gx k (f - (gLap a)^[p] f) := by
  have e0 : 0 ≤ (axisStep a).1 ∧ 0 ≤ (axisStep a).2.1 ∧ 0 ≤ (axisStep a).2.2 := by
    match a with | 0 => decide | 1 => decide | 2 => decide
  obtain ⟨e1, s1⟩ := iterate_sup e0 (fun h1 h2 h3 _ hf => serialLap_gLap h1 h2 h3 hf) p k1 k2 k3 h
  constructor
  · funext G
    unfold serialConvDir
    rw [e1]
    rfl
  · intro G hG
    have : Sup3 gz gy gx k f := by
      refine h.mono ?_ ?_ ?_ <;> simp only [Prod.fst_add, Prod.snd_add, Prod.smul_fst, Prod.smul_snd, nsmul_eq_mul] <;>
        first
        | exact le_add_of_nonneg_right (mul_nonneg (Int.natCast_nonneg _) e0.1)
        | exact le_add_of_nonneg_right (mul_nonneg (Int.natCast_nonneg _) e0.2.1)
        | exact le_add_of_nonneg_right (mul_nonneg (Int.natCast_nonneg _) e0.2.2)
    rw [Pi.sub_apply, this G hG, s1 G hG, sub_zero]

theorem mulStep_sup {k : C3} (k1 : 1 ≤ k.1) (k2 : 1 ≤ k.2.1) (k3 : 1 ≤ k.2.2) {f : C3 → ℝ} (h : Sup3 gz gy gx (k + (1, 1, 1)) f) :
    serialLap gz gy gx 1 false 2 (serialLap gz gy gx 1 false 1 (serialLap gz gy gx 1 false 0 f)) = gLap 2 (gLap 1 (gLap 0 f)) ∧
      Sup3 gz gy gx k (gLap 2 (gLap 1 (gLap 0 f))) := by
  obtain ⟨k1', k2', k3'⟩ := k
  simp only at k1 k2 k3
  obtain ⟨e1, s1⟩ := serialLap_gLap (k := (k1' + 1, k2' + 1, k3')) (a := 0) (f := f) (by simp only; omega) (by simp only; omega) (by simp only; omega) (by simpa [axisStep] using h)
  obtain ⟨e2, s2⟩ := serialLap_gLap (k := (k1' + 1, k2', k3')) (a := 1) (f := gLap 0 f) (by simp only; omega) (by simp only; omega) (by simp only; omega) (by simpa [axisStep] using s1)
  obtain ⟨e3, s3⟩ := serialLap_gLap (k := (k1', k2', k3')) (a := 2) (f := gLap 1 (gLap 0 f)) (by simp only; omega) (by simp only; omega) (by simp only; omega)
    (by simpa [axisStep] using s2)
  rw [e1, e2, e3]
  exact ⟨rfl, s3⟩

section Parts
variable {P : Params3} {K : Kern3}

theorem filter3_sup {k : ℤ} (hk : 1 ≤ k) {f : C3 → ℝ} (h : Sup3 P.gz P.gy P.gx (k + fltOrder P.flt, k + fltOrder P.flt, k + fltOrder P.flt) f) :
    refFilter3 P f = gFilter P.flt f ∧ Sup3 P.gz P.gy P.gx (k, k, k) (gFilter P.flt f) := by
  unfold refFilter3
  rcases hf : P.flt with _ | ⟨p, ty⟩
  · rw [hf] at h
    exact ⟨rfl, by simpa [fltOrder, gFilter] using h⟩
  · rw [hf] at h
    simp only [fltOrder] at h
    simp only [gFilter]
    split_ifs
    · obtain ⟨e1, s1⟩ := iterate_sup (e := (1, 1, 1)) (by decide) (fun h1 h2 h3 _ hf => mulStep_sup h1 h2 h3 hf) p (k := (k, k, k)) hk hk hk (by simpa using h)
      constructor
      · funext G
        unfold serialMultiplicative
        rw [e1]
        rfl
      · intro G hG
        change f G - ((fun f => gLap 2 (gLap 1 (gLap 0 f)))^[p] f) G = 0
        rw [s1 G hG, (h.mono (k := (k, k, k)) (by simp) (by simp) (by simp)) G hG, sub_zero]
    · unfold serialConvolution
      obtain ⟨e1, s1⟩ := convDir_sup (k := (k + p, k + p, k)) (a := 0) (p := p) (f := f) (by simp only; omega) (by simp only; omega) (by simp only; omega) (by simpa [axisStep] using h)
      obtain ⟨e2, s2⟩ := convDir_sup (k := (k + p, k, k)) (a := 1) (p := p) (f := f - (gLap 0)^[p] f) (by simp only; omega) (by simp only; omega) (by simp only; omega)
        (by simpa [axisStep] using s1)
      obtain ⟨e3, s3⟩ := convDir_sup (k := (k, k, k)) (a := 2) (p := p) (f := f - (gLap 0)^[p] f - (gLap 1)^[p] (f - (gLap 0)^[p] f)) (by simp only; omega) (by simp only; omega)
        (by simp only; omega) (by simpa [axisStep] using s2)
      rw [e1, e2, e3]
      exact ⟨rfl, s3⟩

theorem diff3_sup (hK : SevenPoint K.diff) {k : C3} {f : C3 → ℝ} (h : Sup3 P.gz P.gy P.gx (k + (1, 1, 1)) f) (h2 : Sup3 P.gz P.gy P.gx (2, 2, 2) f) (dt : ℝ) :
    refDiff3 P K dt f = gDiff (P.nu * dt / P.dx / P.dx) f ∧ Sup3 P.gz P.gy P.gx k (gDiff (P.nu * dt / P.dx / P.dx) f) := by
  have hz : ∀ {k : C3} {f : C3 → ℝ}, Sup3 P.gz P.gy P.gx (k + (1, 1, 1)) f → ∀ {G}, ¬ Deep3 P.gz P.gy P.gx k G → ∀ a, gLap a f G = 0 := by
    intro k f h G hG a
    obtain ⟨b1, b2, b3⟩ := axisStep_abs a
    have z0 := h.self (by norm_num) G hG
    have z1 := h.zero (d := axisStep a) hG b1 b2 b3
    have z2 := h.zero (d := -axisStep a) hG (by simpa using b1) (by simpa using b2) (by simpa using b3)
    unfold gLap
    rw [z0, z1, sub_eq_add_neg G, z2]
    norm_num
  constructor
  · funext G
    unfold refDiff3 gDiff
    split
    · rw [hK]
      unfold gLap
      have e : ∀ d : C3, f (G.1 + d.1, G.2.1 + d.2.1, G.2.2 + d.2.2) = f (G + d) := fun _ => rfl
      have s : ∀ d : C3, G - d = G + -d := fun d => sub_eq_add_neg G d
      simp only [s]
      have a0 : axisStep 0 = (0, 0, 1) := rfl
      have a1 : axisStep 1 = (0, 1, 0) := rfl
      have a2 : axisStep 2 = (1, 0, 0) := rfl
      have n0 : -((0, 0, 1) : C3) = (0, 0, -1) := rfl
      have n1 : -((0, 1, 0) : C3) = (0, -1, 0) := rfl
      have n2 : -((1, 0, 0) : C3) = (-1, 0, 0) := rfl
      have z : G + ((0, 0, 0) : C3) = G := add_zero G
      have q0 := e (1, 0, 0)
      have q1 := e (-1, 0, 0)
      have q2 := e (0, 1, 0)
      have q3 := e (0, -1, 0)
      have q4 := e (0, 0, 1)
      have q5 := e (0, 0, -1)
      have q6 := e (0, 0, 0)
      simp only at q0 q1 q2 q3 q4 q5 q6
      rw [q0, q1, q2, q3, q4, q5, q6, a0, a1, a2, n0, n1, n2, z]
      ring
    · rename_i hn
      have hd : ¬ Deep3 P.gz P.gy P.gx (1, 1, 1) G := by
        intro hd
        apply hn
        unfold Deep3 at hd
        unfold Dom3 OnEdge3
        simp only at hd
        omega
      rw [hz (k := (1, 1, 1)) h2 hd, hz (k := (1, 1, 1)) h2 hd, hz (k := (1, 1, 1)) h2 hd]
      ring
  · intro G hG
    unfold gDiff
    rw [hz h hG, hz h hG, hz h hG, h.self (by norm_num) G hG]
    ring

/-- The curl on the lattice, times `2 dx`. -/
def gCurl (f : Fin 3 → C3 → ℝ) : Fin 3 → C3 → ℝ := ![
  fun G => f 2 (G + (0, 1, 0)) - f 2 (G + (0, -1, 0)) - (f 1 (G + (1, 0, 0)) - f 1 (G + (-1, 0, 0))),
  fun G => f 0 (G + (1, 0, 0)) - f 0 (G + (-1, 0, 0)) - (f 2 (G + (0, 0, 1)) - f 2 (G + (0, 0, -1))),
  fun G => f 1 (G + (0, 0, 1)) - f 1 (G + (0, 0, -1)) - (f 0 (G + (0, 1, 0)) - f 0 (G + (0, -1, 0)))]

theorem upd3_sup (hK : CentralCurl3 K.upd) {k : C3} (k0 : 0 ≤ k.1 ∧ 0 ≤ k.2.1 ∧ 0 ≤ k.2.2) {f om : Fin 3 → C3 → ℝ} (h : ∀ j, Sup3 P.gz P.gy P.gx (k + (1, 1, 1)) (f j)) (dt : ℝ) :
    (refUpd3 P K dt f om = fun j G => om j G + dt / (2 * P.dx) * gCurl f j G) ∧ ∀ j, Sup3 P.gz P.gy P.gx k (gCurl f j) := by
  have hs : ∀ j, Sup3 P.gz P.gy P.gx k (gCurl f j) := by
    intro j G hG
    have z : ∀ i (d : C3), |d.1| ≤ 1 → |d.2.1| ≤ 1 → |d.2.2| ≤ 1 → f i (G + d) = 0 := fun i d h1 h2 h3 => (h i).zero hG h1 h2 h3
    have zz : ∀ i, f i (G + (1, 0, 0)) = 0 ∧ f i (G + (-1, 0, 0)) = 0 ∧ f i (G + (0, 1, 0)) = 0 ∧ f i (G + (0, -1, 0)) = 0 ∧ f i (G + (0, 0, 1)) = 0 ∧ f i (G + (0, 0, -1)) = 0 :=
      fun i => ⟨z i _ (by decide) (by decide) (by decide), z i _ (by decide) (by decide) (by decide), z i _ (by decide) (by decide) (by decide),
        z i _ (by decide) (by decide) (by decide), z i _ (by decide) (by decide) (by decide), z i _ (by decide) (by decide) (by decide)⟩
    obtain ⟨a1, a2, a3, a4, a5, a6⟩ := zz 0
    obtain ⟨b1, b2, b3, b4, b5, b6⟩ := zz 1
    obtain ⟨c1, c2, c3, c4, c5, c6⟩ := zz 2
    unfold gCurl
    match j with
    | 0 => simp [b1, b2, c3, c4]
    | 1 => simp [a1, a2, c5, c6]
    | 2 => simp [a3, a4, b5, b6]
  refine ⟨?_, hs⟩
  funext j G
  unfold refUpd3
  split
  · rw [hK]
    congr 1
    match j with
    | 0 => rfl
    | 1 => rfl
    | 2 => rfl
  · rename_i hD
    rw [hs j G, mul_zero, add_zero]
    intro hd
    apply hD
    unfold Deep3 at hd
    unfold Dom3
    omega

theorem adv3_sup (hK : FluxForm3 K.adv) {k : C3} (k1 : 1 ≤ k.1) (k2 : 1 ≤ k.2.1) (k3 : 1 ≤ k.2.2) {f : C3 → ℝ} (h : Sup3 P.gz P.gy P.gx (k + (2, 2, 2)) f) (dt : ℝ)
    (u : Fin 3 → C3 → ℝ) :
    Sup3 P.gz P.gy P.gx k (refAdv3 P K dt u f) ∧ total3 P.gz P.gy P.gx (refAdv3 P K dt u f) = total3 P.gz P.gy P.gx f := by
  obtain ⟨X, hk, hX⟩ := hK
  set A : C3 → Option (Fin 3) → C3 → ℝ := fun G i d => match i with
    | none => f (G + d)
    | some j => u j (G + d) with hA
  have eX : ∀ i G, X i (fun j d => A G j (d - axisStep i)) = X i (A (G - axisStep i)) := by
    intro i G
    congr 1
    funext j d
    have : G + (d - axisStep i) = G - axisStep i + d := by abel
    rcases j with _ | j <;> simp only [hA, this]
  have e : ∀ G, refAdv3 P K dt u f G = if Dom3 P.gz P.gy P.gx G then f G + -(dt / P.dx) * ∑ i, (X i (A G) - X i (A (G - axisStep i))) else f G := by
    intro G
    unfold refAdv3
    have := hk (-(dt / P.dx)) (A G)
    simp only [eX] at this
    rw [← this]
    rfl
  have w1 : ∀ i, Sup3 P.gz P.gy P.gx k fun G => X i (A G) := by
    intro i G hG
    apply hX
    intro n n1 n2
    simp only [hA]
    refine h.zero hG ?_ ?_ ?_ <;> rw [abs_le] <;> (match i with | 0 => simp [axisStep] <;> omega | 1 => simp [axisStep] <;> omega | 2 => simp [axisStep] <;> omega)
  have w2 : ∀ i G, ¬ Deep3 P.gz P.gy P.gx k G → X i (A (G - axisStep i)) = 0 := by
    intro i G hG
    apply hX
    intro n n1 n2
    simp only [hA]
    have : G - axisStep i + n • axisStep i = G + (n - 1) • axisStep i := by
      rw [sub_smul, one_smul]; abel
    rw [this]
    refine h.zero hG ?_ ?_ ?_ <;> rw [abs_le] <;> (match i with | 0 => simp [axisStep] <;> omega | 1 => simp [axisStep] <;> omega | 2 => simp [axisStep] <;> omega)
  constructor
  · intro G hG
    rw [e]
    have h0 := h.self (by norm_num) G hG
    split
    · rw [h0, Finset.sum_eq_zero]
      · ring
      · intro i _
        have x1 : X i (A G) = 0 := w1 i G hG
        rw [x1, w2 i G hG, sub_zero]
    · exact h0
  · rw [total3_congr (f' := fun G => f G + -(dt / P.dx) * ∑ i, (X i (A G) - X i (A (G - axisStep i)))) fun G hG => by rw [e, if_pos hG]]
    rw [total3_add, total3_mul]
    have : total3 P.gz P.gy P.gx (fun G => ∑ i, (X i (A G) - X i (A (G - axisStep i)))) = 0 := by
      unfold total3
      rw [Finset.sum_comm]
      apply Finset.sum_eq_zero
      intro i _
      rw [Finset.sum_sub_distrib, sub_eq_zero]
      symm
      obtain ⟨b1, b2, b3⟩ := axisStep_abs i
      have := total3_shift (w1 i) (-axisStep i) (by simpa using b1.trans k1) (by simpa using b2.trans k2) (by simpa using b3.trans k3)
      simp only [← sub_eq_add_neg] at this
      exact this
    rw [this]
    ring

end Parts

theorem pen3_within {w : ℕ} {om : C3 → ℝ} (h : Within3 gz gy gx w om) : serialPen3 false gz gy gx w om = om := by
  unfold serialPen3
  have hx : (fun G : C3 => serialPen1 false gx w (fun j => om (G.1, G.2.1, j)) G.2.2) = om := by
    funext G
    rw [pen1_within]
    intro j hj
    apply h
    unfold Away3
    simp only
    omega
  have hx' : ∀ a b c : ℤ, serialPen1 false gx w (fun j => om (a, b, j)) c = om (a, b, c) := fun a b c => congrFun hx (a, b, c)
  have hy : (fun G : C3 => serialPen1 false gy w (fun j => om (G.1, j, G.2.2)) G.2.1) = om := by
    funext G
    rw [pen1_within]
    intro j hj
    apply h
    unfold Away3
    simp only
    omega
  have hy' : ∀ a b c : ℤ, serialPen1 false gy w (fun j => om (a, j, c)) b = om (a, b, c) := fun a b c => congrFun hy (a, b, c)
  funext G
  simp only [hx', hy']
  rw [pen1_within]
  intro j hj
  apply h
  unfold Away3
  simp only
  omega

/-! ## Totals -/

theorem gLap_total {a : Fin 3} {k : C3} (k1 : 1 ≤ k.1) (k2 : 1 ≤ k.2.1) (k3 : 1 ≤ k.2.2) {f : C3 → ℝ} (h : Sup3 gz gy gx k f) : total3 gz gy gx (gLap a f) = 0 := by
  obtain ⟨b1, b2, b3⟩ := axisStep_abs a
  have s1 := total3_shift h (axisStep a) (b1.trans k1) (b2.trans k2) (b3.trans k3)
  have s2 := total3_shift h (-axisStep a) (by simpa using b1.trans k1) (by simpa using b2.trans k2) (by simpa using b3.trans k3)
  simp only [← sub_eq_add_neg] at s2
  have e : gLap a f = fun G => 1 / 4 * (2 * f G - f (G + axisStep a) - f (G - axisStep a)) := by
    funext G
    unfold gLap
    ring
  rw [e, total3_mul, total3_sub, total3_sub, total3_mul, s1, s2]
  ring

theorem gDiff_total {k : C3} (k1 : 1 ≤ k.1) (k2 : 1 ≤ k.2.1) (k3 : 1 ≤ k.2.2) {f : C3 → ℝ} (h : Sup3 gz gy gx k f) (e : ℝ) : total3 gz gy gx (gDiff e f) = total3 gz gy gx f := by
  have : gDiff e f = fun G => f G - 4 * e * (gLap 0 f G + gLap 1 f G + gLap 2 f G) := rfl
  rw [this, total3_sub, total3_mul, total3_add, total3_add]
  have t : ∀ a, total3 gz gy gx (fun G => gLap a f G) = 0 := fun a => gLap_total k1 k2 k3 h
  rw [t, t, t]
  ring

theorem gCurl_total {k : C3} (k1 : 1 ≤ k.1) (k2 : 1 ≤ k.2.1) (k3 : 1 ≤ k.2.2) {f : Fin 3 → C3 → ℝ} (h : ∀ j, Sup3 gz gy gx k (f j)) (j : Fin 3) :
    total3 gz gy gx (gCurl f j) = 0 := by
  have s : ∀ i (d : C3), |d.1| ≤ 1 → |d.2.1| ≤ 1 → |d.2.2| ≤ 1 → total3 gz gy gx (fun G => f i (G + d)) = total3 gz gy gx (f i) :=
    fun i d h1 h2 h3 => total3_shift (h i) d (h1.trans k1) (h2.trans k2) (h3.trans k3)
  have ss : ∀ i, total3 gz gy gx (fun G => f i (G + (1, 0, 0))) = total3 gz gy gx (f i) ∧ total3 gz gy gx (fun G => f i (G + (-1, 0, 0))) = total3 gz gy gx (f i) ∧
      total3 gz gy gx (fun G => f i (G + (0, 1, 0))) = total3 gz gy gx (f i) ∧ total3 gz gy gx (fun G => f i (G + (0, -1, 0))) = total3 gz gy gx (f i) ∧
      total3 gz gy gx (fun G => f i (G + (0, 0, 1))) = total3 gz gy gx (f i) ∧ total3 gz gy gx (fun G => f i (G + (0, 0, -1))) = total3 gz gy gx (f i) := fun i =>
    ⟨s i _ (by decide) (by decide) (by decide), s i _ (by decide) (by decide) (by decide), s i _ (by decide) (by decide) (by decide),
      s i _ (by decide) (by decide) (by decide), s i _ (by decide) (by decide) (by decide), s i _ (by decide) (by decide) (by decide)⟩
  obtain ⟨a1, a2, a3, a4, a5, a6⟩ := ss 0
  obtain ⟨b1, b2, b3, b4, b5, b6⟩ := ss 1
  obtain ⟨c1, c2, c3, c4, c5, c6⟩ := ss 2
  match j with
  | 0 =>
    change total3 gz gy gx (fun G => f 2 (G + (0, 1, 0)) - f 2 (G + (0, -1, 0)) - (f 1 (G + (1, 0, 0)) - f 1 (G + (-1, 0, 0)))) = 0
    rw [total3_sub, total3_sub, total3_sub, c3, c4, b1, b2]
    ring
  | 1 =>
    change total3 gz gy gx (fun G => f 0 (G + (1, 0, 0)) - f 0 (G + (-1, 0, 0)) - (f 2 (G + (0, 0, 1)) - f 2 (G + (0, 0, -1)))) = 0
    rw [total3_sub, total3_sub, total3_sub, a1, a2, c5, c6]
    ring
  | 2 =>
    change total3 gz gy gx (fun G => f 1 (G + (0, 0, 1)) - f 1 (G + (0, 0, -1)) - (f 0 (G + (0, 1, 0)) - f 0 (G + (0, -1, 0)))) = 0
    rw [total3_sub, total3_sub, total3_sub, b5, b6, a3, a4]
    ring

theorem gFilter_total {flt : Option (ℕ × String)} (ho : ∀ p ty, flt = some (p, ty) → 1 ≤ p) {k : ℤ} (hk : 1 ≤ k) {f : C3 → ℝ}
    (h : Sup3 gz gy gx (k + fltOrder flt, k + fltOrder flt, k + fltOrder flt) f) : total3 gz gy gx (gFilter flt f) = total3 gz gy gx f := by
  rcases flt with _ | ⟨p, ty⟩
  · rfl
  obtain ⟨q, rfl⟩ : ∃ q, p = q + 1 := ⟨p - 1, by have := ho p ty rfl; omega⟩
  simp only [fltOrder] at h
  push_cast at h
  have sub : ∀ f f' : C3 → ℝ, total3 gz gy gx (f - f') = total3 gz gy gx f - total3 gz gy gx f' := fun f f' => total3_sub f f'
  simp only [gFilter]
  split_ifs
  · change total3 gz gy gx (f - _) = _
    rw [sub, Function.iterate_succ_apply']
    obtain ⟨-, s1⟩ := iterate_sup (e := (1, 1, 1)) (by decide) (fun h1 h2 h3 _ hf => mulStep_sup h1 h2 h3 hf) q (k := (k + 1, k + 1, k + 1)) (f := f) (by simp only; omega)
      (by simp only; omega) (by simp only; omega) (h.mono (by simp; omega) (by simp; omega) (by simp; omega))
    have t1 := gLap_sup (k := (k + 1, k + 1, k)) (a := 0) (s1.mono (by simp [axisStep]) (by simp [axisStep]) (by simp [axisStep]))
    have t2 := gLap_sup (k := (k + 1, k, k)) (a := 1) (t1.mono (by simp [axisStep]) (by simp [axisStep]) (by simp [axisStep]))
    rw [gLap_total (k := (k + 1, k, k)) (by simp only; omega) hk hk t2, sub_zero]
  · have key : ∀ (a : Fin 3) {k : C3} {f : C3 → ℝ}, 1 ≤ k.1 → 1 ≤ k.2.1 → 1 ≤ k.2.2 → Sup3 gz gy gx (k + (q + 1) • axisStep a) f →
        total3 gz gy gx (f - (gLap a)^[q + 1] f) = total3 gz gy gx f := by
      intro a k f k1 k2 k3 h
      have e0 : 0 ≤ (axisStep a).1 ∧ 0 ≤ (axisStep a).2.1 ∧ 0 ≤ (axisStep a).2.2 := by
        match a with | 0 => decide | 1 => decide | 2 => decide
      obtain ⟨-, s1⟩ := iterate_sup e0 (fun h1 h2 h3 _ hf => serialLap_gLap h1 h2 h3 hf) q (k := k + axisStep a) (f := f) (by simp only [Prod.fst_add]; omega)
        (by simp only [Prod.fst_add, Prod.snd_add]; omega) (by simp only [Prod.snd_add]; omega) (by rw [add_assoc, ← succ_nsmul']; exact h)
      rw [sub, Function.iterate_succ_apply', gLap_total (k := k + axisStep a) (by simp only [Prod.fst_add]; omega)
        (by simp only [Prod.fst_add, Prod.snd_add]; omega) (by simp only [Prod.snd_add]; omega) s1, sub_zero]
    have h0 : Sup3 gz gy gx (((k + (q + 1), k + (q + 1), k) : C3) + (q + 1) • axisStep 0) f := h.mono (by simp [axisStep]) (by simp [axisStep]) (by simp [axisStep])
    obtain ⟨-, s1⟩ := convDir_sup (by simp only; omega) (by simp only; omega) (by simp only; omega) h0
    have h1 : Sup3 gz gy gx (((k + (q + 1), k, k) : C3) + (q + 1) • axisStep 1) (f - (gLap 0)^[q + 1] f) := s1.mono (by simp [axisStep]) (by simp [axisStep]) (by simp [axisStep])
    obtain ⟨-, s2⟩ := convDir_sup (by simp only; omega) (by simp only; omega) (by simp only; omega) h1
    have h2 : Sup3 gz gy gx (((k, k, k) : C3) + (q + 1) • axisStep 2) (f - (gLap 0)^[q + 1] f - (gLap 1)^[q + 1] (f - (gLap 0)^[q + 1] f)) :=
      s2.mono (by simp [axisStep]) (by simp [axisStep]) (by simp [axisStep])
    rw [key 2 hk hk hk h2, key 1 (by simp only; omega) hk hk h1, key 0 (by simp only; omega) (by simp only; omega) hk h0]

/-! ## Divergence -/

/-- Operators that respect differences and shifts. -/
structure Inv3 (L : (C3 → ℝ) → C3 → ℝ) : Prop where
  sub : ∀ f f', L (f - f') = L f - L f'
  shift : ∀ f (d : C3), L (fun G => f (G + d)) = fun G => L f (G + d)

theorem Inv3.zero {L : (C3 → ℝ) → C3 → ℝ} (h : Inv3 L) : L 0 = 0 := by
  have := h.sub 0 0
  rwa [sub_self, sub_self] at this

theorem Inv3.add {L : (C3 → ℝ) → C3 → ℝ} (h : Inv3 L) (f f' : C3 → ℝ) : L (f + f') = L f + L f' := by
  rw [show f + f' = f - (0 - f') by abel, h.sub, h.sub, h.zero]
  abel

theorem Inv3.id : Inv3 fun f => f := ⟨fun _ _ => rfl, fun _ _ => rfl⟩

theorem Inv3.comp {L M : (C3 → ℝ) → C3 → ℝ} (hL : Inv3 L) (hM : Inv3 M) : Inv3 fun f => L (M f) :=
  ⟨fun f f' => by rw [hM.sub, hL.sub], fun f d => by rw [hM.shift, hL.shift]⟩

theorem Inv3.iter {L : (C3 → ℝ) → C3 → ℝ} (hL : Inv3 L) : ∀ n : ℕ, Inv3 L^[n]
  | 0 => Inv3.id
  | n + 1 => by
    rw [Function.iterate_succ']
    exact hL.comp (hL.iter n)

theorem Inv3.rest {L : (C3 → ℝ) → C3 → ℝ} (hL : Inv3 L) : Inv3 fun f => f - L f :=
  ⟨fun f f' => by rw [hL.sub]; abel, fun f d => by rw [hL.shift]; rfl⟩

theorem gLap_inv (a : Fin 3) : Inv3 (gLap a) := by
  constructor
  · intro f f'
    funext G
    simp only [gLap, Pi.sub_apply]
    ring
  · intro f d
    funext G
    simp only [gLap]
    rw [show G + axisStep a + d = G + d + axisStep a by abel, show G - axisStep a + d = G + d - axisStep a by abel]

theorem gDiff_inv (e : ℝ) : Inv3 (gDiff e) := by
  constructor
  · intro f f'
    funext G
    simp only [gDiff, (gLap_inv _).sub, Pi.sub_apply]
    ring
  · intro f d
    funext G
    simp only [gDiff, (gLap_inv _).shift]

theorem gFilter_inv (flt : Option (ℕ × String)) : Inv3 (gFilter flt) := by
  rcases flt with _ | ⟨p, ty⟩
  · exact Inv3.id
  · simp only [gFilter]
    split_ifs
    · exact (((gLap_inv 2).comp ((gLap_inv 1).comp (gLap_inv 0))).iter p).rest
    · exact ((gLap_inv 2).iter p).rest.comp (((gLap_inv 1).iter p).rest.comp ((gLap_inv 0).iter p).rest)

theorem centralDiv3_eq (U : Fin 3 → C3 → ℝ) : centralDiv3 U =
    (fun G => U 0 (G + (0, 0, 1))) - (fun G => U 0 (G + (0, 0, -1))) + ((fun G => U 1 (G + (0, 1, 0))) - fun G => U 1 (G + (0, -1, 0))) +
      ((fun G => U 2 (G + (1, 0, 0))) - fun G => U 2 (G + (-1, 0, 0))) := by
  funext G
  obtain ⟨z, y, x⟩ := G
  simp [centralDiv3, sub_eq_add_neg]

theorem centralDiv3_inv {L : (C3 → ℝ) → C3 → ℝ} (h : Inv3 L) (U : Fin 3 → C3 → ℝ) : centralDiv3 (fun j => L (U j)) = L (centralDiv3 U) := by
  rw [centralDiv3_eq, centralDiv3_eq U, h.add, h.add, h.sub, h.sub, h.sub]
  simp only [h.shift]

theorem centralDiv3_curl (f : Fin 3 → C3 → ℝ) (G : C3) : centralDiv3 (gCurl f) G = 0 := by
  obtain ⟨z, y, x⟩ := G
  simp [centralDiv3, gCurl, sub_eq_add_neg]
  ring

theorem centralDiv3_add (c : ℝ) (U V : Fin 3 → C3 → ℝ) (G : C3) : centralDiv3 (fun j G => U j G + c * V j G) G = centralDiv3 U G + c * centralDiv3 V G := by
  unfold centralDiv3
  ring

/-! ## A step -/

section Step
variable {P : Params3} {K : Kern3}

/-- What the four flow types have in common: component-wise support and totals of the vorticity, and its divergence. -/
structure Kept3 (P : Params3) (k : ℕ) (om om' : Fin 3 → C3 → ℝ) : Prop where
  sup : ∀ j, Within3 P.gz P.gy P.gx k (om' j)
  total : ∀ j, total3 P.gz P.gy P.gx (om' j) = total3 P.gz P.gy P.gx (om j)
  div : (∀ G, centralDiv3 om G = 0) → ∀ G, centralDiv3 om' G = 0

theorem crossF_sup {k : C3} {u om : Fin 3 → C3 → ℝ} (h : ∀ j, Sup3 gz gy gx k (om j)) (j : Fin 3) : Sup3 gz gy gx k (crossF u om j) := by
  intro G hG
  have h0 := h 0 G hG
  have h1 := h 1 G hG
  have h2 := h 2 G hG
  unfold crossF
  match j with
  | 0 => simp [h1, h2]
  | 1 => simp [h0, h2]
  | 2 => simp [h0, h1]

theorem upd3_kept (hu : CentralCurl3 K.upd) {k : ℕ} {f om : Fin 3 → C3 → ℝ} (hf : ∀ j, Within3 P.gz P.gy P.gx (k + 1) (f j)) (h : ∀ j, Within3 P.gz P.gy P.gx k (om j)) (dt : ℝ) :
    Kept3 P k om (refUpd3 P K dt f om) := by
  have hf' : ∀ j, Sup3 P.gz P.gy P.gx (((k, k, k) : C3) + (1, 1, 1)) (f j) := fun j => by
    have := within3_sup.1 (hf j)
    push_cast at this
    exact this
  obtain ⟨e, s⟩ := upd3_sup (P := P) hu (by simp) hf' (om := om) dt
  rw [e]
  refine ⟨fun j G hG => ?_, fun j => ?_, fun hd G => ?_⟩
  · rw [h j G hG, within3_sup.2 (s j) G hG]
    ring
  · rw [total3_add, total3_mul]
    have t := gCurl_total (k := (((k, k, k) : C3) + (1, 1, 1))) (by simp) (by simp) (by simp) hf' j
    rw [show total3 P.gz P.gy P.gx (fun G => gCurl f j G) = 0 from t]
    ring
  · rw [centralDiv3_add, hd, centralDiv3_curl]
    ring

theorem vort3_kept (hd : SevenPoint K.diff) (hu : CentralCurl3 K.upd) (ho : ∀ p ty, P.flt = some (p, ty) → 1 ≤ p) {k : ℕ} (hw : P.w ≤ k) (hk : 1 ≤ k) (dt : ℝ) {F : Fields3}
    (h : ∀ j, Within3 P.gz P.gy P.gx (k + fltOrder P.flt + 2) (F.om j)) : Kept3 P k F.om (refVort3 P K dt F) := by
  have hx : ∀ j, Within3 P.gz P.gy P.gx (k + fltOrder P.flt + 1 + 1) (crossF F.u F.om j) := fun j => within3_sup.2 (crossF_sup (fun j => within3_sup.1 (h j)) j)
  have u1 := upd3_kept (P := P) hu (k := k + fltOrder P.flt + 1) hx (fun j => within3_sup.2 ((within3_sup.1 (h j)).mono (by simp) (by simp) (by simp))) dt
  set om1 := refUpd3 P K dt (crossF F.u F.om) F.om with hom1
  have d1 : ∀ j, refDiff3 P K dt (om1 j) = gDiff (P.nu * dt / P.dx / P.dx) (om1 j) ∧
      Sup3 P.gz P.gy P.gx ((k : ℤ) + fltOrder P.flt, (k : ℤ) + fltOrder P.flt, (k : ℤ) + fltOrder P.flt) (gDiff (P.nu * dt / P.dx / P.dx) (om1 j)) := by
    intro j
    have hs := within3_sup.1 (u1.sup j)
    push_cast at hs
    exact diff3_sup (P := P) hd hs (hs.mono (by simp only; omega) (by simp only; omega) (by simp only; omega)) dt
  have f1 : ∀ j, refFilter3 P (refDiff3 P K dt (om1 j)) = gFilter P.flt (gDiff (P.nu * dt / P.dx / P.dx) (om1 j)) ∧
      Sup3 P.gz P.gy P.gx (k, k, k) (gFilter P.flt (gDiff (P.nu * dt / P.dx / P.dx) (om1 j))) := by
    intro j
    rw [(d1 j).1]
    exact filter3_sup (P := P) (by omega) (d1 j).2
  have e : refVort3 P K dt F = fun j => gFilter P.flt (gDiff (P.nu * dt / P.dx / P.dx) (om1 j)) := by
    funext j
    unfold refVort3
    rw [← hom1, (f1 j).1, pen3_within]
    exact within3_sup.2 ((f1 j).2.mono (by simp only; omega) (by simp only; omega) (by simp only; omega))
  rw [e]
  refine ⟨fun j => within3_sup.2 (f1 j).2, fun j => ?_, fun h0 G => ?_⟩
  · rw [gFilter_total ho (by omega) (d1 j).2, ← u1.total j]
    exact gDiff_total (k := (k, k, k)) (by simp only; omega) (by simp only; omega) (by simp only; omega)
      ((within3_sup.1 (u1.sup j)).mono (by simp only; omega) (by simp only; omega) (by simp only; omega)) _
  · have h1 : centralDiv3 om1 = 0 := funext fun G => u1.div h0 G
    rw [centralDiv3_inv ((gFilter_inv P.flt).comp (gDiff_inv _)), h1, (gDiff_inv _).zero, (gFilter_inv _).zero]
    rfl

theorem advDiff3_kept (hd : SevenPoint K.diff) (ha : FluxForm3 K.adv) {k : ℕ} (hk : 1 ≤ k) (dt : ℝ) (u : Fin 3 → C3 → ℝ) {f : C3 → ℝ} (h : Within3 P.gz P.gy P.gx (k + 3) f) :
    Within3 P.gz P.gy P.gx k (refDiff3 P K dt (refAdv3 P K dt u f)) ∧
      total3 P.gz P.gy P.gx (refDiff3 P K dt (refAdv3 P K dt u f)) = total3 P.gz P.gy P.gx f := by
  have hs := within3_sup.1 h
  push_cast at hs
  obtain ⟨a1, a2⟩ := adv3_sup (P := P) ha (k := (((k, k, k) : C3) + (1, 1, 1))) (by simp) (by simp) (by simp)
    (hs.mono (by simp; omega) (by simp; omega) (by simp; omega)) dt u
  obtain ⟨d1, d2⟩ := diff3_sup (P := P) hd a1 (a1.mono (by simp; omega) (by simp; omega) (by simp; omega)) dt
  rw [d1]
  exact ⟨within3_sup.2 d2, (gDiff_total (by simp) (by simp) (by simp) a1 _).trans a2⟩

/-- One step of any flow type. -/
theorem step3_kept (hd : SevenPoint K.diff) (ha : FluxForm3 K.adv) (hu : CentralCurl3 K.upd) (ft : String) (ho : isNS ft = true → ∀ p ty, P.flt = some (p, ty) → 1 ≤ p) {k : ℕ}
    (hw : P.w ≤ k) (hk : 1 ≤ k) (dt : ℝ) (fs : Fin 3 → ℝ) {Φ : Fin 3 → C3 → ℝ} (hΦ : ∀ j, Within3 P.gz P.gy P.gx (k + 3 + fltOrder P.flt + 1) (Φ j)) {F : Fields3} :
    ((∀ j, Within3 P.gz P.gy P.gx (k + 3 + fltOrder P.flt) (F.om j)) →
      (∀ j, Within3 P.gz P.gy P.gx k ((refStep3 ft P K dt fs Φ F).om j)) ∧
      (∀ j, total3 P.gz P.gy P.gx ((refStep3 ft P K dt fs Φ F).om j) = total3 P.gz P.gy P.gx (F.om j)) ∧
      (isNS ft = true → (∀ G, centralDiv3 F.om G = 0) → ∀ G, centralDiv3 (refStep3 ft P K dt fs Φ F).om G = 0)) ∧
    (Within3 P.gz P.gy P.gx (k + 3 + fltOrder P.flt) F.sc → Within3 P.gz P.gy P.gx k (refStep3 ft P K dt fs Φ F).sc ∧
      total3 P.gz P.gy P.gx (refStep3 ft P K dt fs Φ F).sc = total3 P.gz P.gy P.gx F.sc) := by
  have mono : ∀ {a b : ℕ} {f : C3 → ℝ}, Within3 P.gz P.gy P.gx a f → b ≤ a → Within3 P.gz P.gy P.gx b f := fun hf hb =>
    within3_sup.2 ((within3_sup.1 hf).mono (by simp only; omega) (by simp only; omega) (by simp only; omega))
  unfold refStep3
  split
  · rename_i hft
    have hns : isNS ft = true := by rw [hft]; rfl
    refine ⟨fun h => ?_, fun h => ⟨mono h (by omega), rfl⟩⟩
    have := vort3_kept (P := P) hd hu (ho hns) hw hk dt (F := F) fun j => mono (h j) (by omega)
    exact ⟨this.sup, this.total, fun _ => this.div⟩
  · split
    · rename_i hft
      have hns : isNS ft = true := by rw [hft]; rfl
      refine ⟨fun h => ?_, fun h => ⟨mono h (by omega), rfl⟩⟩
      have q1 := upd3_kept (P := P) hu hΦ h dt
      have q2 := vort3_kept (P := P) hd hu (ho hns) hw hk dt (F := { F with om := refUpd3 P K dt Φ F.om }) fun j => mono (q1.sup j) (by omega)
      exact ⟨q2.sup, fun j => (q2.total j).trans (q1.total j), fun _ h0 => q2.div (q1.div h0)⟩
    · split
      · rename_i hft
        refine ⟨fun h => ⟨fun j => (advDiff3_kept (P := P) hd ha hk dt F.u (mono (h j) (by omega))).1,
          fun j => (advDiff3_kept (P := P) hd ha hk dt F.u (mono (h j) (by omega))).2, fun hn => ?_⟩, fun h => ⟨mono h (by omega), rfl⟩⟩
        rw [hft] at hn
        cases hn
      · rename_i h1 h2 h3
        refine ⟨fun h => ⟨fun j => mono (h j) (by omega), fun j => rfl, fun _ h0 => h0⟩, fun h => advDiff3_kept (P := P) hd ha hk dt F.u (mono h (by omega))⟩

/-- Any number of steps on the global grid. -/
theorem run3_kept (hd : SevenPoint K.diff) (ha : FluxForm3 K.adv) (hu : CentralCurl3 K.upd) (ft : String) (ho : isNS ft = true → ∀ p ty, P.flt = some (p, ty) → 1 ≤ p) (cfl tol : ℝ) :
    ∀ (ys : List StepSpec3) {s : Fields3 × ℝ},
    (∀ y ∈ ys, ∀ j, Within3 P.gz P.gy P.gx (max P.w 1 + (3 + fltOrder P.flt) * ys.length + 1) (y.Φ j)) →
    ((∀ j, Within3 P.gz P.gy P.gx (max P.w 1 + (3 + fltOrder P.flt) * ys.length) (s.1.om j)) →
      (∀ j, Within3 P.gz P.gy P.gx (max P.w 1) ((refRun3 ft P K cfl tol ys s).1.om j)) ∧
      (∀ j, total3 P.gz P.gy P.gx ((refRun3 ft P K cfl tol ys s).1.om j) = total3 P.gz P.gy P.gx (s.1.om j)) ∧
      (isNS ft = true → (∀ G, centralDiv3 s.1.om G = 0) → ∀ G, centralDiv3 (refRun3 ft P K cfl tol ys s).1.om G = 0)) ∧
    (Within3 P.gz P.gy P.gx (max P.w 1 + (3 + fltOrder P.flt) * ys.length) s.1.sc →
      total3 P.gz P.gy P.gx (refRun3 ft P K cfl tol ys s).1.sc = total3 P.gz P.gy P.gx s.1.sc)
  | [], s, _ => ⟨fun h => ⟨fun j => h j, fun _ => rfl, fun _ h0 => h0⟩, fun _ => rfl⟩
  | y :: ys, s, hΦ => by
    have mono : ∀ {a b : ℕ} {f : C3 → ℝ}, Within3 P.gz P.gy P.gx a f → b ≤ a → Within3 P.gz P.gy P.gx b f := fun hf hb =>
      within3_sup.2 ((within3_sup.1 hf).mono (by simp only; omega) (by simp only; omega) (by simp only; omega))
    rw [List.length_cons] at hΦ ⊢
    have hlen : max P.w 1 + (3 + fltOrder P.flt) * (ys.length + 1) = max P.w 1 + (3 + fltOrder P.flt) * ys.length + 3 + fltOrder P.flt := by ring
    rw [hlen] at hΦ ⊢
    obtain ⟨s1, s2⟩ := step3_kept (P := P) hd ha hu ft ho (k := max P.w 1 + (3 + fltOrder P.flt) * ys.length) (by omega) (by omega) (refDt3 P cfl tol s.1 y.rule) y.fs
      (fun j => hΦ y List.mem_cons_self j) (F := s.1)
    obtain ⟨r1, r2⟩ := run3_kept hd ha hu ft ho cfl tol ys (s := (refStep3 ft P K (refDt3 P cfl tol s.1 y.rule) y.fs y.Φ s.1, s.2 + refDt3 P cfl tol s.1 y.rule))
      (fun y' hy' j => mono (hΦ y' (List.mem_cons_of_mem _ hy') j) (by omega))
    refine ⟨fun h => ?_, fun h => ?_⟩
    · obtain ⟨a1, a2, a3⟩ := s1 h
      obtain ⟨b1, b2, b3⟩ := r1 a1
      exact ⟨b1, fun j => (b2 j).trans (a2 j), fun hn h0 => b3 hn (a3 hn h0)⟩
    · obtain ⟨a1, a2⟩ := s2 h
      exact (r2 a1).trans a2

end Step

end Sopht
