import Verif.Moments
import Verif.Conserve3DProps
import Verif.FixedBody3

/-!
# Moments: centre of mass, spread and impulse in 3D (C105, C106)

flow_simulators_mpi_3d.py:258-345 with the kernels of `Verif/Conserve3D.lean`.
-/

namespace Sopht

open Finset

/-! ## Specification -/

/-- Advection in flux form which, in a uniform stream, carries through a face the velocity times a weighted average of the four cells around it (weights that add up to 1 and
may depend on the direction of the stream). -/
def StreamFlux3 (k : ℝ → (Option (Fin 3) → C3 → ℝ) → ℝ) : Prop :=
  ∃ X : Fin 3 → (Option (Fin 3) → C3 → ℝ) → ℝ,
    (∀ a f, k a f = a * ∑ i, (X i f - X i fun j d => f j (d - axisStep i))) ∧
    (∀ i f, (∀ n : ℤ, -1 ≤ n → n ≤ 2 → f none (n • axisStep i) = 0) → X i f = 0) ∧
    ∀ i v, ∃ w : Fin 4 → ℝ, w 0 + w 1 + w 2 + w 3 = 1 ∧ ∀ f, (∀ d, f (some i) d = v) →
      X i f = v * (w 0 * f none ((-1 : ℤ) • axisStep i) + w 1 * f none ((0 : ℤ) • axisStep i) + w 2 * f none ((1 : ℤ) • axisStep i) + w 3 * f none ((2 : ℤ) • axisStep i))

theorem StreamFlux3.flux {k : ℝ → (Option (Fin 3) → C3 → ℝ) → ℝ} (h : StreamFlux3 k) : FluxForm3 k := by
  obtain ⟨X, h1, h2, -⟩ := h
  exact ⟨X, h1, h2⟩

/-- Coordinate `j` (0 along x) of the centre of a cell `(z, y, x)`. -/
noncomputable def centre3 (dx : ℝ) (j : Fin 3) (G : C3) : ℝ := ((![G.2.2, G.2.1, G.1] j : ℤ) + 1 / 2) * dx

/-! ## Weighted sums -/

theorem centre3_step (dx : ℝ) (j a : Fin 3) (G : C3) (n : ℤ) : centre3 dx j (G + n • axisStep a) = centre3 dx j G + if a = j then n * dx else 0 := by
  fin_cases j <;> fin_cases a <;> simp [centre3, axisStep] <;> ring

theorem centre3_add (dx : ℝ) (j a : Fin 3) (G : C3) : centre3 dx j (G + axisStep a) = centre3 dx j G + if a = j then dx else 0 := by
  have := centre3_step dx j a G 1
  simpa using this

theorem centre3_sub (dx : ℝ) (j a : Fin 3) (G : C3) : centre3 dx j (G - axisStep a) = centre3 dx j G - if a = j then dx else 0 := by
  have := centre3_step dx j a G (-1)
  rw [neg_one_smul, ← sub_eq_add_neg] at this
  rw [this]
  split <;> simp
  ring

variable {gz gy gx : ℕ}

theorem total3_weight {k : C3} {f : C3 → ℝ} (h : Sup3 gz gy gx k f) (q : C3 → ℝ) (d : C3) (h1 : |d.1| ≤ k.1) (h2 : |d.2.1| ≤ k.2.1) (h3 : |d.2.2| ≤ k.2.2) :
    total3 gz gy gx (fun G => q G * f (G + d)) = total3 gz gy gx fun G => q (G - d) * f G := by
  have hw : Sup3 gz gy gx k fun G => q (G - d) * f G := fun G hG => by
    dsimp only
    rw [h G hG, mul_zero]
  rw [← total3_shift hw d h1 h2 h3]
  apply total3_congr
  intro G _
  rw [add_sub_cancel_right]

/-- neighbours along an axis -/
theorem total3_axis {k : C3} (k1 : 1 ≤ k.1) (k2 : 1 ≤ k.2.1) (k3 : 1 ≤ k.2.2) {f : C3 → ℝ} (h : Sup3 gz gy gx k f) (q : C3 → ℝ) (a : Fin 3) :
    total3 gz gy gx (fun G => q G * f (G + axisStep a)) = total3 gz gy gx (fun G => q (G - axisStep a) * f G) ∧
    total3 gz gy gx (fun G => q G * f (G - axisStep a)) = total3 gz gy gx (fun G => q (G + axisStep a) * f G) := by
  obtain ⟨b1, b2, b3⟩ := axisStep_abs a
  have s1 := total3_weight h q (axisStep a) (b1.trans k1) (b2.trans k2) (b3.trans k3)
  have s2 := total3_weight h q (-axisStep a) (by simpa using b1.trans k1) (by simpa using b2.trans k2) (by simpa using b3.trans k3)
  simp only [← sub_eq_add_neg, sub_neg_eq_add] at s2
  exact ⟨s1, s2⟩

theorem gLap_weight {k : C3} (k1 : 1 ≤ k.1) (k2 : 1 ≤ k.2.1) (k3 : 1 ≤ k.2.2) {f : C3 → ℝ} (h : Sup3 gz gy gx k f) (a : Fin 3) (q : C3 → ℝ) :
    total3 gz gy gx (fun G => q G * gLap a f G) = total3 gz gy gx fun G => gLap a q G * f G := by
  obtain ⟨s1, s2⟩ := total3_axis k1 k2 k3 h q a
  have e : (fun G => q G * gLap a f G) = fun G => 1 / 4 * (2 * (q G * f G) - q G * f (G + axisStep a) - q G * f (G - axisStep a)) := by
    funext G
    unfold gLap
    ring
  have e' : (fun G => gLap a q G * f G) = fun G => 1 / 4 * (2 * (q G * f G) - q (G - axisStep a) * f G - q (G + axisStep a) * f G) := by
    funext G
    unfold gLap
    ring
  rw [e, e', total3_mul, total3_mul, total3_sub, total3_sub, total3_sub, total3_sub, s1, s2]

theorem gLap_centre (dx : ℝ) (a j : Fin 3) (G : C3) : gLap a (centre3 dx j) G = 0 ∧ gLap a (fun G => centre3 dx j G ^ 2) G = if a = j then -(dx ^ 2 / 2) else 0 := by
  unfold gLap
  simp only [centre3_add, centre3_sub]
  constructor
  · split <;> ring
  · split <;> ring

theorem gLap_first {k : C3} (k1 : 1 ≤ k.1) (k2 : 1 ≤ k.2.1) (k3 : 1 ≤ k.2.2) {f : C3 → ℝ} (h : Sup3 gz gy gx k f) (a j : Fin 3) (dx : ℝ) :
    total3 gz gy gx (fun G => centre3 dx j G * gLap a f G) = 0 := by
  rw [gLap_weight k1 k2 k3 h]
  exact Finset.sum_eq_zero fun G _ => by rw [(gLap_centre dx a j G).1, zero_mul]

theorem gLap_second {k : C3} (k1 : 1 ≤ k.1) (k2 : 1 ≤ k.2.1) (k3 : 1 ≤ k.2.2) {f : C3 → ℝ} (h : Sup3 gz gy gx k f) (a j : Fin 3) (dx : ℝ) :
    total3 gz gy gx (fun G => centre3 dx j G ^ 2 * gLap a f G) = (if a = j then -(dx ^ 2 / 2) else 0) * total3 gz gy gx f := by
  rw [gLap_weight k1 k2 k3 h, ← total3_mul]
  exact total3_congr fun G _ => by rw [(gLap_centre dx a j G).2]

theorem gDiff_first {k : C3} (k1 : 1 ≤ k.1) (k2 : 1 ≤ k.2.1) (k3 : 1 ≤ k.2.2) {f : C3 → ℝ} (h : Sup3 gz gy gx k f) (e dx : ℝ) (j : Fin 3) :
    total3 gz gy gx (fun G => centre3 dx j G * gDiff e f G) = total3 gz gy gx fun G => centre3 dx j G * f G := by
  have t := fun a => gLap_first k1 k2 k3 h a j dx
  rw [total3_congr (f' := fun G => centre3 dx j G * f G - 4 * e * (centre3 dx j G * gLap 0 f G + centre3 dx j G * gLap 1 f G + centre3 dx j G * gLap 2 f G)) fun G _ => by
    unfold gDiff; ring]
  rw [total3_sub, total3_mul, total3_add, total3_add, t, t, t]
  ring

theorem gDiff_second {k : C3} (k1 : 1 ≤ k.1) (k2 : 1 ≤ k.2.1) (k3 : 1 ≤ k.2.2) {f : C3 → ℝ} (h : Sup3 gz gy gx k f) (e dx : ℝ) (j : Fin 3) :
    total3 gz gy gx (fun G => centre3 dx j G ^ 2 * gDiff e f G) = total3 gz gy gx (fun G => centre3 dx j G ^ 2 * f G) + 2 * e * dx ^ 2 * total3 gz gy gx f := by
  have t := fun a => gLap_second k1 k2 k3 h a j dx
  rw [total3_congr (f' := fun G => centre3 dx j G ^ 2 * f G - 4 * e * (centre3 dx j G ^ 2 * gLap 0 f G + centre3 dx j G ^ 2 * gLap 1 f G + centre3 dx j G ^ 2 * gLap 2 f G)) fun G _ => by
    unfold gDiff; ring]
  rw [total3_sub, total3_mul, total3_add, total3_add, t, t, t]
  fin_cases j <;> simp <;> ring

/-- the filter keeps the first moments -/
theorem gFilter_first {flt : Option (ℕ × String)} (ho : ∀ p ty, flt = some (p, ty) → 1 ≤ p) {k : ℤ} (hk : 1 ≤ k) {f : C3 → ℝ}
    (h : Sup3 gz gy gx (k + fltOrder flt, k + fltOrder flt, k + fltOrder flt) f) (dx : ℝ) (j : Fin 3) :
    total3 gz gy gx (fun G => centre3 dx j G * gFilter flt f G) = total3 gz gy gx fun G => centre3 dx j G * f G := by
  rcases flt with _ | ⟨p, ty⟩
  · rfl
  obtain ⟨q, rfl⟩ : ∃ q, p = q + 1 := ⟨p - 1, by have := ho p ty rfl; omega⟩
  simp only [fltOrder] at h
  push_cast at h
  have sub : ∀ f f' : C3 → ℝ, total3 gz gy gx (fun G => centre3 dx j G * (f - f') G) = total3 gz gy gx (fun G => centre3 dx j G * f G) - total3 gz gy gx fun G => centre3 dx j G * f' G :=
    fun f f' => by
      rw [← total3_sub]
      exact total3_congr fun G _ => by rw [Pi.sub_apply]; ring
  simp only [gFilter]
  split_ifs
  · rw [sub, Function.iterate_succ_apply']
    obtain ⟨-, s1⟩ := iterate_sup (e := (1, 1, 1)) (by decide) (fun h1 h2 h3 _ hf => mulStep_sup h1 h2 h3 hf) q (k := (k + 1, k + 1, k + 1)) (f := f) (by simp only; omega)
      (by simp only; omega) (by simp only; omega) (h.mono (by simp; omega) (by simp; omega) (by simp; omega))
    have t1 := gLap_sup (k := (k + 1, k + 1, k)) (a := 0) (s1.mono (by simp [axisStep]) (by simp [axisStep]) (by simp [axisStep]))
    have t2 := gLap_sup (k := (k + 1, k, k)) (a := 1) (t1.mono (by simp [axisStep]) (by simp [axisStep]) (by simp [axisStep]))
    rw [gLap_first (k := (k + 1, k, k)) (by simp only; omega) hk hk t2, sub_zero]
  · have key : ∀ (a : Fin 3) {k : C3} {f : C3 → ℝ}, 1 ≤ k.1 → 1 ≤ k.2.1 → 1 ≤ k.2.2 → Sup3 gz gy gx (k + (q + 1) • axisStep a) f →
        total3 gz gy gx (fun G => centre3 dx j G * (f - (gLap a)^[q + 1] f) G) = total3 gz gy gx fun G => centre3 dx j G * f G := by
      intro a k f k1 k2 k3 h
      have e0 : 0 ≤ (axisStep a).1 ∧ 0 ≤ (axisStep a).2.1 ∧ 0 ≤ (axisStep a).2.2 := by
        match a with | 0 => decide | 1 => decide | 2 => decide
      obtain ⟨-, s1⟩ := iterate_sup e0 (fun h1 h2 h3 _ hf => serialLap_gLap h1 h2 h3 hf) q (k := k + axisStep a) (f := f) (by simp only [Prod.fst_add]; omega)
        (by simp only [Prod.fst_add, Prod.snd_add]; omega) (by simp only [Prod.snd_add]; omega) (by rw [add_assoc, ← succ_nsmul']; exact h)
      rw [sub, Function.iterate_succ_apply', gLap_first (k := k + axisStep a) (by simp only [Prod.fst_add]; omega)
        (by simp only [Prod.fst_add, Prod.snd_add]; omega) (by simp only [Prod.snd_add]; omega) s1, sub_zero]
    have h0 : Sup3 gz gy gx (((k + (q + 1), k + (q + 1), k) : C3) + (q + 1) • axisStep 0) f := h.mono (by simp [axisStep]) (by simp [axisStep]) (by simp [axisStep])
    obtain ⟨-, s1⟩ := convDir_sup (by simp only; omega) (by simp only; omega) (by simp only; omega) h0
    have h1 : Sup3 gz gy gx (((k + (q + 1), k, k) : C3) + (q + 1) • axisStep 1) (f - (gLap 0)^[q + 1] f) := s1.mono (by simp [axisStep]) (by simp [axisStep]) (by simp [axisStep])
    obtain ⟨-, s2⟩ := convDir_sup (by simp only; omega) (by simp only; omega) (by simp only; omega) h1
    have h2 : Sup3 gz gy gx (((k, k, k) : C3) + (q + 1) • axisStep 2) (f - (gLap 0)^[q + 1] f - (gLap 1)^[q + 1] (f - (gLap 0)^[q + 1] f)) :=
      s2.mono (by simp [axisStep]) (by simp [axisStep]) (by simp [axisStep])
    rw [key 2 hk hk hk h2, key 1 (by simp only; omega) hk hk h1, key 0 (by simp only; omega) (by simp only; omega) hk h0]

/-- Twice the impulse, `∑ x × ω`, on the global grid. -/
noncomputable def cross0 (gz gy gx : ℕ) (dx : ℝ) (om : Fin 3 → C3 → ℝ) (j : Fin 3) : ℝ :=
  total3 gz gy gx (fun G => centre3 dx (j + 1) G * om (j + 2) G) - total3 gz gy gx (fun G => centre3 dx (j + 2) G * om (j + 1) G)

/-- first moments of a curl -/
theorem gCurl_cross {k : C3} (k1 : 1 ≤ k.1) (k2 : 1 ≤ k.2.1) (k3 : 1 ≤ k.2.2) {f : Fin 3 → C3 → ℝ} (h : ∀ j, Sup3 gz gy gx k (f j)) (dx : ℝ) (j : Fin 3) :
    cross0 gz gy gx dx (gCurl f) j = 4 * dx * total3 gz gy gx (f j) := by
  have s : ∀ (i a l : Fin 3), total3 gz gy gx (fun G => centre3 dx l G * (f i (G + axisStep a) - f i (G - axisStep a))) = (if a = l then -(2 * dx) else 0) * total3 gz gy gx (f i) := by
    intro i a l
    obtain ⟨s1, s2⟩ := total3_axis k1 k2 k3 (h i) (centre3 dx l) a
    simp only [mul_sub]
    rw [total3_sub, s1, s2, ← total3_sub, ← total3_mul]
    refine total3_congr fun G _ => ?_
    rw [centre3_add, centre3_sub]
    split <;> ring
  have n : ∀ (G : C3), G + (0, 0, 1) = G + axisStep 0 ∧ G + (0, 0, -1) = G - axisStep 0 ∧ G + (0, 1, 0) = G + axisStep 1 ∧ G + (0, -1, 0) = G - axisStep 1 ∧
      G + (1, 0, 0) = G + axisStep 2 ∧ G + (-1, 0, 0) = G - axisStep 2 := fun G => by
    simp only [sub_eq_add_neg]
    exact ⟨rfl, rfl, rfl, rfl, rfl, rfl⟩
  have c : ∀ i, gCurl f i = fun G => (f (i + 2) (G + axisStep (i + 1)) - f (i + 2) (G - axisStep (i + 1))) - (f (i + 1) (G + axisStep (i + 2)) - f (i + 1) (G - axisStep (i + 2))) := by
    intro i
    funext G
    obtain ⟨n1, n2, n3, n4, n5, n6⟩ := n G
    fin_cases i
    · simp [gCurl, n1, n2, n3, n4, n5, n6]
    · simp [gCurl, n1, n2, n3, n4, n5, n6]
    · simp [gCurl, n1, n2, n3, n4, n5, n6]
  have t : ∀ i l, total3 gz gy gx (fun G => centre3 dx l G * gCurl f i G) = (if i + 1 = l then -(2 * dx) else 0) * total3 gz gy gx (f (i + 2)) -
      (if i + 2 = l then -(2 * dx) else 0) * total3 gz gy gx (f (i + 1)) := by
    intro i l
    rw [← s, ← s, ← total3_sub]
    refine total3_congr fun G _ => ?_
    rw [c]
    ring
  unfold cross0
  rw [t, t]
  fin_cases j <;> simp <;> ring

section Parts
variable {P : Params3} {K : Kern3}

/-- advection in a uniform stream moves the first moments -/
theorem adv3_first (hK : StreamFlux3 K.adv) {k : C3} (k1 : 1 ≤ k.1) (k2 : 1 ≤ k.2.1) (k3 : 1 ≤ k.2.2) {f : C3 → ℝ} (h : Sup3 P.gz P.gy P.gx (k + (2, 2, 2)) f) (hdx : P.dx ≠ 0) (dt : ℝ)
    (U : Fin 3 → ℝ) (j : Fin 3) :
    total3 P.gz P.gy P.gx (fun G => centre3 P.dx j G * refAdv3 P K dt (fun j _ => U j) f G) =
      total3 P.gz P.gy P.gx (fun G => centre3 P.dx j G * f G) + dt * U j * total3 P.gz P.gy P.gx f ∧
    (U = 0 → ∀ G, refAdv3 P K dt (fun j _ => U j) f G = f G) := by
  obtain ⟨X, hk, hX, hw⟩ := hK
  set A : C3 → Option (Fin 3) → C3 → ℝ := fun G i d => match i with
    | none => f (G + d)
    | some j => U j with hA
  have eX : ∀ i G, X i (fun j d => A G j (d - axisStep i)) = X i (A (G - axisStep i)) := by
    intro i G
    congr 1
    funext j d
    have : G + (d - axisStep i) = G - axisStep i + d := by abel
    rcases j with _ | j <;> simp only [hA, this]
  have e : ∀ G, refAdv3 P K dt (fun j _ => U j) f G = if Dom3 P.gz P.gy P.gx G then f G + -(dt / P.dx) * ∑ i, (X i (A G) - X i (A (G - axisStep i))) else f G := by
    intro G
    unfold refAdv3
    have := hk (-(dt / P.dx)) (A G)
    simp only [eX] at this
    rw [← this]
    rfl
  have w1 : ∀ i, Sup3 P.gz P.gy P.gx k fun G => X i (A G) := by
    intro i G hG
    apply hX
    intro n n1 n2
    simp only [hA]
    refine h.zero hG ?_ ?_ ?_ <;> rw [abs_le] <;> (match i with | 0 => simp [axisStep] <;> omega | 1 => simp [axisStep] <;> omega | 2 => simp [axisStep] <;> omega)
  constructor
  · have tX : ∀ i, total3 P.gz P.gy P.gx (fun G => X i (A G)) = U i * total3 P.gz P.gy P.gx f := by
      intro i
      obtain ⟨w, hw1, hwf⟩ := hw i (U i)
      have v : ∀ G, X i (A G) = U i * (w 0 * f (G + (-1 : ℤ) • axisStep i) + w 1 * f (G + (0 : ℤ) • axisStep i) + w 2 * f (G + (1 : ℤ) • axisStep i) + w 3 * f (G + (2 : ℤ) • axisStep i)) :=
        fun G => hwf (A G) fun _ => rfl
      have s : ∀ n : ℤ, -1 ≤ n → n ≤ 2 → total3 P.gz P.gy P.gx (fun G => f (G + n • axisStep i)) = total3 P.gz P.gy P.gx f := by
        intro n n1 n2
        refine total3_shift h _ ?_ ?_ ?_ <;> rw [abs_le] <;> simp only [Prod.fst_add, Prod.snd_add] <;>
          (match i with | 0 => simp [axisStep] <;> omega | 1 => simp [axisStep] <;> omega | 2 => simp [axisStep] <;> omega)
      simp only [v]
      rw [total3_mul, total3_add, total3_add, total3_add, total3_mul, total3_mul, total3_mul, total3_mul, s _ (by norm_num) (by norm_num), s _ (by norm_num) (by norm_num),
        s _ (by norm_num) (by norm_num), s _ (by norm_num) (by norm_num), ← add_mul, ← add_mul, ← add_mul, hw1, one_mul]
    have d : ∀ i, total3 P.gz P.gy P.gx (fun G => centre3 P.dx j G * (X i (A G) - X i (A (G - axisStep i)))) = (if i = j then -P.dx else 0) * (U i * total3 P.gz P.gy P.gx f) := by
      intro i
      obtain ⟨-, s2⟩ := total3_axis k1 k2 k3 (w1 i) (centre3 P.dx j) i
      simp only [mul_sub]
      rw [total3_sub, s2, ← total3_sub, ← tX, ← total3_mul]
      refine total3_congr fun G _ => ?_
      rw [centre3_add]
      split <;> ring
    have e2 : total3 P.gz P.gy P.gx (fun G => centre3 P.dx j G * refAdv3 P K dt (fun j _ => U j) f G) = total3 P.gz P.gy P.gx (fun G => centre3 P.dx j G * f G) +
        -(dt / P.dx) * ∑ i, total3 P.gz P.gy P.gx (fun G => centre3 P.dx j G * (X i (A G) - X i (A (G - axisStep i)))) := by
      unfold total3
      rw [Finset.sum_comm, Finset.mul_sum, ← Finset.sum_add_distrib]
      refine total3_congr fun G hG => ?_
      rw [e, if_pos hG, ← Finset.mul_sum]
      ring
    rw [e2]
    simp only [d, Fin.sum_univ_three]
    fin_cases j <;> simp <;> field_simp
  · intro h0 G
    rw [e, Finset.sum_eq_zero]
    · split <;> ring
    · intro i _
      obtain ⟨w, -, hwf⟩ := hw i (U i)
      rw [hwf (A G) fun _ => rfl, hwf (A (G - axisStep i)) fun _ => rfl, h0]
      simp

/-- one step of a scalar in a uniform stream -/
theorem scalar3_step (hd : SevenPoint K.diff) (ha : StreamFlux3 K.adv) {k : ℕ} (hk : 1 ≤ k) {f : C3 → ℝ} (h : Within3 P.gz P.gy P.gx (k + 3) f) (hdx : P.dx ≠ 0) (dt : ℝ)
    (U : Fin 3 → ℝ) (j : Fin 3) :
    total3 P.gz P.gy P.gx (fun G => centre3 P.dx j G * refDiff3 P K dt (refAdv3 P K dt (fun j _ => U j) f) G) =
      total3 P.gz P.gy P.gx (fun G => centre3 P.dx j G * f G) + dt * U j * total3 P.gz P.gy P.gx f ∧
    (U = 0 → total3 P.gz P.gy P.gx (fun G => centre3 P.dx j G ^ 2 * refDiff3 P K dt (refAdv3 P K dt (fun j _ => U j) f) G) =
      total3 P.gz P.gy P.gx (fun G => centre3 P.dx j G ^ 2 * f G) + 2 * P.nu * dt * total3 P.gz P.gy P.gx f) := by
  have hs := within3_sup.1 h
  push_cast at hs
  obtain ⟨a1, a2⟩ := adv3_sup (P := P) ha.flux (k := (((k, k, k) : C3) + (1, 1, 1))) (by simp) (by simp) (by simp)
    (hs.mono (by simp; omega) (by simp; omega) (by simp; omega)) dt fun j _ => U j
  obtain ⟨m1, m2⟩ := adv3_first (P := P) ha (k := (((k, k, k) : C3) + (1, 1, 1))) (by simp) (by simp) (by simp)
    (hs.mono (by simp; omega) (by simp; omega) (by simp; omega)) hdx dt U j
  obtain ⟨d1, -⟩ := diff3_sup (P := P) hd a1 (a1.mono (by simp; omega) (by simp; omega) (by simp; omega)) dt
  rw [d1]
  constructor
  · rw [gDiff_first (by simp) (by simp) (by simp) a1, m1]
  · intro h0
    rw [gDiff_second (by simp) (by simp) (by simp) a1, a2]
    simp only [m2 h0]
    field_simp

/-- any number of passive scalar (vector) steps in a uniform stream -/
theorem run3_moments (hd : SevenPoint K.diff) (ha : StreamFlux3 K.adv) {ft : String} (hf : isNS ft = false) (hdx : P.dx ≠ 0) (cfl tol : ℝ) (U : Fin 3 → ℝ) (j : Fin 3) :
    ∀ (ys : List StepSpec3) (s : Fields3 × ℝ), (s.1.u = fun j _ => U j) →
    ((ft = "passive_vector" → ∀ i, Within3 P.gz P.gy P.gx (1 + 3 * ys.length) (s.1.om i) →
      total3 P.gz P.gy P.gx ((refRun3 ft P K cfl tol ys s).1.om i) = total3 P.gz P.gy P.gx (s.1.om i) ∧
      total3 P.gz P.gy P.gx (fun G => centre3 P.dx j G * (refRun3 ft P K cfl tol ys s).1.om i G) =
        total3 P.gz P.gy P.gx (fun G => centre3 P.dx j G * s.1.om i G) + ((refRun3 ft P K cfl tol ys s).2 - s.2) * U j * total3 P.gz P.gy P.gx (s.1.om i) ∧
      (U = 0 → total3 P.gz P.gy P.gx (fun G => centre3 P.dx j G ^ 2 * (refRun3 ft P K cfl tol ys s).1.om i G) =
        total3 P.gz P.gy P.gx (fun G => centre3 P.dx j G ^ 2 * s.1.om i G) + 2 * P.nu * ((refRun3 ft P K cfl tol ys s).2 - s.2) * total3 P.gz P.gy P.gx (s.1.om i))) ∧
    (ft ≠ "passive_vector" → Within3 P.gz P.gy P.gx (1 + 3 * ys.length) s.1.sc →
      total3 P.gz P.gy P.gx (refRun3 ft P K cfl tol ys s).1.sc = total3 P.gz P.gy P.gx s.1.sc ∧
      total3 P.gz P.gy P.gx (fun G => centre3 P.dx j G * (refRun3 ft P K cfl tol ys s).1.sc G) =
        total3 P.gz P.gy P.gx (fun G => centre3 P.dx j G * s.1.sc G) + ((refRun3 ft P K cfl tol ys s).2 - s.2) * U j * total3 P.gz P.gy P.gx s.1.sc ∧
      (U = 0 → total3 P.gz P.gy P.gx (fun G => centre3 P.dx j G ^ 2 * (refRun3 ft P K cfl tol ys s).1.sc G) =
        total3 P.gz P.gy P.gx (fun G => centre3 P.dx j G ^ 2 * s.1.sc G) + 2 * P.nu * ((refRun3 ft P K cfl tol ys s).2 - s.2) * total3 P.gz P.gy P.gx s.1.sc)))
  | [], s, _ => by
    unfold refRun3
    exact ⟨fun _ i _ => ⟨rfl, by ring, fun _ => by ring⟩, fun _ _ => ⟨rfl, by ring, fun _ => by ring⟩⟩
  | y :: ys, s, hu => by
    have hf1 : ft ≠ "navier_stokes" := by rintro rfl; cases hf
    have hf2 : ft ≠ "navier_stokes_with_forcing" := by rintro rfl; cases hf
    have mono : ∀ {a b : ℕ} {f : C3 → ℝ}, Within3 P.gz P.gy P.gx a f → b ≤ a → Within3 P.gz P.gy P.gx b f := fun hf hb =>
      within3_sup.2 ((within3_sup.1 hf).mono (by simp only; omega) (by simp only; omega) (by simp only; omega))
    rw [refRun3]
    generalize hdt : refDt3 P cfl tol s.1 y.rule = dt
    have hstep : (refStep3 ft P K dt y.fs y.Φ s.1).u = fun j _ => U j := by
      unfold refStep3
      rw [if_neg hf1, if_neg hf2]
      split <;> exact hu
    obtain ⟨i1, i2⟩ := run3_moments hd ha hf hdx cfl tol U j ys (refStep3 ft P K dt y.fs y.Φ s.1, s.2 + dt) hstep
    rw [List.length_cons]
    constructor
    · intro hv i h
      have e : (refStep3 ft P K dt y.fs y.Φ s.1).om i = refDiff3 P K dt (refAdv3 P K dt (fun j _ => U j) (s.1.om i)) := by
        unfold refStep3 refVector3
        rw [if_neg hf1, if_neg hf2, if_pos hv, hu]
      obtain ⟨k1, k2⟩ := advDiff3_kept (P := P) hd ha.flux (k := 1 + 3 * ys.length) (by omega) dt (fun j _ => U j) (mono h (by omega))
      obtain ⟨f1, f2⟩ := scalar3_step (P := P) hd ha (k := 1 + 3 * ys.length) (by omega) (mono h (by omega)) hdx dt U j
      obtain ⟨m0, m1, m2⟩ := i1 hv i (by dsimp only; rw [e]; exact k1)
      dsimp only at m0 m1 m2
      rw [e, k2] at m0 m1 m2
      refine ⟨m0, ?_, fun h0 => ?_⟩
      · rw [m1, f1]; ring
      · rw [m2 h0, f2 h0]; ring
    · intro hv h
      have e : (refStep3 ft P K dt y.fs y.Φ s.1).sc = refDiff3 P K dt (refAdv3 P K dt (fun j _ => U j) s.1.sc) := by
        unfold refStep3 refScalar3
        rw [if_neg hf1, if_neg hf2, if_neg hv, hu]
      obtain ⟨k1, k2⟩ := advDiff3_kept (P := P) hd ha.flux (k := 1 + 3 * ys.length) (by omega) dt (fun j _ => U j) (mono h (by omega))
      obtain ⟨f1, f2⟩ := scalar3_step (P := P) hd ha (k := 1 + 3 * ys.length) (by omega) (mono h (by omega)) hdx dt U j
      obtain ⟨m0, m1, m2⟩ := i2 hv (by dsimp only; rw [e]; exact k1)
      dsimp only at m0 m1 m2
      rw [e, k2] at m0 m1 m2
      refine ⟨m0, ?_, fun h0 => ?_⟩
      · rw [m1, f1]; ring
      · rw [m2 h0, f2 h0]; ring

/-- the vorticity update with the curl of a field adds the field's total to the impulse -/
theorem upd3_cross (hu : CentralCurl3 K.upd) {f : Fin 3 → C3 → ℝ} (h : ∀ j, Within3 P.gz P.gy P.gx 1 (f j)) (hdx : P.dx ≠ 0) (dt : ℝ) (om : Fin 3 → C3 → ℝ) (j : Fin 3) :
    cross0 P.gz P.gy P.gx P.dx (refUpd3 P K dt f om) j = cross0 P.gz P.gy P.gx P.dx om j + 2 * dt * total3 P.gz P.gy P.gx (f j) := by
  have hs : ∀ j, Sup3 P.gz P.gy P.gx (((0, 0, 0) : C3) + (1, 1, 1)) (f j) := fun j => (within3_sup.1 (h j)).mono (by simp) (by simp) (by simp)
  obtain ⟨e, -⟩ := upd3_sup (P := P) hu (k := (0, 0, 0)) (by simp) (om := om) hs dt
  have c := gCurl_cross (k := (((0, 0, 0) : C3) + (1, 1, 1))) (by simp) (by simp) (by simp) hs P.dx j
  rw [e]
  unfold cross0 at c ⊢
  have lin : ∀ a b, total3 P.gz P.gy P.gx (fun G => centre3 P.dx a G * (om b G + dt / (2 * P.dx) * gCurl f b G)) = total3 P.gz P.gy P.gx (fun G => centre3 P.dx a G * om b G) +
      dt / (2 * P.dx) * total3 P.gz P.gy P.gx fun G => centre3 P.dx a G * gCurl f b G := by
    intro a b
    rw [← total3_mul, ← total3_add]
    exact total3_congr fun G _ => by ring
  rw [lin, lin]
  have : dt / (2 * P.dx) * (4 * P.dx * total3 P.gz P.gy P.gx (f j)) = 2 * dt * total3 P.gz P.gy P.gx (f j) := by field_simp; ring
  rw [← this, ← c]
  ring

/-- diffusion, filter and penalisation keep the impulse: a whole Navier-Stokes step changes it by the total of `u × ω` -/
theorem vort3_cross (hd : SevenPoint K.diff) (hu : CentralCurl3 K.upd) (ho : ∀ p ty, P.flt = some (p, ty) → 1 ≤ p) {k : ℕ} (hw : P.w ≤ k) (hk : 1 ≤ k) (hdx : P.dx ≠ 0) (dt : ℝ)
    {F : Fields3} (h : ∀ j, Within3 P.gz P.gy P.gx (k + fltOrder P.flt + 2) (F.om j)) (j : Fin 3) :
    cross0 P.gz P.gy P.gx P.dx (refVort3 P K dt F) j = cross0 P.gz P.gy P.gx P.dx F.om j + 2 * dt * total3 P.gz P.gy P.gx (crossF F.u F.om j) := by
  have hx : ∀ j, Within3 P.gz P.gy P.gx (k + fltOrder P.flt + 1 + 1) (crossF F.u F.om j) := fun j => within3_sup.2 (crossF_sup (fun j => within3_sup.1 (h j)) j)
  have u1 := upd3_kept (P := P) hu (k := k + fltOrder P.flt + 1) hx (fun j => within3_sup.2 ((within3_sup.1 (h j)).mono (by simp) (by simp) (by simp))) dt
  have c := upd3_cross (P := P) hu (f := crossF F.u F.om) (fun j => within3_sup.2 ((within3_sup.1 (hx j)).mono (by simp only; omega) (by simp only; omega) (by simp only; omega))) hdx dt F.om j
  set om1 := refUpd3 P K dt (crossF F.u F.om) F.om with hom1
  have d1 : ∀ j, refDiff3 P K dt (om1 j) = gDiff (P.nu * dt / P.dx / P.dx) (om1 j) ∧
      Sup3 P.gz P.gy P.gx ((k : ℤ) + fltOrder P.flt, (k : ℤ) + fltOrder P.flt, (k : ℤ) + fltOrder P.flt) (gDiff (P.nu * dt / P.dx / P.dx) (om1 j)) := by
    intro j
    have hs := within3_sup.1 (u1.sup j)
    push_cast at hs
    exact diff3_sup (P := P) hd hs (hs.mono (by simp only; omega) (by simp only; omega) (by simp only; omega)) dt
  have f1 : ∀ j, refFilter3 P (refDiff3 P K dt (om1 j)) = gFilter P.flt (gDiff (P.nu * dt / P.dx / P.dx) (om1 j)) ∧
      Sup3 P.gz P.gy P.gx (k, k, k) (gFilter P.flt (gDiff (P.nu * dt / P.dx / P.dx) (om1 j))) := by
    intro j
    rw [(d1 j).1]
    exact filter3_sup (P := P) (by omega) (d1 j).2
  have e : refVort3 P K dt F = fun j => gFilter P.flt (gDiff (P.nu * dt / P.dx / P.dx) (om1 j)) := by
    funext j
    unfold refVort3
    rw [← hom1, (f1 j).1, pen3_within]
    exact within3_sup.2 ((f1 j).2.mono (by simp only; omega) (by simp only; omega) (by simp only; omega))
  have m : ∀ a b, total3 P.gz P.gy P.gx (fun G => centre3 P.dx a G * refVort3 P K dt F b G) = total3 P.gz P.gy P.gx fun G => centre3 P.dx a G * om1 b G := by
    intro a b
    rw [e, gFilter_first ho (by omega) (d1 b).2]
    exact gDiff_first (k := (k, k, k)) (by simp only; omega) (by simp only; omega) (by simp only; omega)
      ((within3_sup.1 (u1.sup b)).mono (by simp only; omega) (by simp only; omega) (by simp only; omega)) _ _ _
  rw [← c]
  unfold cross0
  rw [m, m]

/-- The vorticity from which a step takes `u × ω`: after the forcing, if there is one. -/
noncomputable def refMid3 (ft : String) (P : Params3) (K : Kern3) (dt : ℝ) (Φ om : Fin 3 → C3 → ℝ) : Fin 3 → C3 → ℝ := if ft = "navier_stokes" then om else refUpd3 P K dt Φ om

/-- one Navier-Stokes step -/
theorem step3_cross (hd : SevenPoint K.diff) (hu : CentralCurl3 K.upd) {ft : String} (hns : isNS ft = true) (ho : ∀ p ty, P.flt = some (p, ty) → 1 ≤ p) {k : ℕ} (hw : P.w ≤ k) (hk : 1 ≤ k)
    (hdx : P.dx ≠ 0) (dt : ℝ) (fs : Fin 3 → ℝ) {Φ : Fin 3 → C3 → ℝ} (hΦ : ∀ j, Within3 P.gz P.gy P.gx (k + 3 + fltOrder P.flt + 1) (Φ j)) {F : Fields3}
    (h : ∀ j, Within3 P.gz P.gy P.gx (k + 3 + fltOrder P.flt) (F.om j)) (j : Fin 3) :
    cross0 P.gz P.gy P.gx P.dx (refStep3 ft P K dt fs Φ F).om j = cross0 P.gz P.gy P.gx P.dx F.om j +
      2 * dt * ((if ft = "navier_stokes" then 0 else total3 P.gz P.gy P.gx (Φ j)) + total3 P.gz P.gy P.gx (crossF F.u (refMid3 ft P K dt Φ F.om) j)) := by
  have mono : ∀ {a b : ℕ} {f : C3 → ℝ}, Within3 P.gz P.gy P.gx a f → b ≤ a → Within3 P.gz P.gy P.gx b f := fun hf hb =>
    within3_sup.2 ((within3_sup.1 hf).mono (by simp only; omega) (by simp only; omega) (by simp only; omega))
  unfold refStep3 refMid3
  by_cases h1 : ft = "navier_stokes"
  · simp only [if_pos h1]
    unfold refNS3
    rw [vort3_cross (P := P) hd hu ho hw hk hdx dt (fun j => mono (h j) (by omega))]
    ring
  · have h2 : ft = "navier_stokes_with_forcing" := by
      unfold isNS at hns
      simp only [Bool.or_eq_true, beq_iff_eq] at hns
      simpa [h1] using hns
    simp only [if_neg h1, if_pos h2]
    unfold refForcing3 refNS3
    have u1 := upd3_kept (P := P) hu (k := k + fltOrder P.flt + 2) (f := Φ) (om := F.om) (fun j => mono (hΦ j) (by omega)) (fun j => mono (h j) (by omega)) dt
    have c := upd3_cross (P := P) hu (f := Φ) (fun j => mono (hΦ j) (by omega)) hdx dt F.om j
    rw [vort3_cross (P := P) hd hu ho hw hk hdx dt (F := { F with om := refUpd3 P K dt Φ F.om }) (fun j => u1.sup j)]
    dsimp only
    rw [c]
    ring

/-- how far the vorticity gets in a run -/
theorem run3_within (hd : SevenPoint K.diff) (ha : FluxForm3 K.adv) (hu : CentralCurl3 K.upd) (ft : String) (ho : isNS ft = true → ∀ p ty, P.flt = some (p, ty) → 1 ≤ p) (cfl tol : ℝ)
    {k : ℕ} (hw : P.w ≤ k) (hk : 1 ≤ k) : ∀ (ys : List StepSpec3) (s : Fields3 × ℝ),
    (∀ y ∈ ys, ∀ j, Within3 P.gz P.gy P.gx (k + (3 + fltOrder P.flt) * ys.length + 1) (y.Φ j)) →
    (∀ j, Within3 P.gz P.gy P.gx (k + (3 + fltOrder P.flt) * ys.length) (s.1.om j)) → ∀ j, Within3 P.gz P.gy P.gx k ((refRun3 ft P K cfl tol ys s).1.om j)
  | [], s, _, h => h
  | y :: ys, s, hΦ, h => by
    have mono : ∀ {a b : ℕ} {f : C3 → ℝ}, Within3 P.gz P.gy P.gx a f → b ≤ a → Within3 P.gz P.gy P.gx b f := fun hf hb =>
      within3_sup.2 ((within3_sup.1 hf).mono (by simp only; omega) (by simp only; omega) (by simp only; omega))
    rw [List.length_cons, Nat.mul_succ] at h hΦ
    rw [refRun3]
    refine run3_within hd ha hu ft ho cfl tol hw hk ys _ (fun z hz j => mono (hΦ z (List.mem_cons_of_mem _ hz) j) (by omega)) ?_
    exact ((step3_kept (P := P) hd ha hu ft ho (k := k + (3 + fltOrder P.flt) * ys.length) (by omega) (by omega) _ y.fs
      (fun j => mono (hΦ y List.mem_cons_self j) (by omega))).1 fun j => mono (h j) (by omega)).1

end Parts

/-! ## On the ranks -/

section Ranks
variable {T : Cart3} [NeZero T.gz] [NeZero T.gy] [NeZero T.gx]

/-- Sum over the inner cells of all ranks of a field times a function of the cell's position (as `position_field` holds it). -/
noncomputable def moment3 (T : Cart3) (g : ℕ) (xr : ℝ) (q : (Fin 3 → ℝ) → ℝ) (v : World C3 C3 ℝ) : ℝ := innerTotal3 T g fun c p => q (fun j => position3 T g xr c j p) * v c p

/-- Component `j` of the impulse `½ ∑ x × ω`, over the inner cells of all ranks. -/
noncomputable def impulse3 (T : Cart3) (g : ℕ) (xr : ℝ) (om : Fin 3 → World C3 C3 ℝ) (j : Fin 3) : ℝ :=
  (moment3 T g xr (fun x => x (j + 1)) (om (j + 2)) - moment3 T g xr (fun x => x (j + 2)) (om (j + 1))) / 2

omit [NeZero T.gz] [NeZero T.gy] [NeZero T.gx] in
theorem moment3_holds {gz gy gx pz py px : ℕ} {per : Bool} (hT : mkCart3 gz gy gx pz py px per = .ok T) {g : ℕ} {F : C3 → ℝ} {v : World C3 C3 ℝ} (h : Holds3 T g F v) (xr : ℝ)
    (q : (Fin 3 → ℝ) → ℝ) : moment3 T g xr q v = total3 gz gy gx fun G => q (fun j => centre3 (xr / gx) j G) * F G := by
  obtain ⟨-, -, e2, -⟩ := construct3_ok hT
  refine innerTotal3_holds hT (g := g) (v := fun c p => q (fun j => position3 T g xr c j p) * v c p) ?_
  intro c p hc hp
  obtain ⟨h1, h2, h3⟩ := position3_cells T g xr c (inArr_of_inner3 hp)
  have e : (fun j => position3 T g xr c j p) = fun j => centre3 (xr / gx) j (globalIx3 T g c p) := by
    funext j
    match j with
    | 0 => rw [h1, e2]; rfl
    | 1 => rw [h2, e2]; rfl
    | 2 => rw [h3, e2]; rfl
  dsimp only
  rw [e, h c p hc hp]

omit [NeZero T.gz] [NeZero T.gy] [NeZero T.gx] in
theorem impulse3_holds {gz gy gx pz py px : ℕ} {per : Bool} (hT : mkCart3 gz gy gx pz py px per = .ok T) {g : ℕ} {F : Fin 3 → C3 → ℝ} {om : Fin 3 → World C3 C3 ℝ}
    (h : ∀ j, Holds3 T g (F j) (om j)) (xr : ℝ) (j : Fin 3) : impulse3 T g xr om j = cross0 gz gy gx (xr / gx) F j / 2 := by
  unfold impulse3 cross0
  rw [moment3_holds hT (h _), moment3_holds hT (h _)]

/-- **C105 (3D)** A passive scalar, or each component of a passive vector, in a uniform stream, on any number of ranks: the total stays, the first moments grow by (elapsed time) ×
(stream velocity) × total, so the centre of mass moves with the stream whatever the sizes of the steps and the viscosity; and without stream the second moments grow by
2 ν × (elapsed time) × total. -/
theorem scalar3_moments {a : SimArgs3} (h : Fit3 a T) {xr : ℝ} (hxr : 0 < xr) {nu : ℝ} (hnu : 0 ≤ nu) {cfl : ℝ} (hcfl : 0 ≤ cfl) {tol : ℝ} (htol : 0 < tol)
    {K : Kern3} (hK : K.Local) (hK0 : ∀ r, K.upd r (fun _ _ => 0) = 0) (hd : SevenPoint K.diff) (ha : StreamFlux3 K.adv) (time : ℝ) (dbl0 : World C3 C3 ℝ) (conv0 : Dbl3 T → ℂ)
    (sc : ℝ → ℝ → ℝ → ℝ) (om : Fin 3 → ℝ → ℝ → ℝ → ℝ) (U : Fin 3 → ℝ) {xs : List StepIn3} {ys : List StepSpec3}
    (hxy : List.Forall₂ (Means3 a.gz a.gy a.gx T (simCfg3 a xr nu cfl)) xs ys) :
    let start := initFrom3 T a.g xr time dbl0 conv0 sc om fun j _ _ _ => U j
    let out := simLoop3 (simCfg3 a xr nu cfl) K tol xs start
    let Δt := out.1.time - start.time
    let grows := fun (v₀ v₁ : World C3 C3 ℝ) => moment3 T a.g xr (fun _ => 1) v₁ = moment3 T a.g xr (fun _ => 1) v₀ ∧
      (∀ j, moment3 T a.g xr (fun x => x j) v₁ = moment3 T a.g xr (fun x => x j) v₀ + Δt * U j * moment3 T a.g xr (fun _ => 1) v₀) ∧
      (U = 0 → ∀ j, moment3 T a.g xr (fun x => x j ^ 2) v₁ = moment3 T a.g xr (fun x => x j ^ 2) v₀ + 2 * nu * Δt * moment3 T a.g xr (fun _ => 1) v₀)
    out.2 = none ∧
    (a.flowType = "passive_scalar" → Within3 a.gz a.gy a.gx (1 + 3 * ys.length) (atCentre3 (xr / a.gx) sc) → grows start.sc out.1.sc) ∧
    (a.flowType = "passive_vector" → ∀ i, Within3 a.gz a.gy a.gx (1 + 3 * ys.length) (atCentre3 (xr / a.gx) (om i)) → grows (start.om i) (out.1.om i)) := by
  obtain ⟨hT, hft⟩ := simCheck3_cart h.built
  obtain ⟨-, -, e2, -⟩ := construct3_ok hT
  have hgx0 : 0 < a.gx := by rw [← e2]; exact Nat.pos_of_ne_zero (NeZero.ne _)
  have hdx : xr / a.gx ≠ 0 := (div_pos hxr (by exact_mod_cast hgx0)).ne'
  obtain ⟨r1, r2, r3⟩ := sim3_run h hxr hnu hcfl htol hK hK0 time dbl0 conv0 sc om (fun j _ _ _ => U j) hxy
  have hinit := initFrom3_holds hT (simCfg3 a xr nu cfl) time dbl0 conv0 sc om fun j _ _ _ => U j
  intro start out Δt grows
  have key : ∀ (F₀ F₁ : C3 → ℝ) (v₀ v₁ : World C3 C3 ℝ), Holds3 T a.g F₀ v₀ → Holds3 T a.g F₁ v₁ →
      total3 a.gz a.gy a.gx F₁ = total3 a.gz a.gy a.gx F₀ →
      (∀ j, total3 a.gz a.gy a.gx (fun G => centre3 (xr / a.gx) j G * F₁ G) = total3 a.gz a.gy a.gx (fun G => centre3 (xr / a.gx) j G * F₀ G) + Δt * U j * total3 a.gz a.gy a.gx F₀) →
      (∀ j, U = 0 → total3 a.gz a.gy a.gx (fun G => centre3 (xr / a.gx) j G ^ 2 * F₁ G) =
        total3 a.gz a.gy a.gx (fun G => centre3 (xr / a.gx) j G ^ 2 * F₀ G) + 2 * nu * Δt * total3 a.gz a.gy a.gx F₀) → grows v₀ v₁ := by
    intro F₀ F₁ v₀ v₁ h0 h1 m0 m1 m2
    have one : ∀ {F v}, Holds3 T a.g F v → moment3 T a.g xr (fun _ => 1) v = total3 a.gz a.gy a.gx F := fun hF =>
      (moment3_holds hT hF xr _).trans (total3_congr fun G _ => one_mul _)
    refine ⟨by rw [one h0, one h1, m0], fun j => ?_, fun hU j => ?_⟩
    · rw [one h0, moment3_holds hT h0, moment3_holds hT h1]
      exact m1 j
    · rw [one h0, moment3_holds hT h0, moment3_holds hT h1]
      exact m2 j hU
  have hΔ : Δt = (refRun3 a.flowType (argParams3 a xr nu) K cfl tol ys (fieldsFrom3 (xr / a.gx) sc om fun j _ _ _ => U j, time)).2 - time := by
    simp only [Δt, out, start]
    rw [r2]
    rfl
  refine ⟨r1, fun hf hw => ?_, fun hf i hw => ?_⟩
  · have hn : isNS a.flowType = false := by rw [hf]; rfl
    have M := fun j => (run3_moments (P := argParams3 a xr nu) hd ha hn hdx cfl tol U j ys (fieldsFrom3 (xr / a.gx) sc om fun j _ _ _ => U j, time) rfl).2 (by rw [hf]; decide) hw
    refine key _ _ _ _ (fun c p hc hp => hinit.sc c p hc (inArr_of_inner3 hp) (Or.inl hp)) (fun c p hc hp => (r3 c p hc hp).1) (M 0).1 (fun j => ?_) fun j => ?_
    · rw [hΔ]; exact (M j).2.1
    · rw [hΔ]; exact (M j).2.2
  · have hn : isNS a.flowType = false := by rw [hf]; rfl
    have M := fun j => (run3_moments (P := argParams3 a xr nu) hd ha hn hdx cfl tol U j ys (fieldsFrom3 (xr / a.gx) sc om fun j _ _ _ => U j, time) rfl).1 hf i hw
    refine key _ _ _ _ (fun c p hc hp => hinit.om i c p hc (inArr_of_inner3 hp) (Or.inl hp)) (fun c p hc hp => ((r3 c p hc hp).2 i).1) (M 0).1 (fun j => ?_) fun j => ?_
    · rw [hΔ]; exact (M j).2.1
    · rw [hΔ]; exact (M j).2.2

/-- The vorticity a time step crosses with the velocity: that of before, with forcing after the forcing stage. -/
noncomputable def midVort3 (C : Cfg3) (K : Kern3) (x : StepIn3) (dt : ℝ) (S : Sim3 T) : Fin 3 → World C3 C3 ℝ :=
  if C.flowType = "navier_stokes" then S.om else (callUpd3 (T := T) C K x.sch.force dt S.om x.force).1

/-- **C106 (3D), whole steps** After any number of Navier-Stokes steps, the next one changes the impulse of the flow by its `dt` times the sum over the inner cells of all ranks of the
forcing (if there is one) and of the vortex force `u × ω`; diffusion, filter and penalisation contribute nothing, as long as the vorticity cannot have reached the sides. -/
theorem run3_impulse {a : SimArgs3} (h : Fit3 a T) (hns : isNS a.flowType = true) {xr : ℝ} (hxr : 0 < xr) {nu : ℝ} (hnu : 0 ≤ nu) {cfl : ℝ} (hcfl : 0 ≤ cfl) {tol : ℝ} (htol : 0 < tol)
    {K : Kern3} (hK : K.Local) (hd : SevenPoint K.diff) (ha : FluxForm3 K.adv) (hu : CentralCurl3 K.upd) (time : ℝ) (dbl0 : World C3 C3 ℝ) (conv0 : Dbl3 T → ℂ)
    (sc : ℝ → ℝ → ℝ → ℝ) (om u : Fin 3 → ℝ → ℝ → ℝ → ℝ) {xs : List StepIn3} {ys : List StepSpec3} (hxy : List.Forall₂ (Means3 a.gz a.gy a.gx T (simCfg3 a xr nu cfl)) xs ys)
    {x : StepIn3} {y : StepSpec3} (hxy1 : Means3 a.gz a.gy a.gx T (simCfg3 a xr nu cfl) x y)
    (hΦ : ∀ z ∈ ys ++ [y], ∀ j, Within3 a.gz a.gy a.gx (max (widthOf a.width) 1 + reach3 a * (ys.length + 1) + 1) (z.Φ j))
    (hom : ∀ j, Within3 a.gz a.gy a.gx (max (widthOf a.width) 1 + reach3 a * (ys.length + 1)) (atCentre3 (xr / a.gx) (om j))) :
    let C := simCfg3 a xr nu cfl
    let start := initFrom3 T a.g xr time dbl0 conv0 sc om u
    let S := (simLoop3 C K tol xs start).1
    let S' := (simLoop3 C K tol (xs ++ [x]) start).1
    let dt := S'.time - S.time
    (simLoop3 C K tol (xs ++ [x]) start).2 = none ∧ ∀ j, impulse3 T a.g xr S'.om j = impulse3 T a.g xr S.om j +
      dt * ((if a.flowType = "navier_stokes" then 0 else innerTotal3 T a.g (x.force j)) + innerTotal3 T a.g (cross3 S.vel (midVort3 C K x dt S) j)) := by
  obtain ⟨hT, hft⟩ := simCheck3_cart h.built
  obtain ⟨-, -, e2, -⟩ := construct3_ok hT
  have hgx0 : 0 < a.gx := by rw [← e2]; exact Nat.pos_of_ne_zero (NeZero.ne _)
  have hdx : xr / a.gx ≠ 0 := (div_pos hxr (by exact_mod_cast hgx0)).ne'
  have hK0 : ∀ r, K.upd r (fun _ _ => 0) = 0 := fun r => by rw [hu]; simp
  have hgood := h.good xr nu cfl hns
  have hinit := initFrom3_holds hT (simCfg3 a xr nu cfl) time dbl0 conv0 sc om u
  have run := fun {xs ys} (hxy : List.Forall₂ (Means3 a.gz a.gy a.gx T (simCfg3 a xr nu cfl)) xs ys) => simLoop3_holds hT (fun hn => h.good xr nu cfl hn)
    (fun hn => ⟨(h.passive hn).1, (h.passive hn).2.1, (h.passive hn).2.2.1, (h.passive hn).2.2.2⟩) hxr hft hcfl hnu htol hK hK0 hxy hinit
  obtain ⟨-, s2, s3⟩ := run hxy
  obtain ⟨t1, t2, t3⟩ := run (List.rel_append hxy (List.Forall₂.cons hxy1 List.Forall₂.nil))
  set P := argParams3 a xr nu with hP
  have hPC : (simCfg3 a xr nu cfl).params a.gz a.gy a.gx = P := rfl
  rw [hPC] at s2 s3 t2 t3
  rw [refRun3_append] at t2 t3
  set s := refRun3 (simCfg3 a xr nu cfl).flowType P K (simCfg3 a xr nu cfl).cfl tol ys (fieldsFrom3 ((simCfg3 a xr nu cfl).xr / a.gx) sc om u, (initFrom3 T (simCfg3 a xr nu cfl).g (simCfg3 a xr nu cfl).xr time dbl0 conv0 sc om u).time) with hs
  simp only [refRun3] at t2 t3
  set dt := refDt3 P (simCfg3 a xr nu cfl).cfl tol s.1 y.rule with hdt
  have mono : ∀ {a' b : ℕ} {f : C3 → ℝ}, Within3 a.gz a.gy a.gx a' f → b ≤ a' → Within3 a.gz a.gy a.gx b f := fun hf hb =>
    within3_sup.2 ((within3_sup.1 hf).mono (by simp only; omega) (by simp only; omega) (by simp only; omega))
  have hr : reach3 a = 3 + fltOrder P.flt := rfl
  have hwP : P.w = widthOf a.width := rfl
  have w := run3_within (P := P) hd ha hu a.flowType (fit3_order h) cfl tol (k := max (widthOf a.width) 1 + reach3 a) (by omega) (by omega) ys
    (fieldsFrom3 (xr / a.gx) sc om u, time) (fun z hz j => mono (hΦ z (List.mem_append_left _ hz) j) (by rw [Nat.mul_succ, hr]; omega))
    (fun j => mono (hom j) (by rw [Nat.mul_succ, hr]; omega))
  have c := step3_cross (P := P) hd hu hns (fit3_order h hns) (k := max (widthOf a.width) 1) (by omega) (by omega) hdx dt y.fs
    (Φ := y.Φ) (fun j => mono (hΦ y (List.mem_append_right _ List.mem_cons_self) j) (by rw [Nat.mul_succ, hr]; omega)) (F := s.1) (fun j => mono (w j) (by omega))
  intro C start S S' dt'
  have edt : dt' = dt := by
    change (simLoop3 C K tol (xs ++ [x]) start).1.time - (simLoop3 C K tol xs start).1.time = dt
    have q1 : (simLoop3 C K tol (xs ++ [x]) start).1.time = s.2 + dt := t3
    have q2 : (simLoop3 C K tol xs start).1.time = s.2 := s3
    rw [q1, q2]
    ring
  refine ⟨t1, fun j => ?_⟩
  have i1 := impulse3_holds hT (F := s.1.om) (om := S.om) (g := a.g) (fun j c p hc hp => s2.om j c p hc (inArr_of_inner3 hp) (Or.inl hp)) xr j
  have i2 := impulse3_holds hT (F := (refStep3 a.flowType P K dt y.fs y.Φ s.1).om) (om := S'.om) (g := a.g) (fun j c p hc hp => t2.om j c p hc (inArr_of_inner3 hp) (Or.inl hp)) xr j
  have hm : ∀ j, HoldsX3 T a.g (refMid3 a.flowType P K dt y.Φ s.1.om j) (midVort3 C K x dt S j) := by
    intro j
    unfold refMid3 midVort3
    by_cases hf : a.flowType = "navier_stokes"
    · rw [if_pos hf, if_pos (show C.flowType = _ from hf)]
      exact s2.om j
    · rw [if_neg hf, if_neg (show ¬ C.flowType = _ from hf)]
      have hf2 : a.flowType = "navier_stokes_with_forcing" := by
        unfold isNS at hns
        simp only [Bool.or_eq_true] at hns
        simpa [hf] using hns
      obtain ⟨f1, f2⟩ := hxy1.force hf2
      exact callUpd3_holdsX hT hgood.g hgood.gz hgood.gy hgood.gx hgood.nz hgood.ny hgood.nx hK hK0 hxy1.done.force dt s2.om f1 f2 j
  have hx : innerTotal3 T a.g (cross3 S.vel (midVort3 C K x dt S) j) = total3 a.gz a.gy a.gx (crossF s.1.u (refMid3 a.flowType P K dt y.Φ s.1.om) j) :=
    innerTotal3_holds hT (holdsX3_holds (cross3_holdsX (g := a.g) s2.u hm j))
  have hF : (if a.flowType = "navier_stokes" then 0 else innerTotal3 T a.g (x.force j)) = if a.flowType = "navier_stokes" then 0 else total3 a.gz a.gy a.gx (y.Φ j) := by
    by_cases hf : a.flowType = "navier_stokes"
    · rw [if_pos hf, if_pos hf]
    · rw [if_neg hf, if_neg hf]
      have hf2 : a.flowType = "navier_stokes_with_forcing" := by
        unfold isNS at hns
        simp only [Bool.or_eq_true] at hns
        simpa [hf] using hns
      exact innerTotal3_holds hT fun c p hc hp => (hxy1.force hf2).1 j c p hc (inArr_of_inner3 hp) (Or.inl hp)
  rw [edt, i1, i2, hF, hx]
  have c' := c j
  have c'' : cross0 a.gz a.gy a.gx (xr / a.gx) (refStep3 a.flowType P K dt y.fs y.Φ s.1).om j = cross0 a.gz a.gy a.gx (xr / a.gx) s.1.om j +
      2 * dt * ((if a.flowType = "navier_stokes" then 0 else total3 a.gz a.gy a.gx (y.Φ j)) + total3 a.gz a.gy a.gx (crossF s.1.u (refMid3 a.flowType P K dt y.Φ s.1.om) j)) := c'
  rw [c'']
  ring

/-- the forcing stage of a time step on the ranks -/
theorem callUpd3_impulse {a : SimArgs3} (h : Fit3 a T) (hf : a.flowType = "navier_stokes_with_forcing") {xr : ℝ} (hxr : 0 < xr) (nu cfl : ℝ) {K : Kern3} (hK : K.Local) (hu : CentralCurl3 K.upd)
    {sch : Sched3} (hs : Complete (multiMsgs3 T a.g (simCfg3 a xr nu cfl).full ([0, 1, 2] : List (Fin 3))) sch.2) (dt : ℝ)
    {v f : Fin 3 → World C3 C3 ℝ} {om : Fin 3 → C3 → ℝ} (ho : ∀ j, HoldsX3 T a.g (om j) (v j)) {Φ : Fin 3 → C3 → ℝ} (hΦ : HoldsForce3 T a.g Φ f) (hc : Confined3 a.gz a.gy a.gx Φ) (j : Fin 3) :
    impulse3 T a.g xr (callUpd3 (T := T) (simCfg3 a xr nu cfl) K sch dt v f).1 j = impulse3 T a.g xr v j + dt * innerTotal3 T a.g (f j) := by
  obtain ⟨hT, -⟩ := simCheck3_cart h.built
  obtain ⟨-, -, e2, -⟩ := construct3_ok hT
  have hgx0 : 0 < a.gx := by rw [← e2]; exact Nat.pos_of_ne_zero (NeZero.ne _)
  have hdx : xr / a.gx ≠ 0 := (div_pos hxr (by exact_mod_cast hgx0)).ne'
  have hns : isNS a.flowType = true := by rw [hf]; rfl
  have hgood := h.good xr nu cfl hns
  have hK0 : ∀ r, K.upd r (fun _ _ => 0) = 0 := fun r => by rw [hu]; simp
  have hold := fun j => holdsX3_holds (callUpd3_holdsX (C := simCfg3 a xr nu cfl) hT hgood.g hgood.gz hgood.gy hgood.gx hgood.nz hgood.ny hgood.nx hK hK0 hs dt ho hΦ hc j)
  have i1 := impulse3_holds hT (g := a.g) (fun j => holdsX3_holds (ho j)) xr j
  have i2 := impulse3_holds hT (g := a.g) hold xr j
  have i3 : innerTotal3 T a.g (f j) = total3 a.gz a.gy a.gx (Φ j) := innerTotal3_holds hT fun c p hc hp => hΦ j c p hc (inArr_of_inner3 hp) (Or.inl hp)
  have c := upd3_cross (P := (simCfg3 a xr nu cfl).params a.gz a.gy a.gx) hu (f := Φ) (fun j => hc j) hdx dt om j
  have c' : cross0 a.gz a.gy a.gx (xr / a.gx) (refUpd3 ((simCfg3 a xr nu cfl).params a.gz a.gy a.gx) K dt Φ om) j = cross0 a.gz a.gy a.gx (xr / a.gx) om j + 2 * dt * total3 a.gz a.gy a.gx (Φ j) := c
  rw [i1, i2, i3, c']
  ring

variable {B : Type} [DecidableEq B]

/-- **C106 (3D)** In any correct coupled program, with whatever bodies and at whatever point a flow step of size `dt` is called: its forcing stage changes the impulse `½ ∑ x × ω` of
the flow by `dt` times the sum of the forcing field over the inner cells of all ranks. -/
theorem coupled3_impulse {a : SimArgs3} {xr : ℝ} (hxr : 0 < xr) {nu cfl : ℝ} (hnu : 0 ≤ nu) (hcfl : 0 ≤ cfl) {tol : ℝ} (htol : 0 < tol) {K : Kern3} (hK : K.Local)
    (hKd : ∀ a, CrossLocal3 1 (K.div a)) (hu : CentralCurl3 K.upd) {A : B → Ib3} {X0 : B → LagField ℝ} {t0 : B → ℝ} {time : ℝ} {sc : ℝ → ℝ → ℝ → ℝ} {om u : Fin 3 → ℝ → ℝ → ℝ → ℝ}
    {S : CSt3 T B} (h : Setup3 a xr A X0 t0 time sc om u S) {o : ℕ → CScheds3} (ho : ∀ n, (o n).Done T a.g) (p : Prog3 B)
    (hp : Proper3 (a.pars xr nu) K cfl tol A p (refStart3 (xr / a.gx) X0 t0 time sc om u))
    (ht : Tracked3 T (a.pars xr nu) K cfl tol A p (refStart3 (xr / a.gx) X0 t0 time sc om u))
    {sch : Sched3} (hs : Complete (multiMsgs3 T a.g true ([0, 1, 2] : List (Fin 3))) sch.2) (dt : ℝ) (j : Fin 3) :
    let now := (cRun3 (simCfg3 a xr nu cfl) K tol A o p 0 S).1.sim
    impulse3 T a.g xr (callUpd3 (T := T) (simCfg3 a xr nu cfl) K sch dt now.om now.forcing).1 j = impulse3 T a.g xr now.om j + dt * innerTotal3 T a.g (now.forcing j) := by
  obtain ⟨hT, -⟩ := simCheck3_cart h.fit.built
  have hK0 : ∀ r, K.upd r (fun _ _ => 0) = 0 := fun r => by rw [hu]; simp
  obtain ⟨-, c, -⟩ := coupled3_holds hxr hnu hcfl htol hK hKd hK0 h ho p hp ht
  have hfull : (simCfg3 a xr nu cfl).full = true := by
    unfold Cfg3.full
    exact decide_eq_true h.flowType
  exact callUpd3_impulse h.fit h.flowType hxr nu cfl hK hu (by rw [hfull]; exact hs) dt c.sim.om (forceClean3_holds hT c.force c.conf) c.conf j

/-- **C106 (3D), fixed body** In iteration `n` of the run around a fixed body, the force on the nodes that the drag coefficient reads is the rate at which the forcing stage of the
iteration changes the impulse of the flow. -/
theorem fixedLoop3_impulse {a : SimArgs3} {xr nu cfl tol : ℝ} {K : Kern3} {A : B → Ib3} {X0 : B → LagField ℝ} {t0 : B → ℝ} {time : ℝ} {sc : ℝ → ℝ → ℝ → ℝ} {om u : Fin 3 → ℝ → ℝ → ℝ → ℝ}
    {S : CSt3 T B} {o : ℕ → CScheds3} {b : B} {pre : ℝ} {fs : Fin 3 → ℝ} (h : Fixed3 a xr nu cfl tol K A X0 t0 time sc om u S o b) (hu : CentralCurl3 K.upd) (n : ℕ) :
    let C := simCfg3 a xr nu cfl
    let st := fixedState3 C K tol A o b (X0 b) pre fs S
    ∃ dt sim₁ sim, stableDt3 C tol pre (st n).sim = (sim₁, .ok dt) ∧
      fullInteract3 C (A b) (o (4 * n + 2)).ghost (X0 b) (fun _ _ => 0) sim₁ { (st n).ib b with v := vbfStep dt ((st n).ib b).v } = .ok (sim, (st (n + 1)).ib b) ∧
      timeStep3 C K (o (4 * n + 3)).step dt fs sim = ((st (n + 1)).sim, none) ∧
      ∀ j : Fin 3, (xr / a.gx) ^ 3 * (impulse3 T a.g xr (callUpd3 (T := T) C K (o (4 * n + 3)).step.force dt sim.om sim.forcing).1 j - impulse3 T a.g xr sim.om j) =
        dt * nodeTotal (A b).N (((st (n + 1)).ib b).v.gforce j) := by
  intro C st
  obtain ⟨dt, sim₁, ib₁, sim, ib, d1, d2, d3, d4, d5, d6, d7, -⟩ := fixedLoop3_drag (pre := pre) (fs := fs) h 1 n
  have hib : ((st (n + 1)).ib b) = ib := d7
  refine ⟨dt, sim₁, sim, d1, ?_, d6, fun j => ?_⟩
  · rw [hib, ← d2]; exact d4
  have hk : ∀ r, Proper3 (a.pars xr nu) K cfl tol A (.stableDt pre fun dt => .advance b dt (.interact b (X0 b) (fun _ _ => 0) .stop)) r :=
    fun _ => ⟨h.inside, .inl h.auto, trivial⟩
  have hs : Still3 X0 (.stableDt pre fun dt => .advance b dt (.interact b (X0 b) (fun _ _ => 0) .stop)) := fun _ => ⟨rfl, trivial⟩
  have I := coupled3_impulse h.xr h.nu h.cfl.le h.tol h.kern h.kdiv hu h.setup h.sched (fixedProg3 b (X0 b) pre fs n (.stableDt pre fun dt => .advance b dt (.interact b (X0 b) (fun _ _ => 0) .stop)))
    (proper_fixed3 (P := a.pars xr nu) h.auto h.inside hk n _)
    (tracked3_still _ _ _ _ _ X0 _ (still_fixed3 rfl hs n) _ rfl) (h.sched (4 * n + 3)).1.force dt j
  have hrun : cRun3 C K tol A o (fixedProg3 b (X0 b) pre fs n (.stableDt pre fun dt => .advance b dt (.interact b (X0 b) (fun _ _ => 0) .stop))) 0 S =
    cRun3 C K tol A o (.stableDt pre fun dt => .advance b dt (.interact b (X0 b) (fun _ _ => 0) .stop)) (0 + 4 * n) (st n) := cRun3_fixed _ n 0 (h.state n)
  have hsim : (cRun3 C K tol A o (.stableDt pre fun dt => .advance b dt (.interact b (X0 b) (fun _ _ => 0) .stop)) (0 + 4 * n) (st n)).1.sim = sim := by
    simp only [cRun3]
    rw [d1]
    dsimp only
    simp only [Function.update_self]
    rw [← d2, show 0 + 4 * n + 1 + 1 = 4 * n + 2 by omega, d4]
  dsimp only at I
  rw [hrun, hsim] at I
  have q : (xr / a.gx) ^ 3 * innerTotal3 T a.g (sim.forcing j) = nodeTotal (A b).N (ib.v.gforce j) := d5 j
  rw [I, hib, ← q]
  ring

end Ranks

/-! ## Examples -/

/-- the third order upwind kernel of `sopht` meets the assumption on advection -/
theorem exKern3_stream : StreamFlux3 exKern3.adv := by
  refine ⟨fun i f => upwind3 ((f (some i) 0 + f (some i) (axisStep i)) / 2) (f none (-axisStep i)) (f none 0) (f none (axisStep i)) (f none (2 • axisStep i)), ?_, ?_, ?_⟩
  · intro a f
    simp only [exKern3]
    congr 1
  · intro i f h
    have h1 := h (-1) (by norm_num) (by norm_num)
    have h2 := h 0 (by norm_num) (by norm_num)
    have h3 := h 1 (by norm_num) (by norm_num)
    have h4 := h 2 (by norm_num) (by norm_num)
    rw [neg_one_smul] at h1
    rw [zero_smul] at h2
    rw [one_smul] at h3
    rw [show (2 : ℤ) • axisStep i = 2 • axisStep i from ofNat_zsmul _ _] at h4
    dsimp only
    rw [h1, h2, h3, h4]
    unfold upwind3
    split <;> ring
  · intro i v
    refine ⟨if 0 ≤ v then ![-1 / 6, 5 / 6, 1 / 3, 0] else ![0, 1 / 3, 5 / 6, -1 / 6], ?_, ?_⟩
    · split <;> norm_num [Matrix.cons_val_two, Matrix.cons_val_three]
    · intro f h
      rw [neg_one_smul, zero_smul, one_smul, show (2 : ℤ) • axisStep i = 2 • axisStep i from ofNat_zsmul _ _]
      simp only [h]
      rw [show (v + v) / 2 = v by ring]
      unfold upwind3
      split <;> simp only [Matrix.cons_val_zero, Matrix.cons_val_one, Matrix.cons_val] <;> ring

/-- a single cell of a 16³ grid has the room for one scalar step; its centre of mass moves by `dt U` exactly -/
example : total3 16 16 16 (fun G => centre3 (1 / (16 : ℕ)) 0 G * refDiff3 ⟨16, 16, 16, 1, 2, 0, false, none⟩ exKern3 (1 / 10) (refAdv3 ⟨16, 16, 16, 1, 2, 0, false, none⟩ exKern3 (1 / 10)
      (fun j _ => ![3, 5, 7] j) (fun G : C3 => if G = (8, 7, 5) then (1 : ℝ) else 0)) G) = 11 / 32 + 3 / 10 := by
  have h1 : Within3 16 16 16 (1 + 3) (fun G : C3 => if G = (8, 7, 5) then (1 : ℝ) else 0) := fun G hG => by
    dsimp only
    rw [if_neg]
    rintro rfl
    exact hG (by unfold Away3; norm_num)
  have := (scalar3_step (P := ⟨16, 16, 16, 1, 2, 0, false, none⟩) (K := exKern3) (fun _ _ => rfl) exKern3_stream le_rfl h1 (by norm_num [Params3.dx]) (1 / 10) ![3, 5, 7] 0).1
  refine this.trans ?_
  unfold total3
  simp only [mul_ite, mul_one, mul_zero]
  rw [Finset.sum_ite_eq', Finset.sum_ite_eq', if_pos (by simp)]
  norm_num [centre3, Params3.dx]

/-- a forcing along z in one cell of a 16³ grid gives a fluid at rest the impulse `dt`, along z only -/
example (j : Fin 3) : cross0 16 16 16 (1 / (16 : ℕ)) (refUpd3 ⟨16, 16, 16, 1, 2, 0, false, none⟩ exKern3 (1 / 10) (fun i G => if i = 2 ∧ G = (8, 7, 5) then (1 : ℝ) else 0) fun _ _ => 0) j / 2 =
    if j = 2 then 1 / 10 else 0 := by
  have h1 : ∀ i, Within3 16 16 16 1 ((fun (i : Fin 3) (G : C3) => if i = 2 ∧ G = (8, 7, 5) then (1 : ℝ) else 0) i) := fun i G hG => by
    dsimp only
    rw [if_neg]
    rintro ⟨-, rfl⟩
    exact hG (by unfold Away3; norm_num)
  have := upd3_cross (P := ⟨16, 16, 16, 1, 2, 0, false, none⟩) (K := exKern3) (fun _ _ => rfl) h1 (by norm_num [Params3.dx]) (1 / 10) (fun _ _ => 0) j
  have e : cross0 16 16 16 (1 / (16 : ℕ)) (fun _ _ => 0) j = 0 := by
    unfold cross0 total3
    simp
  have t : total3 16 16 16 (fun G : C3 => if j = 2 ∧ G = (8, 7, 5) then (1 : ℝ) else 0) = if j = 2 then 1 else 0 := by
    unfold total3
    by_cases hj : j = 2
    · simp only [hj, true_and, if_true]
      rw [Finset.sum_ite_eq', if_pos (by simp)]
    · simp [hj]
  have q : cross0 16 16 16 (1 / (16 : ℕ)) (refUpd3 ⟨16, 16, 16, 1, 2, 0, false, none⟩ exKern3 (1 / 10) (fun i G => if i = 2 ∧ G = (8, 7, 5) then (1 : ℝ) else 0) fun _ _ => 0) j =
    cross0 16 16 16 (1 / (16 : ℕ)) (fun _ _ => 0) j + 2 * (1 / 10) * total3 16 16 16 (fun G : C3 => if j = 2 ∧ G = (8, 7, 5) then (1 : ℝ) else 0) := this
  rw [q, e, t]
  split <;> norm_num

end Sopht
