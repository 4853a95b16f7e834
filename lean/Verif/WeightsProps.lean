import Verif.Weights
import Verif.InterpProps
import Mathlib.Tactic.Linarith
import Mathlib.Tactic.Ring
import Mathlib.Tactic.Positivity
import Mathlib.Tactic.FieldSimp

/-!
# Weights: C27, C28, C59, C60

Specification in `Verif.InterpLemmas`: `winCells` are the `2 w` cells around a position, `window2/3` their products.
-/

namespace Sopht

open Finset

/-! ## One axis -/

section Axis

/-- position of a node relative to the cell below it -/
theorem cell_frac {dx : ℝ} (hdx : 0 < dx) (shift x : ℝ) : ∃ r : ℝ, 0 ≤ r ∧ r < 1 ∧
    ∀ j : ℤ, (((cellOf dx shift x + j : ℤ) : ℝ) * dx + shift - x) / dx = j - r := by
  refine ⟨Int.fract ((x - shift) / dx), Int.fract_nonneg _, Int.fract_lt_one _, ?_⟩
  intro j
  unfold cellOf
  have := Int.floor_add_fract ((x - shift) / dx)
  have e : (⌊(x - shift) / dx⌋ : ℝ) = (x - shift) / dx - Int.fract ((x - shift) / dx) := by linarith
  push_cast
  rw [e]
  field_simp
  ring

theorem sum_four {M : Type} [AddCommMonoid M] (k : ℤ) (f : ℤ → M) :
    (∑ G ∈ Ioc (k - (2 : ℕ)) (k + (2 : ℕ)), f G) = f (k + -1) + f (k + 0) + f (k + 1) + f (k + 2) := by
  rw [← sum_window k 2 f]
  simp only [Finset.sum_range_succ, Finset.sum_range_zero, zero_add]
  have e1 : k - ((2 : ℕ) : ℤ) + 1 + ((0 : ℕ) : ℤ) = k + -1 := by push_cast; ring
  have e2 : k - ((2 : ℕ) : ℤ) + 1 + ((1 : ℕ) : ℤ) = k + 0 := by push_cast; ring
  have e3 : k - ((2 : ℕ) : ℤ) + 1 + ((2 : ℕ) : ℤ) = k + 1 := by push_cast; ring
  have e4 : k - ((2 : ℕ) : ℤ) + 1 + ((3 : ℕ) : ℤ) = k + 2 := by push_cast; ring
  rw [e1, e2, e3, e4]

/-- The cosine factors of the four cells around any position sum to 4. -/
theorem cos_axis {dx : ℝ} (hdx : 0 < dx) (shift x : ℝ) :
    (∑ G ∈ winCells dx shift 2 x, 0.25 * cosFactor (((G : ℝ) * dx + shift - x) / dx)) = 1 := by
  unfold winCells
  rw [sum_four]
  obtain ⟨r, -, -, h⟩ := cell_frac hdx shift x
  rw [h, h, h, h]
  unfold cosFactor
  have a1 : (0.5 * Real.pi * (((-1 : ℤ) : ℝ) - r)) = -(Real.pi / 2 * r) - Real.pi / 2 := by push_cast; ring
  have a2 : (0.5 * Real.pi * (((0 : ℤ) : ℝ) - r)) = -(Real.pi / 2 * r) := by push_cast; ring
  have a3 : (0.5 * Real.pi * (((1 : ℤ) : ℝ) - r)) = Real.pi / 2 - (Real.pi / 2 * r) := by push_cast; ring
  have a4 : (0.5 * Real.pi * (((2 : ℤ) : ℝ) - r)) = Real.pi - (Real.pi / 2 * r) := by push_cast; ring
  rw [a1, a2, a3, a4, Real.cos_pi_sub, Real.cos_pi_div_two_sub, Real.cos_neg, Real.cos_sub_pi_div_two, Real.sin_neg]
  ring

/-- values of the Peskin factor at the four distances -/
theorem peskin_values {r : ℝ} (h0 : 0 ≤ r) (h1 : r < 1) :
    peskinFactor |((-1 : ℤ) : ℝ) - r| = 3 - 2 * r - Real.sqrt (1 + 4 * r - 4 * r ^ 2) ∧
    peskinFactor |((0 : ℤ) : ℝ) - r| = 3 - 2 * r + Real.sqrt (1 + 4 * r - 4 * r ^ 2) ∧
    peskinFactor |((1 : ℤ) : ℝ) - r| = 1 + 2 * r + Real.sqrt (1 + 4 * r - 4 * r ^ 2) ∧
    peskinFactor |((2 : ℤ) : ℝ) - r| = 1 + 2 * r - Real.sqrt (1 + 4 * r - 4 * r ^ 2) := by
  have hpos : 0 ≤ 1 + 4 * r - 4 * r ^ 2 := by nlinarith
  have i1 : ∀ {p : Prop} [Decidable p], p → indicator p = 1 := fun hp => if_pos hp
  have i0 : ∀ {p : Prop} [Decidable p], ¬ p → indicator p = 0 := fun hp => if_neg hp
  refine ⟨?_, ?_, ?_, ?_⟩
  · have e : |((-1 : ℤ) : ℝ) - r| = 1 + r := by push_cast; rw [abs_of_neg (by linarith)]; ring
    rw [e]
    unfold peskinFactor
    rw [i0 (by linarith : ¬ (1 + r < 1)), i1 (by linarith : 1 + r ≥ 1), i1 (by linarith : 1 + r < 2)]
    have : (-7) + 12 * (1 + r) - 4 * (1 + r) ^ 2 = 1 + 4 * r - 4 * r ^ 2 := by ring
    rw [this, abs_of_nonneg hpos]; ring
  · have e : |((0 : ℤ) : ℝ) - r| = r := by push_cast; rw [zero_sub, abs_neg, abs_of_nonneg h0]
    rw [e]
    unfold peskinFactor
    rw [i1 h1, i0 (by linarith : ¬ (r ≥ 1)), abs_of_nonneg hpos]; ring
  · have e : |((1 : ℤ) : ℝ) - r| = 1 - r := by push_cast; rw [abs_of_nonneg (by linarith)]
    rw [e]
    unfold peskinFactor
    rcases h0.eq_or_lt with h | h
    · subst h
      rw [i0 (by norm_num), i1 (by norm_num), i1 (by norm_num)]; norm_num
    · rw [i1 (by linarith : 1 - r < 1), i0 (by linarith : ¬ (1 - r ≥ 1))]
      have : 1 + 4 * (1 - r) - 4 * (1 - r) ^ 2 = 1 + 4 * r - 4 * r ^ 2 := by ring
      rw [this, abs_of_nonneg hpos]; ring
  · have e : |((2 : ℤ) : ℝ) - r| = 2 - r := by push_cast; rw [abs_of_nonneg (by linarith)]
    rw [e]
    unfold peskinFactor
    rw [i0 (by linarith : ¬ (2 - r < 1)), i1 (by linarith : 2 - r ≥ 1)]
    rcases h0.eq_or_lt with h | h
    · subst h
      rw [i0 (by norm_num)]; norm_num
    · rw [i1 (by linarith : 2 - r < 2)]
      have : (-7) + 12 * (2 - r) - 4 * (2 - r) ^ 2 = 1 + 4 * r - 4 * r ^ 2 := by ring
      rw [this, abs_of_nonneg hpos]; ring

theorem peskin_axis {dx : ℝ} (hdx : 0 < dx) (shift x : ℝ) :
    (∑ G ∈ winCells dx shift 2 x, 0.125 * peskinFactor (|(G : ℝ) * dx + shift - x| / dx)) = 1 := by
  unfold winCells
  rw [sum_four]
  obtain ⟨r, h0, h1, h⟩ := cell_frac hdx shift x
  have ha : ∀ y : ℝ, |y| / dx = |y / dx| := fun y => by rw [abs_div, abs_of_pos hdx]
  simp only [ha]
  rw [h, h, h, h]
  obtain ⟨v1, v2, v3, v4⟩ := peskin_values h0 h1
  rw [v1, v2, v3, v4]; ring

/-- first moment -/
theorem peskin_axis_moment {dx : ℝ} (hdx : 0 < dx) (shift x : ℝ) :
    (∑ G ∈ winCells dx shift 2 x, ((G : ℝ) * dx + shift) * (0.125 * peskinFactor (|(G : ℝ) * dx + shift - x| / dx))) = x := by
  unfold winCells
  rw [sum_four]
  obtain ⟨r, h0, h1, h⟩ := cell_frac hdx shift x
  have ha : ∀ y : ℝ, |y| / dx = |y / dx| := fun y => by rw [abs_div, abs_of_pos hdx]
  simp only [ha]
  have hp : ∀ j : ℤ, ((cellOf dx shift x + j : ℤ) : ℝ) * dx + shift = x + dx * (j - r) := by
    intro j
    have := h j
    rw [div_eq_iff hdx.ne'] at this
    linarith
  rw [h, h, h, h, hp, hp, hp, hp]
  obtain ⟨v1, v2, v3, v4⟩ := peskin_values h0 h1
  rw [v1, v2, v3, v4]
  push_cast; ring

end Axis

/-! ## Separable weights -/

section Sep
variable {dx shift : ℝ} {w : ℕ} {φ : ℝ → ℝ}

theorem sep_sum2 {W : ℝ → ℝ → ℝ} (hW : ∀ a b, W a b * dx ^ 2 = φ a * φ b)
    (h1 : ∀ x, (∑ G ∈ winCells dx shift w x, φ ((G : ℝ) * dx + shift - x)) = 1) (x : ℝ × ℝ) :
    (∑ G ∈ window2 dx shift w x, cellWeight2 dx shift W x G * dx ^ 2) = 1 := by
  unfold window2 cellWeight2
  simp only [hW]
  rw [sum_product]
  simp only [mul_comm (φ ((_ : ℝ) * dx + shift - x.1))]
  simp only [← mul_sum, h1, mul_one]

theorem sep_sum3 {W : ℝ → ℝ → ℝ → ℝ} (hW : ∀ a b c, W a b c * dx ^ 3 = φ a * φ b * φ c)
    (h1 : ∀ x, (∑ G ∈ winCells dx shift w x, φ ((G : ℝ) * dx + shift - x)) = 1) (x : ℝ × ℝ × ℝ) :
    (∑ G ∈ window3 dx shift w x, cellWeight3 dx shift W x G * dx ^ 3) = 1 := by
  unfold window3 cellWeight3
  have hW' : ∀ a b c, W a b c * dx ^ 3 = φ c * (φ b * φ a) := fun a b c => by rw [hW]; ring
  simp only [hW']
  simp only [sum_product, ← mul_sum, h1, mul_one]

end Sep

theorem cosW2_sep {dx : ℝ} (hdx : 0 < dx) (a b : ℝ) :
    cosW2 dx a b * dx ^ 2 = 0.25 * cosFactor (a / dx) * (0.25 * cosFactor (b / dx)) := by
  unfold cosW2; field_simp
theorem cosW3_sep {dx : ℝ} (hdx : 0 < dx) (a b c : ℝ) :
    cosW3 dx a b c * dx ^ 3 = 0.25 * cosFactor (a / dx) * (0.25 * cosFactor (b / dx)) * (0.25 * cosFactor (c / dx)) := by
  unfold cosW3; field_simp
theorem peskinW2_sep {dx : ℝ} (hdx : 0 < dx) (a b : ℝ) :
    peskinW2 dx a b * dx ^ 2 = 0.125 * peskinFactor (|a| / dx) * (0.125 * peskinFactor (|b| / dx)) := by
  unfold peskinW2; generalize peskinFactor _ = u; generalize peskinFactor _ = v; field_simp
theorem peskinW3_sep {dx : ℝ} (hdx : 0 < dx) (a b c : ℝ) :
    peskinW3 dx a b c * dx ^ 3 =
      0.125 * peskinFactor (|a| / dx) * (0.125 * peskinFactor (|b| / dx)) * (0.125 * peskinFactor (|c| / dx)) := by
  unfold peskinW3; generalize peskinFactor _ = u; generalize peskinFactor _ = v; generalize peskinFactor _ = t; field_simp

/-! ## C27, C28: the weights around a node sum to one -/

/-- **C27** Cosine kernel: the weights of all cells around any node, times the cell volume, sum to one. -/
theorem cosine_sum2 {dx : ℝ} (hdx : 0 < dx) (shift : ℝ) (x : ℝ × ℝ) :
    (∑ G ∈ window2 dx shift 2 x, cellWeight2 dx shift (cosW2 dx) x G * dx ^ 2) = 1 :=
  sep_sum2 (φ := fun a => 0.25 * cosFactor (a / dx)) (cosW2_sep hdx) (cos_axis hdx shift) x
/-- **C27** 3D. -/
theorem cosine_sum3 {dx : ℝ} (hdx : 0 < dx) (shift : ℝ) (x : ℝ × ℝ × ℝ) :
    (∑ G ∈ window3 dx shift 2 x, cellWeight3 dx shift (cosW3 dx) x G * dx ^ 3) = 1 :=
  sep_sum3 (φ := fun a => 0.25 * cosFactor (a / dx)) (cosW3_sep hdx) (cos_axis hdx shift) x
/-- **C28** Peskin kernel. -/
theorem peskin_sum2 {dx : ℝ} (hdx : 0 < dx) (shift : ℝ) (x : ℝ × ℝ) :
    (∑ G ∈ window2 dx shift 2 x, cellWeight2 dx shift (peskinW2 dx) x G * dx ^ 2) = 1 :=
  sep_sum2 (φ := fun a => 0.125 * peskinFactor (|a| / dx)) (peskinW2_sep hdx) (peskin_axis hdx shift) x
/-- **C28** 3D. -/
theorem peskin_sum3 {dx : ℝ} (hdx : 0 < dx) (shift : ℝ) (x : ℝ × ℝ × ℝ) :
    (∑ G ∈ window3 dx shift 2 x, cellWeight3 dx shift (peskinW3 dx) x G * dx ^ 3) = 1 :=
  sep_sum3 (φ := fun a => 0.125 * peskinFactor (|a| / dx)) (peskinW3_sep hdx) (peskin_axis hdx shift) x

/-- constant on the window -/
theorem const_interp2 {T : Cart2} {g w : ℕ} {dx shift : ℝ} {W : ℝ → ℝ → ℝ} {c : C2} {A : C2 → ℝ} {x : ℝ × ℝ} {k : ℝ}
    (hs : (∑ G ∈ window2 dx shift w x, cellWeight2 dx shift W x G * dx ^ 2) = 1)
    (hA : ∀ G ∈ window2 dx shift w x, A (localIx2 T g c G) = k) : eulToLag2 T g w dx shift W c A x = k := by
  rw [eulToLag2_eq]
  have : ∀ G ∈ window2 dx shift w x, A (localIx2 T g c G) * cellWeight2 dx shift W x G * dx ^ 2 =
      k * (cellWeight2 dx shift W x G * dx ^ 2) := fun G hG => by rw [hA G hG, mul_assoc]
  rw [sum_congr rfl this, ← mul_sum, hs, mul_one]
theorem const_interp3 {T : Cart3} {g w : ℕ} {dx shift : ℝ} {W : ℝ → ℝ → ℝ → ℝ} {c : C3} {A : C3 → ℝ} {x : ℝ × ℝ × ℝ} {k : ℝ}
    (hs : (∑ G ∈ window3 dx shift w x, cellWeight3 dx shift W x G * dx ^ 3) = 1)
    (hA : ∀ G ∈ window3 dx shift w x, A (localIx3 T g c G) = k) : eulToLag3 T g w dx shift W c A x = k := by
  rw [eulToLag3_eq]
  have : ∀ G ∈ window3 dx shift w x, A (localIx3 T g c G) * cellWeight3 dx shift W x G * dx ^ 3 =
      k * (cellWeight3 dx shift W x G * dx ^ 3) := fun G hG => by rw [hA G hG, mul_assoc]
  rw [sum_congr rfl this, ← mul_sum, hs, mul_one]

/-- **C27** Cosine kernel: an array that equals `k` in the cells around a node is interpolated to `k` there. -/
theorem cosine_constant2 {T : Cart2} {g : ℕ} {dx : ℝ} (hdx : 0 < dx) {shift : ℝ} {c : C2} {A : C2 → ℝ} {x : ℝ × ℝ} {k : ℝ}
    (hA : ∀ G ∈ window2 dx shift 2 x, A (localIx2 T g c G) = k) : eulToLag2 T g 2 dx shift (cosW2 dx) c A x = k :=
  const_interp2 (cosine_sum2 hdx shift x) hA
/-- **C27** 3D. -/
theorem cosine_constant3 {T : Cart3} {g : ℕ} {dx : ℝ} (hdx : 0 < dx) {shift : ℝ} {c : C3} {A : C3 → ℝ} {x : ℝ × ℝ × ℝ} {k : ℝ}
    (hA : ∀ G ∈ window3 dx shift 2 x, A (localIx3 T g c G) = k) : eulToLag3 T g 2 dx shift (cosW3 dx) c A x = k :=
  const_interp3 (cosine_sum3 hdx shift x) hA
/-- **C28** Peskin kernel. -/
theorem peskin_constant2 {T : Cart2} {g : ℕ} {dx : ℝ} (hdx : 0 < dx) {shift : ℝ} {c : C2} {A : C2 → ℝ} {x : ℝ × ℝ} {k : ℝ}
    (hA : ∀ G ∈ window2 dx shift 2 x, A (localIx2 T g c G) = k) : eulToLag2 T g 2 dx shift (peskinW2 dx) c A x = k :=
  const_interp2 (peskin_sum2 hdx shift x) hA
/-- **C28** 3D. -/
theorem peskin_constant3 {T : Cart3} {g : ℕ} {dx : ℝ} (hdx : 0 < dx) {shift : ℝ} {c : C3} {A : C3 → ℝ} {x : ℝ × ℝ × ℝ} {k : ℝ}
    (hA : ∀ G ∈ window3 dx shift 2 x, A (localIx3 T g c G) = k) : eulToLag3 T g 2 dx shift (peskinW3 dx) c A x = k :=
  const_interp3 (peskin_sum3 hdx shift x) hA

/-! ## Total of the spread values -/

theorem inner_inDomain2 {gy gx py px : ℕ} {per : Bool} {T : Cart2} (hT : mkCart2 gy gx py px per = .ok T) {g : ℕ} {c p : C2}
    (hc : Valid2 T c) (hp : Inner2 T g p) : InDomain2 T (globalIx2 T g c p) := by
  obtain ⟨e1, e2, -, -, -, h1, h2⟩ := construct2_ok hT
  obtain ⟨v1, v2, v3, v4⟩ := hc
  obtain ⟨i1, i2, i3, i4⟩ := hp
  have k1 : (T.py : ℤ) * T.ny = T.gy := by exact_mod_cast h1
  have k2 : (T.px : ℤ) * T.nx = T.gx := by exact_mod_cast h2
  unfold InDomain2 globalIx2
  simp only
  have a1 : c.1 + 1 ≤ T.py := v2
  have a2 : c.2 + 1 ≤ T.px := v4
  refine ⟨?_, ?_, ?_, ?_⟩ <;> nlinarith

theorem inner_inDomain3 {gz gy gx pz py px : ℕ} {per : Bool} {T : Cart3} (hT : mkCart3 gz gy gx pz py px per = .ok T) {g : ℕ}
    {c p : C3} (hc : Valid3 T c) (hp : Inner3 T g p) : InDomain3 T (globalIx3 T g c p) := by
  obtain ⟨e0, e1, e2, -, -, -, -, h0, h1, h2⟩ := construct3_ok hT
  obtain ⟨v1, v2, v3, v4, v5, v6⟩ := hc
  obtain ⟨i1, i2, i3, i4, i5, i6⟩ := hp
  have k0 : (T.pz : ℤ) * T.nz = T.gz := by exact_mod_cast h0
  have k1 : (T.py : ℤ) * T.ny = T.gy := by exact_mod_cast h1
  have k2 : (T.px : ℤ) * T.nx = T.gx := by exact_mod_cast h2
  unfold InDomain3 globalIx3
  simp only
  have a1 : c.1 + 1 ≤ T.pz := v2
  have a2 : c.2.1 + 1 ≤ T.py := v4
  have a3 : c.2.2 + 1 ≤ T.px := v6
  refine ⟨?_, ?_, ?_, ?_, ?_, ?_⟩ <;> nlinarith

/-- the total of what a node adds to the array of its rank -/
theorem share_total2 {T : Cart2} {g w : ℕ} (hw : w ≤ g) {dx shift : ℝ} (hdx : 0 < dx) (W : ℝ → ℝ → ℝ) {c : C2}
    {nd : (ℝ × ℝ) × ℝ} (hb : InPhysBlock2 T dx shift c nd.1) :
    (∑ p ∈ arrSet2 T g, share2n dx shift w W (globalIx2 T g c p) nd) =
      nd.2 * ∑ G ∈ window2 dx shift w nd.1, cellWeight2 dx shift W nd.1 G := by
  rw [mul_sum]
  unfold share2n
  rw [← sum_filter]
  apply Finset.sum_bij' (fun (p : C2) _ => globalIx2 T g c p) (fun (G : C2) _ => localIx2 T g c G)
  · intro p hp; rw [mem_filter] at hp; exact hp.2
  · intro G hG
    rw [mem_filter, mem_arrSet2, global_local2]
    exact ⟨window_inArr2 hw hdx hb hG, hG⟩
  · intro p _; exact local_global2 T g c p
  · intro G _; exact global_local2 T g c G
  · intro p _; rfl

theorem share_total3 {T : Cart3} {g w : ℕ} (hw : w ≤ g) {dx shift : ℝ} (hdx : 0 < dx) (W : ℝ → ℝ → ℝ → ℝ) {c : C3}
    {nd : (ℝ × ℝ × ℝ) × ℝ} (hb : InPhysBlock3 T dx shift c nd.1) :
    (∑ p ∈ arrSet3 T g, share3n dx shift w W (globalIx3 T g c p) nd) =
      nd.2 * ∑ G ∈ window3 dx shift w nd.1, cellWeight3 dx shift W nd.1 G := by
  rw [mul_sum]
  unfold share3n
  rw [← sum_filter]
  apply Finset.sum_bij' (fun (p : C3) _ => globalIx3 T g c p) (fun (G : C3) _ => localIx3 T g c G)
  · intro p hp; rw [mem_filter] at hp; exact hp.2
  · intro G hG
    rw [mem_filter, mem_arrSet3, global_local3]
    exact ⟨window_inArr3 hw hdx hb hG, hG⟩
  · intro p _; exact local_global3 T g c p
  · intro G _; exact global_local3 T g c G
  · intro p _; rfl

/-- Spreading with weights that sum to one keeps the total, on periodic and non-periodic topologies. -/
theorem spread_total2 {gy gx py px : ℕ} {per : Bool} {T : Cart2} (hT : mkCart2 gy gx py px per = .ok T)
    {g w : ℕ} (hw : w ≤ g) (hgy : g ≤ T.ny) (hgx : g ≤ T.nx) (hny : 0 < T.ny) (hnx : 0 < T.nx)
    {dx shift : ℝ} (hdx : 0 < dx) {W : ℝ → ℝ → ℝ}
    (h1 : ∀ x, (∑ G ∈ window2 dx shift w x, cellWeight2 dx shift W x G * dx ^ 2) = 1)
    {nodes : List ((ℝ × ℝ) × ℝ)} {addr : List C2} (h : Owned2 T dx shift nodes addr)
    (hwin : per = true ∨ ∀ nd ∈ nodes, ∀ G ∈ window2 dx shift w nd.1, InDomain2 T G)
    (l : C2 → GS2 ℝ) (hl : Clean2 T l) (hz : ∀ c p, Valid2 T c → ¬ Inner2 T g p → (l c).A p = 0) :
    dx ^ 2 * innerTotal2 T g (fun c => (spreadSum2 T g w dx shift W (nodesOf addr nodes) l c).A) =
      dx ^ 2 * innerTotal2 T g (fun c => (l c).A) + (nodes.map fun nd => nd.2).sum := by
  obtain ⟨hlen, haddr, hblk⟩ := h.len hdx hny hnx
  have hcl : Clean2 T fun c => { l c with A := spread2 T g w dx shift W c (l c).A (nodesOf addr nodes c) } := hl
  unfold spreadSum2
  rw [ghostSum2_conserves hT hgy hgx hcl]
  · simp only [spread2_eq, sum_add_distrib]
    rw [mul_add]
    congr 1
    · congr 1
      unfold innerTotal2
      apply sum_congr rfl; intro c hc
      rw [mem_rankSet2] at hc
      symm
      apply sum_subset
      · intro p hp
        rw [mem_innerSet2] at hp; rw [mem_arrSet2]
        unfold Inner2 at hp; unfold InArr2; omega
      · intro p _ hp
        rw [mem_innerSet2] at hp
        exact hz c p hc hp
    · have hswap : ∀ c ∈ rankSet2 T, (∑ p ∈ arrSet2 T g, ((nodesOf addr nodes c).map (share2n dx shift w W (globalIx2 T g c p))).sum) =
          ((nodesOf addr nodes c).map fun nd => nd.2 * ∑ G ∈ window2 dx shift w nd.1, cellWeight2 dx shift W nd.1 G).sum := by
        intro c _
        rw [list_sum_swap (arrSet2 T g) (nodesOf addr nodes c) (fun nd p => share2n dx shift w W (globalIx2 T g c p) nd)]
        congr 1
        apply List.map_congr_left
        intro nd hnd
        obtain ⟨i, hi1, hi2⟩ := mem_nodesOf hnd
        exact share_total2 hw hdx W (hblk i nd c hi2 hi1).2
      rw [sum_congr rfl hswap, nodes_sum (rankSet2 T) _ addr nodes hlen (fun a ha => mem_rankSet2.2 (haddr a ha)),
        ← List.sum_map_mul_left]
      congr 1
      apply List.map_congr_left
      intro nd _
      have := h1 nd.1
      rw [← sum_mul] at this
      linear_combination nd.2 * this
  · rcases hwin with hp | hin
    · exact Or.inl hp
    · refine Or.inr fun c p hc _ hout => ?_
      simp only
      rw [spread2_eq, hz c p hc (fun hi => hout (inner_inDomain2 hT hc hi)), zero_add]
      apply List.sum_eq_zero
      intro x hx
      obtain ⟨nd, hnd, rfl⟩ := List.mem_map.1 hx
      obtain ⟨i, -, hi2⟩ := mem_nodesOf hnd
      unfold share2n
      rw [if_neg]
      intro hmem
      exact hout (hin nd (List.mem_iff_getElem?.2 ⟨i, hi2⟩) _ hmem)

/-- Spreading with weights that sum to one keeps the total, on periodic and non-periodic topologies. -/
theorem spread_total3 {gz gy gx pz py px : ℕ} {per : Bool} {T : Cart3} (hT : mkCart3 gz gy gx pz py px per = .ok T)
    {g w : ℕ} (hw : w ≤ g) (hgz : g ≤ T.nz) (hgy : g ≤ T.ny) (hgx : g ≤ T.nx) (hnz : 0 < T.nz) (hny : 0 < T.ny) (hnx : 0 < T.nx)
    {dx shift : ℝ} (hdx : 0 < dx) {W : ℝ → ℝ → ℝ → ℝ}
    (h1 : ∀ x, (∑ G ∈ window3 dx shift w x, cellWeight3 dx shift W x G * dx ^ 3) = 1)
    {nodes : List ((ℝ × ℝ × ℝ) × ℝ)} {addr : List C3} (h : Owned3 T dx shift nodes addr)
    (hwin : per = true ∨ ∀ nd ∈ nodes, ∀ G ∈ window3 dx shift w nd.1, InDomain3 T G)
    (l : C3 → GS3 ℝ) (hl : Clean3 T l) (hz : ∀ c p, Valid3 T c → ¬ Inner3 T g p → (l c).A p = 0) :
    dx ^ 3 * innerTotal3 T g (fun c => (spreadSum3 T g w dx shift W (nodesOf addr nodes) l c).A) =
      dx ^ 3 * innerTotal3 T g (fun c => (l c).A) + (nodes.map fun nd => nd.2).sum := by
  obtain ⟨hlen, haddr, hblk⟩ := h.len hdx hnz hny hnx
  have hcl : Clean3 T fun c => { l c with A := spread3 T g w dx shift W c (l c).A (nodesOf addr nodes c) } := hl
  unfold spreadSum3
  rw [ghostSum3_conserves hT hgz hgy hgx hcl]
  · simp only [spread3_eq, sum_add_distrib]
    rw [mul_add]
    congr 1
    · congr 1
      unfold innerTotal3
      apply sum_congr rfl; intro c hc
      rw [mem_rankSet3] at hc
      symm
      apply sum_subset
      · intro p hp
        rw [mem_innerSet3] at hp; rw [mem_arrSet3]
        unfold Inner3 at hp; unfold InArr3; omega
      · intro p _ hp
        rw [mem_innerSet3] at hp
        exact hz c p hc hp
    · have hswap : ∀ c ∈ rankSet3 T, (∑ p ∈ arrSet3 T g, ((nodesOf addr nodes c).map (share3n dx shift w W (globalIx3 T g c p))).sum) =
          ((nodesOf addr nodes c).map fun nd => nd.2 * ∑ G ∈ window3 dx shift w nd.1, cellWeight3 dx shift W nd.1 G).sum := by
        intro c _
        rw [list_sum_swap (arrSet3 T g) (nodesOf addr nodes c) (fun nd p => share3n dx shift w W (globalIx3 T g c p) nd)]
        congr 1
        apply List.map_congr_left
        intro nd hnd
        obtain ⟨i, hi1, hi2⟩ := mem_nodesOf hnd
        exact share_total3 hw hdx W (hblk i nd c hi2 hi1).2
      rw [sum_congr rfl hswap, nodes_sum (rankSet3 T) _ addr nodes hlen (fun a ha => mem_rankSet3.2 (haddr a ha)),
        ← List.sum_map_mul_left]
      congr 1
      apply List.map_congr_left
      intro nd _
      have := h1 nd.1
      rw [← sum_mul] at this
      linear_combination nd.2 * this
  · rcases hwin with hp | hin
    · exact Or.inl hp
    · refine Or.inr fun c p hc _ hout => ?_
      simp only
      rw [spread3_eq, hz c p hc (fun hi => hout (inner_inDomain3 hT hc hi)), zero_add]
      apply List.sum_eq_zero
      intro x hx
      obtain ⟨nd, hnd, rfl⟩ := List.mem_map.1 hx
      obtain ⟨i, -, hi2⟩ := mem_nodesOf hnd
      unfold share3n
      rw [if_neg]
      intro hmem
      exact hout (hin nd (List.mem_iff_getElem?.2 ⟨i, hi2⟩) _ hmem)

/-- **C27** Cosine kernel, 2D: spreading conserves the total of the node values (times the cell volume), on periodic topologies for all nodes of
the domain and on non-periodic ones for nodes whose window lies in the domain. -/
theorem cosine_conserves2 {gy gx py px : ℕ} {per : Bool} {T : Cart2} (hT : mkCart2 gy gx py px per = .ok T)
    {g : ℕ} (hw : 2 ≤ g) (hgy : g ≤ T.ny) (hgx : g ≤ T.nx) {dx shift : ℝ} (hdx : 0 < dx)
    {nodes : List ((ℝ × ℝ) × ℝ)} {addr : List C2} (h : Owned2 T dx shift nodes addr)
    (hwin : per = true ∨ ∀ nd ∈ nodes, ∀ G ∈ window2 dx shift 2 nd.1, InDomain2 T G)
    (l : C2 → GS2 ℝ) (hl : Clean2 T l) (hz : ∀ c p, Valid2 T c → ¬ Inner2 T g p → (l c).A p = 0) :
    dx ^ 2 * innerTotal2 T g (fun c => (spreadSum2 T g 2 dx shift (cosW2 dx) (nodesOf addr nodes) l c).A) =
      dx ^ 2 * innerTotal2 T g (fun c => (l c).A) + (nodes.map fun nd => nd.2).sum :=
  spread_total2 hT hw hgy hgx (by omega) (by omega) hdx (cosine_sum2 hdx shift) h hwin l hl hz

/-- **C27** Cosine kernel, 3D: spreading conserves the total of the node values (times the cell volume), on periodic topologies for all nodes of
the domain and on non-periodic ones for nodes whose window lies in the domain. -/
theorem cosine_conserves3 {gz gy gx pz py px : ℕ} {per : Bool} {T : Cart3} (hT : mkCart3 gz gy gx pz py px per = .ok T)
    {g : ℕ} (hw : 2 ≤ g) (hgz : g ≤ T.nz) (hgy : g ≤ T.ny) (hgx : g ≤ T.nx) {dx shift : ℝ} (hdx : 0 < dx)
    {nodes : List ((ℝ × ℝ × ℝ) × ℝ)} {addr : List C3} (h : Owned3 T dx shift nodes addr)
    (hwin : per = true ∨ ∀ nd ∈ nodes, ∀ G ∈ window3 dx shift 2 nd.1, InDomain3 T G)
    (l : C3 → GS3 ℝ) (hl : Clean3 T l) (hz : ∀ c p, Valid3 T c → ¬ Inner3 T g p → (l c).A p = 0) :
    dx ^ 3 * innerTotal3 T g (fun c => (spreadSum3 T g 2 dx shift (cosW3 dx) (nodesOf addr nodes) l c).A) =
      dx ^ 3 * innerTotal3 T g (fun c => (l c).A) + (nodes.map fun nd => nd.2).sum :=
  spread_total3 hT hw hgz hgy hgx (by omega) (by omega) (by omega) hdx (cosine_sum3 hdx shift) h hwin l hl hz

/-- **C28** Peskin kernel, 2D: spreading conserves the total of the node values (times the cell volume), on periodic topologies for all nodes of
the domain and on non-periodic ones for nodes whose window lies in the domain. -/
theorem peskin_conserves2 {gy gx py px : ℕ} {per : Bool} {T : Cart2} (hT : mkCart2 gy gx py px per = .ok T)
    {g : ℕ} (hw : 2 ≤ g) (hgy : g ≤ T.ny) (hgx : g ≤ T.nx) {dx shift : ℝ} (hdx : 0 < dx)
    {nodes : List ((ℝ × ℝ) × ℝ)} {addr : List C2} (h : Owned2 T dx shift nodes addr)
    (hwin : per = true ∨ ∀ nd ∈ nodes, ∀ G ∈ window2 dx shift 2 nd.1, InDomain2 T G)
    (l : C2 → GS2 ℝ) (hl : Clean2 T l) (hz : ∀ c p, Valid2 T c → ¬ Inner2 T g p → (l c).A p = 0) :
    dx ^ 2 * innerTotal2 T g (fun c => (spreadSum2 T g 2 dx shift (peskinW2 dx) (nodesOf addr nodes) l c).A) =
      dx ^ 2 * innerTotal2 T g (fun c => (l c).A) + (nodes.map fun nd => nd.2).sum :=
  spread_total2 hT hw hgy hgx (by omega) (by omega) hdx (peskin_sum2 hdx shift) h hwin l hl hz

/-- **C28** Peskin kernel, 3D: spreading conserves the total of the node values (times the cell volume), on periodic topologies for all nodes of
the domain and on non-periodic ones for nodes whose window lies in the domain. -/
theorem peskin_conserves3 {gz gy gx pz py px : ℕ} {per : Bool} {T : Cart3} (hT : mkCart3 gz gy gx pz py px per = .ok T)
    {g : ℕ} (hw : 2 ≤ g) (hgz : g ≤ T.nz) (hgy : g ≤ T.ny) (hgx : g ≤ T.nx) {dx shift : ℝ} (hdx : 0 < dx)
    {nodes : List ((ℝ × ℝ × ℝ) × ℝ)} {addr : List C3} (h : Owned3 T dx shift nodes addr)
    (hwin : per = true ∨ ∀ nd ∈ nodes, ∀ G ∈ window3 dx shift 2 nd.1, InDomain3 T G)
    (l : C3 → GS3 ℝ) (hl : Clean3 T l) (hz : ∀ c p, Valid3 T c → ¬ Inner3 T g p → (l c).A p = 0) :
    dx ^ 3 * innerTotal3 T g (fun c => (spreadSum3 T g 2 dx shift (peskinW3 dx) (nodesOf addr nodes) l c).A) =
      dx ^ 3 * innerTotal3 T g (fun c => (l c).A) + (nodes.map fun nd => nd.2).sum :=
  spread_total3 hT hw hgz hgy hgx (by omega) (by omega) (by omega) hdx (peskin_sum3 hdx shift) h hwin l hl hz

/-! ## C59: the Peskin kernel interpolates linear fields exactly -/

/-- **C59** Peskin kernel, 2D: a field that is affine in the cell coordinates is interpolated exactly at every node. -/
theorem peskin_linear2 {T : Cart2} {g : ℕ} {dx : ℝ} (hdx : 0 < dx) {shift : ℝ} {c : C2} {A : C2 → ℝ} {x : ℝ × ℝ} {k kx ky : ℝ}
    (hA : ∀ G ∈ window2 dx shift 2 x,
      A (localIx2 T g c G) = k + kx * ((G.2 : ℝ) * dx + shift) + ky * ((G.1 : ℝ) * dx + shift)) :
    eulToLag2 T g 2 dx shift (peskinW2 dx) c A x = k + kx * x.1 + ky * x.2 := by
  rw [eulToLag2_eq]
  set φ : ℝ → ℤ → ℝ := fun y G => 0.125 * peskinFactor (|(G : ℝ) * dx + shift - y| / dx) with hφ
  have e : ∀ G ∈ window2 dx shift 2 x, A (localIx2 T g c G) * cellWeight2 dx shift (peskinW2 dx) x G * dx ^ 2 =
      k * (φ x.2 G.1 * φ x.1 G.2) + kx * (φ x.2 G.1 * (((G.2 : ℝ) * dx + shift) * φ x.1 G.2)) +
        ky * ((((G.1 : ℝ) * dx + shift) * φ x.2 G.1) * φ x.1 G.2) := by
    intro G hG
    rw [hA G hG, mul_assoc]
    unfold cellWeight2
    rw [peskinW2_sep hdx, hφ]
    ring
  have m0 : ∀ y, ∑ G ∈ winCells dx shift 2 y, φ y G = 1 := fun y => peskin_axis hdx shift y
  have m1 : ∀ y, ∑ G ∈ winCells dx shift 2 y, ((G : ℝ) * dx + shift) * φ y G = y := fun y => peskin_axis_moment hdx shift y
  rw [sum_congr rfl e]
  unfold window2
  simp only [sum_add_distrib, sum_product, ← mul_sum, m0, m1, mul_one]
  simp only [← sum_mul, m0, m1, one_mul, mul_one]

/-- **C59** 3D. -/
theorem peskin_linear3 {T : Cart3} {g : ℕ} {dx : ℝ} (hdx : 0 < dx) {shift : ℝ} {c : C3} {A : C3 → ℝ} {x : ℝ × ℝ × ℝ}
    {k kx ky kz : ℝ}
    (hA : ∀ G ∈ window3 dx shift 2 x, A (localIx3 T g c G) =
      k + kx * ((G.2.2 : ℝ) * dx + shift) + ky * ((G.2.1 : ℝ) * dx + shift) + kz * ((G.1 : ℝ) * dx + shift)) :
    eulToLag3 T g 2 dx shift (peskinW3 dx) c A x = k + kx * x.1 + ky * x.2.1 + kz * x.2.2 := by
  rw [eulToLag3_eq]
  set φ : ℝ → ℤ → ℝ := fun y G => 0.125 * peskinFactor (|(G : ℝ) * dx + shift - y| / dx) with hφ
  have e : ∀ G ∈ window3 dx shift 2 x, A (localIx3 T g c G) * cellWeight3 dx shift (peskinW3 dx) x G * dx ^ 3 =
      k * (φ x.2.2 G.1 * (φ x.2.1 G.2.1 * φ x.1 G.2.2)) +
        kx * (φ x.2.2 G.1 * (φ x.2.1 G.2.1 * (((G.2.2 : ℝ) * dx + shift) * φ x.1 G.2.2))) +
        ky * (φ x.2.2 G.1 * ((((G.2.1 : ℝ) * dx + shift) * φ x.2.1 G.2.1) * φ x.1 G.2.2)) +
        kz * ((((G.1 : ℝ) * dx + shift) * φ x.2.2 G.1) * (φ x.2.1 G.2.1 * φ x.1 G.2.2)) := by
    intro G hG
    rw [hA G hG, mul_assoc]
    unfold cellWeight3
    rw [peskinW3_sep hdx, hφ]
    ring
  have m0 : ∀ y, ∑ G ∈ winCells dx shift 2 y, φ y G = 1 := fun y => peskin_axis hdx shift y
  have m1 : ∀ y, ∑ G ∈ winCells dx shift 2 y, ((G : ℝ) * dx + shift) * φ y G = y := fun y => peskin_axis_moment hdx shift y
  rw [sum_congr rfl e]
  unfold window3
  simp only [sum_add_distrib, sum_product, ← mul_sum, m0, m1, mul_one]
  simp only [← sum_mul, m0, m1, one_mul, mul_one]

/-! ## C60: weights are not negative -/

theorem cosFactor_nonneg (s : ℝ) : 0 ≤ cosFactor s := by
  unfold cosFactor; linarith [Real.neg_one_le_cos (0.5 * Real.pi * s)]

theorem peskinFactor_nonneg {s : ℝ} (hs : 0 ≤ s) : 0 ≤ peskinFactor s := by
  unfold peskinFactor indicator
  by_cases h1 : s < 1
  · have h2 : ¬ s ≥ 1 := by linarith
    rw [if_pos h1, if_neg h2]
    have := Real.sqrt_nonneg |1 + 4 * s - 4 * s ^ 2|
    linarith
  · rw [if_neg h1, if_pos (by linarith : s ≥ 1)]
    by_cases h3 : s < 2
    · rw [if_pos h3]
      have hp : 0 ≤ (-7) + 12 * s - 4 * s ^ 2 := by nlinarith
      have : Real.sqrt |(-7) + 12 * s - 4 * s ^ 2| ≤ 5 - 2 * s := by
        rw [abs_of_nonneg hp]
        apply Real.sqrt_le_iff.2
        constructor
        · linarith
        · nlinarith [sq_nonneg (s - 2)]
      linarith
    · rw [if_neg h3]; simp

/-- **C60** With either kernel the interpolated value lies between the smallest and the largest value in the cells around the node. -/
theorem interp_between2 {T : Cart2} {g : ℕ} {dx : ℝ} (hdx : 0 < dx) {shift : ℝ} {c : C2} {A : C2 → ℝ} {x : ℝ × ℝ} {lo hi : ℝ}
    (hA : ∀ G ∈ window2 dx shift 2 x, lo ≤ A (localIx2 T g c G) ∧ A (localIx2 T g c G) ≤ hi)
    {W : ℝ → ℝ → ℝ} (hW : W = cosW2 dx ∨ W = peskinW2 dx) :
    lo ≤ eulToLag2 T g 2 dx shift W c A x ∧ eulToLag2 T g 2 dx shift W c A x ≤ hi := by
  have hs : (∑ G ∈ window2 dx shift 2 x, cellWeight2 dx shift W x G * dx ^ 2) = 1 := by
    rcases hW with rfl | rfl
    · exact cosine_sum2 hdx shift x
    · exact peskin_sum2 hdx shift x
  have hn : ∀ G, 0 ≤ cellWeight2 dx shift W x G * dx ^ 2 := by
    intro G
    unfold cellWeight2
    rcases hW with rfl | rfl
    · rw [cosW2_sep hdx]
      have := cosFactor_nonneg (((G.2 : ℝ) * dx + shift - x.1) / dx)
      have := cosFactor_nonneg (((G.1 : ℝ) * dx + shift - x.2) / dx)
      positivity
    · rw [peskinW2_sep hdx]
      have := peskinFactor_nonneg (s := |(G.2 : ℝ) * dx + shift - x.1| / dx) (by positivity)
      have := peskinFactor_nonneg (s := |(G.1 : ℝ) * dx + shift - x.2| / dx) (by positivity)
      positivity
  rw [eulToLag2_eq]
  simp only [mul_assoc]
  constructor
  · calc lo = ∑ G ∈ window2 dx shift 2 x, lo * (cellWeight2 dx shift W x G * dx ^ 2) := by rw [← mul_sum, hs, mul_one]
      _ ≤ _ := sum_le_sum fun G hG => mul_le_mul_of_nonneg_right (hA G hG).1 (hn G)
  · calc _ ≤ ∑ G ∈ window2 dx shift 2 x, hi * (cellWeight2 dx shift W x G * dx ^ 2) :=
          sum_le_sum fun G hG => mul_le_mul_of_nonneg_right (hA G hG).2 (hn G)
      _ = hi := by rw [← mul_sum, hs, mul_one]

/-- **C60** 3D. -/
theorem interp_between3 {T : Cart3} {g : ℕ} {dx : ℝ} (hdx : 0 < dx) {shift : ℝ} {c : C3} {A : C3 → ℝ} {x : ℝ × ℝ × ℝ} {lo hi : ℝ}
    (hA : ∀ G ∈ window3 dx shift 2 x, lo ≤ A (localIx3 T g c G) ∧ A (localIx3 T g c G) ≤ hi)
    {W : ℝ → ℝ → ℝ → ℝ} (hW : W = cosW3 dx ∨ W = peskinW3 dx) :
    lo ≤ eulToLag3 T g 2 dx shift W c A x ∧ eulToLag3 T g 2 dx shift W c A x ≤ hi := by
  have hs : (∑ G ∈ window3 dx shift 2 x, cellWeight3 dx shift W x G * dx ^ 3) = 1 := by
    rcases hW with rfl | rfl
    · exact cosine_sum3 hdx shift x
    · exact peskin_sum3 hdx shift x
  have hn : ∀ G, 0 ≤ cellWeight3 dx shift W x G * dx ^ 3 := by
    intro G
    unfold cellWeight3
    rcases hW with rfl | rfl
    · rw [cosW3_sep hdx]
      have := cosFactor_nonneg (((G.2.2 : ℝ) * dx + shift - x.1) / dx)
      have := cosFactor_nonneg (((G.2.1 : ℝ) * dx + shift - x.2.1) / dx)
      have := cosFactor_nonneg (((G.1 : ℝ) * dx + shift - x.2.2) / dx)
      positivity
    · rw [peskinW3_sep hdx]
      have := peskinFactor_nonneg (s := |(G.2.2 : ℝ) * dx + shift - x.1| / dx) (by positivity)
      have := peskinFactor_nonneg (s := |(G.2.1 : ℝ) * dx + shift - x.2.1| / dx) (by positivity)
      have := peskinFactor_nonneg (s := |(G.1 : ℝ) * dx + shift - x.2.2| / dx) (by positivity)
      positivity
  rw [eulToLag3_eq]
  simp only [mul_assoc]
  constructor
  · calc lo = ∑ G ∈ window3 dx shift 2 x, lo * (cellWeight3 dx shift W x G * dx ^ 3) := by rw [← mul_sum, hs, mul_one]
      _ ≤ _ := sum_le_sum fun G hG => mul_le_mul_of_nonneg_right (hA G hG).1 (hn G)
  · calc _ ≤ ∑ G ∈ window3 dx shift 2 x, hi * (cellWeight3 dx shift W x G * dx ^ 3) :=
          sum_le_sum fun G hG => mul_le_mul_of_nonneg_right (hA G hG).2 (hn G)
      _ = hi := by rw [← mul_sum, hs, mul_one]

/-! ## Concrete cases -/

/-- The weights are not degenerate: at a node on a cell centre the Peskin weights are 1/4, 1/2, 1/4 and 0. -/
example : 0.125 * peskinFactor |((-1 : ℤ) : ℝ) - 0| = 1/4 ∧ 0.125 * peskinFactor |((0 : ℤ) : ℝ) - 0| = 1/2 ∧
    0.125 * peskinFactor |((1 : ℤ) : ℝ) - 0| = 1/4 ∧ 0.125 * peskinFactor |((2 : ℤ) : ℝ) - 0| = 0 := by
  obtain ⟨a, b, c, d⟩ := peskin_values (le_refl (0 : ℝ)) one_pos
  rw [a, b, c, d]
  norm_num

/-- Hypotheses of the conservation theorems: a periodic topology and a node whose window leaves the domain. -/
example : ∃ T : Cart2, mkCart2 4 4 2 1 true = .ok T ∧ (2 ≤ T.ny ∧ 2 ≤ T.nx) ∧
    Owned2 T (1 : ℝ) 0 [((0, 7/2), 3)] [(1, 0)] ∧ (5, 0) ∈ window2 (1 : ℝ) 0 2 (0, 7/2) ∧
    Clean2 T (fun _ => gsInit2 fun _ => (0 : ℝ)) := by
  have f2 : ⌊(7/2 : ℝ)⌋ = 3 := by norm_num [Int.floor_eq_iff]
  refine ⟨⟨4, 4, 2, 1, 2, 4, true⟩, rfl, by decide, ⟨?_, ?_⟩, ?_, fun _ _ => ⟨rfl, rfl⟩⟩
  · have h1 : truncZ (((0:ℝ) - 0) / (1 * (4:ℕ))) = 0 := by norm_num [truncZ]
    have h2 : truncZ (((7:ℝ)/2 - 0) / (1 * (2:ℕ))) = 1 := by norm_num [truncZ, Int.floor_eq_iff]
    simp only [rankAddress2, subblock2, List.map_cons, List.map_nil, h1, h2]
    rfl
  · intro nd hnd
    simp only [List.mem_cons, List.not_mem_nil, or_false] at hnd
    subst hnd; norm_num [InPhysDomain]
  · simp [window2, winCells, cellOf, f2]

end Sopht
