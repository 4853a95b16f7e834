import Verif.Penalise
import Verif.Stencil2DProps
import Verif.Stencil3DProps
import Mathlib.Tactic.FieldSimp

/-! Specification of the boundary penalisation on the global grid, and helpers. -/

namespace Sopht

set_option linter.unusedSimpArgs false

/-! ## Specification -/

/-- The sine ramp: 0 at the outermost cell, 1 at `w` cells from it. -/
noncomputable def ramp (w : ℕ) (j : ℤ) : ℝ := Real.sin (Real.pi / 2 * ((j : ℝ) / w))

/-- Penalising one line of `N` cells (indices `0 … N-1`, continued to ghost cells on both sides): first the `w` cells at the front (and what
lies before them) become ramp times the last cell of the zone, then the same at the back. -/
noncomputable def serialPen1 (per : Bool) (N w : ℕ) (U : ℤ → ℝ) : ℤ → ℝ :=
  if per = true ∨ w = 0 then U else
    let U1 : ℤ → ℝ := fun j => if j < w then U (w - 1) * ramp w j else U j
    fun j => if N - w ≤ j then U1 (N - w) * ramp w (N - 1 - j) else U1 j

/-- Penalising the global 2D field: along x, then along y. -/
noncomputable def serialPen2 (per : Bool) (gy gx w : ℕ) (F : C2 → ℝ) : C2 → ℝ :=
  let Fx : C2 → ℝ := fun G => serialPen1 per gx w (fun j => F (G.1, j)) G.2
  fun G => serialPen1 per gy w (fun j => Fx (j, G.2)) G.1

/-- Penalising the global 3D field: along x, then along y, then along z. -/
noncomputable def serialPen3 (per : Bool) (gz gy gx w : ℕ) (F : C3 → ℝ) : C3 → ℝ :=
  let Fx : C3 → ℝ := fun G => serialPen1 per gx w (fun j => F (G.1, G.2.1, j)) G.2.2
  let Fy : C3 → ℝ := fun G => serialPen1 per gy w (fun j => Fx (G.1, j, G.2.2)) G.2.1
  fun G => serialPen1 per gz w (fun j => Fy (j, G.2.1, G.2.2)) G.1

/-- Local index `i` is an inner index or lies beyond the physical boundary of the domain (along one axis with `P` ranks). -/
def OwnedAxis (per : Bool) (P n g : ℕ) (c i : ℤ) : Prop :=
  0 ≤ i ∧ i < n + 2 * g ∧ (g ≤ i ∨ (per = false ∧ c = 0)) ∧ (i < g + n ∨ (per = false ∧ c = P - 1))

/-- `p` is an inner cell of rank `c` or a cell beyond the physical boundary. -/
def OwnedCell2 (T : Cart2) (g : ℕ) (c p : C2) : Prop := OwnedAxis T.per T.py T.ny g c.1 p.1 ∧ OwnedAxis T.per T.px T.nx g c.2 p.2

/-- `p` is an inner cell of rank `c` or a cell beyond the physical boundary. -/
def OwnedCell3 (T : Cart3) (g : ℕ) (c p : C3) : Prop :=
  OwnedAxis T.per T.pz T.nz g c.1 p.1 ∧ OwnedAxis T.per T.py T.ny g c.2.1 p.2.1 ∧ OwnedAxis T.per T.px T.nx g c.2.2 p.2.2

/-- The coordinate arrays hold the cell centres of the global grid (property C55). -/
def GridX2 (T : Cart2) (g : ℕ) (dx x0 y0 : ℝ) (c : C2) (xg yg : C2 → ℝ) : Prop :=
  ∀ p, InArr2 T g p → xg p = x0 + dx * (globalIx2 T g c p).2 ∧ yg p = y0 + dx * (globalIx2 T g c p).1

/-- The coordinate arrays hold the cell centres of the global grid (property C55). -/
def GridX3 (T : Cart3) (g : ℕ) (dx x0 y0 z0 : ℝ) (c : C3) (xg yg zg : C3 → ℝ) : Prop :=
  ∀ p, InArr3 T g p → xg p = x0 + dx * (globalIx3 T g c p).2.2 ∧ yg p = y0 + dx * (globalIx3 T g c p).2.1 ∧
    zg p = z0 + dx * (globalIx3 T g c p).1

/-! ## One axis -/

theorem not_penRaises_front {n g w : ℕ} (hw : 1 ≤ w) : penRaises (penFrontSrc n g w) ↔ n + g < w := by
  unfold penRaises penFrontSrc sliceR
  rw [pyStart_min (by omega), pyStart_min (by omega)]
  simp only; omega

theorem not_penRaises_back {n g w : ℕ} (hg : 1 ≤ g) (hw : 1 ≤ w) : penRaises (penBackSrc n g w) ↔ n + g < w := by
  unfold penRaises penBackSrc sliceR
  rw [pyStart_max (by omega), pyStart_max (by omega)]
  simp only; omega

theorem penFront_apply {n g w : ℕ} (hw : 1 ≤ w) (hwn : w ≤ n + g) (pre : ℝ) (xs : ℤ → ℝ) (start : ℝ) (u : ℤ → ℝ) {i : ℤ} (hi : 0 ≤ i) :
    penFront n g w pre xs start u i = if i < g + w then u (g + w - 1) * Real.sin (pre * (xs i - start)) else u i := by
  unfold penFront penSide penFrontR penFrontSrc sliceR
  rw [pyStart_min (by omega), pyStart_min (by omega), pyStart_min (by omega)]
  simp only
  rw [min_eq_left (by omega : (g : ℤ) + w - 1 ≤ n + 2 * g)]
  refine if_congr ?_ rfl rfl
  omega

theorem penBack_apply {n g w : ℕ} (hw : 1 ≤ w) (hwn : w ≤ n + g) (pre : ℝ) (xs : ℤ → ℝ) (stop : ℝ) (u : ℤ → ℝ) {i : ℤ}
    (hi : i < n + 2 * g) :
    penBack n g w pre xs stop u i = if n + g - w ≤ i then u (n + g - w) * Real.sin (pre * (stop - xs i)) else u i := by
  unfold penBack penSide penBackR penBackSrc sliceR
  rw [pyStart_max (by omega)]
  simp only
  rw [max_eq_right (by omega : (0 : ℤ) ≤ n + 2 * g + -(g + w)), (by ring : (n : ℤ) + 2 * g + -(g + w) = n + g - w)]
  refine if_congr ?_ rfl rfl
  omega

/-- The two sides of one axis as the kernel applies them. -/
noncomputable def penAxis (prevNone nextNone : Prop) [Decidable prevNone] [Decidable nextNone] (n g w : ℕ) (pre : ℝ) (xs : ℤ → ℝ)
    (start stop : ℝ) (u : ℤ → ℝ) : ℤ → ℝ :=
  let u1 := if prevNone then penFront n g w pre xs start u else u
  if nextNone then penBack n g w pre xs stop u1 else u1

theorem sine_arg {w : ℕ} (hw : 1 ≤ w) {dx : ℝ} (hdx : dx ≠ 0) (j : ℤ) : sinePrefactor w dx * (dx * j) = Real.pi / 2 * ((j : ℝ) / w) := by
  unfold sinePrefactor
  have : (w : ℝ) ≠ 0 := by have : (0 : ℝ) < w := by exact_mod_cast hw
                           exact this.ne'
  field_simp

theorem penAxis_global {P n g w : ℕ} {per : Bool} (hg : 1 ≤ g) (hw : 1 ≤ w) (hwn : w ≤ n) {c : ℤ} (c0 : 0 ≤ c) (c1 : c < P)
    {prevNone nextNone : Prop} [Decidable prevNone] [Decidable nextNone]
    (hp : prevNone ↔ per = false ∧ c = 0) (hn : nextNone ↔ per = false ∧ c = P - 1)
    {dx x0 : ℝ} (hdx : dx ≠ 0) {xs : ℤ → ℝ} {start stop : ℝ}
    (hxs : ∀ i : ℤ, 0 ≤ i → i < n + 2 * g → xs i = x0 + dx * ((c * n + i - g : ℤ) : ℝ))
    (hstart : start = x0 + dx * ((c * n : ℤ) : ℝ)) (hstop : stop = x0 + dx * ((c * n + n - 1 : ℤ) : ℝ))
    {u U : ℤ → ℝ} (hu : ∀ i, (g : ℤ) ≤ i → i < g + n → u i = U (c * n + i - g)) {i : ℤ} (hi : OwnedAxis per P n g c i) :
    penAxis prevNone nextNone n g w (sinePrefactor w dx) xs start stop u i = serialPen1 per (P * n) w U (c * n + i - g) := by
  obtain ⟨i0, i1, i2, i3⟩ := hi
  cases per with
  | true =>
    unfold penAxis serialPen1
    simp only [Bool.true_eq_false, false_and, iff_false, or_false] at hp hn i2 i3
    simp only [hp, hn, if_false, true_or, if_true]
    exact hu i i2 i3
  | false =>
    simp only [true_and] at hp hn i2 i3
    have hw0 : w ≠ 0 := by omega
    have sinF : ∀ k : ℤ, 0 ≤ k → k < n + 2 * g → Real.sin (sinePrefactor w dx * (xs k - start)) = ramp w (k - g) := by
      intro k k0 k1
      rw [hxs k k0 k1, hstart]
      unfold ramp
      rw [← sine_arg hw hdx]
      congr 2
      push_cast; ring
    have sinB : ∀ k : ℤ, 0 ≤ k → k < n + 2 * g → Real.sin (sinePrefactor w dx * (stop - xs k)) = ramp w (n + g - 1 - k) := by
      intro k k0 k1
      rw [hxs k k0 k1, hstop]
      unfold ramp
      rw [← sine_arg hw hdx]
      congr 2
      push_cast; ring
    -- linear facts about block start and domain size
    have b1 : c = 0 → c * n = 0 := by rintro rfl; ring
    have b2 : c = P - 1 → c * n + n = ((P * n : ℕ) : ℤ) := by rintro rfl; push_cast; ring
    have b3 : c ≠ 0 → (n : ℤ) ≤ c * n := by intro h; have : 1 ≤ c := by omega
                                            nlinarith
    have b4 : c ≠ P - 1 → c * n + 2 * n ≤ ((P * n : ℕ) : ℤ) := by
      intro h; have : c ≤ P - 2 := by omega
      push_cast; nlinarith
    unfold penAxis serialPen1
    simp only [hw0, Bool.false_eq_true, or_self, if_false, hp, hn]
    generalize hN : ((P * n : ℕ) : ℤ) = N at *
    generalize hb : c * (n : ℤ) = b at *
    by_cases hc0 : c = 0
    · have hb0 := b1 hc0
      by_cases hcP : c = P - 1
      · have hbN := b2 hcP
        rw [if_pos hc0, if_pos hcP, penBack_apply hw (by omega) _ _ _ _ i1]
        rw [penFront_apply hw (by omega) _ _ _ _ i0, penFront_apply hw (by omega) _ _ _ _ (by omega : (0 : ℤ) ≤ n + g - w)]
        rw [sinB i i0 i1, sinF i i0 i1, sinF _ (by omega) (by omega), hu (g + w - 1) (by omega) (by omega)]
        rw [show b + (g + w - 1) - g = (w : ℤ) - 1 by omega, show (n : ℤ) + g - 1 - i = N - 1 - (b + i - g) by omega,
          show (n : ℤ) + g - w - g = N - w by omega, show i - (g : ℤ) = b + i - g by omega]
        by_cases h1 : (n : ℤ) + g - w ≤ i
        · rw [if_pos h1, if_pos (by omega : N - (w : ℤ) ≤ b + i - g)]
          by_cases h2 : (n : ℤ) + g - w < g + w
          · rw [if_pos h2, if_pos (by omega)]
          · rw [if_neg h2, if_neg (by omega), hu _ (by omega) (by omega), show b + (n + g - w) - g = N - (w : ℤ) by omega]
        · rw [if_neg h1, if_neg (by omega : ¬ N - (w : ℤ) ≤ b + i - g)]
          by_cases h2 : i < g + w
          · rw [if_pos h2, if_pos (by omega)]
          · rw [if_neg h2, if_neg (by omega), hu _ (by omega) (by omega)]
      · have hbN := b4 hcP
        rw [if_neg hcP, if_pos hc0, if_neg (by omega)]
        rw [penFront_apply hw (by omega) _ _ _ _ i0, sinF i i0 i1, hu (g + w - 1) (by omega) (by omega)]
        rw [show b + (g + w - 1) - g = (w : ℤ) - 1 by omega, show i - (g : ℤ) = b + i - g by omega]
        by_cases h2 : i < g + w
        · rw [if_pos h2, if_pos (by omega)]
        · rw [if_neg h2, if_neg (by omega), hu _ (by omega) (by omega)]
    · have hb0 := b3 hc0
      by_cases hcP : c = P - 1
      · have hbN := b2 hcP
        rw [if_pos hcP, if_neg hc0, penBack_apply hw (by omega) _ _ _ _ i1, sinB i i0 i1, hu (n + g - w) (by omega) (by omega)]
        rw [show b + (n + g - w) - g = N - (w : ℤ) by omega, show (n : ℤ) + g - 1 - i = N - 1 - (b + i - g) by omega]
        by_cases h2 : (n : ℤ) + g - w ≤ i
        · rw [if_pos h2, if_pos (by omega), if_neg (by omega)]
        · rw [if_neg h2, if_neg (by omega), if_neg (by omega), hu _ (by omega) (by omega)]
      · have hbN := b4 hcP
        rw [if_neg hcP, if_neg hc0, if_neg (by omega), if_neg (by omega), hu _ (by omega) (by omega)]

/-! ## The kernels as successive axes -/

theorem ok_ite {α : Type} (a : Prop) [Decidable a] (x y : α) :
    (if a then (Except.ok x : Except PyErr α) else Except.ok y) = Except.ok (if a then x else y) := by split <;> rfl

theorem penalise2_ok {T : Cart2} {g w : ℕ} (hg : 1 ≤ g) (hw : 1 ≤ w) (hwy : w ≤ T.ny + g) (hwx : w ≤ T.nx + g) (dx : ℝ) (xg yg : C2 → ℝ) (c : C2)
    (fld : C2 → ℝ) :
    penalise2 T g w dx xg yg c fld = .ok (fun p => penAxis (prevY2 T c = none) (nextY2 T c = none) T.ny g w (sinePrefactor w dx)
      (fun i => yg (i, p.2)) (yg (g, g)) (yg (fromEnd (T.ny + 2 * g) (g + 1), g))
      (fun j => penAxis (prevX2 T c = none) (nextX2 T c = none) T.nx g w (sinePrefactor w dx)
        (fun i => xg (j, i)) (xg (g, g)) (xg (g, fromEnd (T.nx + 2 * g) (g + 1))) (fun i => fld (j, i)) p.2) p.1) := by
  unfold penalise2 penAxis
  rw [if_neg (by omega : ¬ w = 0)]
  have r1 : ¬ penRaises (penFrontSrc T.nx g w) := by rw [not_penRaises_front hw]; omega
  have r2 : ¬ penRaises (penBackSrc T.nx g w) := by rw [not_penRaises_back hg hw]; omega
  have r3 : ¬ penRaises (penFrontSrc T.ny g w) := by rw [not_penRaises_front hw]; omega
  have r4 : ¬ penRaises (penBackSrc T.ny g w) := by rw [not_penRaises_back hg hw]; omega
  simp only [r1, r2, r3, r4, if_false, ok_ite, bind, Except.bind]
  congr 1
  funext p
  by_cases h1 : prevX2 T c = none <;> by_cases h2 : nextX2 T c = none <;> by_cases h3 : prevY2 T c = none <;>
    by_cases h4 : nextY2 T c = none <;> simp only [h1, h2, h3, h4, if_true, if_false]

theorem penalise3_ok {T : Cart3} {g w : ℕ} (hg : 1 ≤ g) (hw : 1 ≤ w) (hwz : w ≤ T.nz + g) (hwy : w ≤ T.ny + g) (hwx : w ≤ T.nx + g)
    (dx : ℝ) (xg yg zg : C3 → ℝ) (c : C3) (fld : C3 → ℝ) :
    penalise3 T g w dx xg yg zg c fld = .ok (fun p => penAxis (prevZ3 T c = none) (nextZ3 T c = none) T.nz g w (sinePrefactor w dx)
      (fun i => zg (i, p.2.1, p.2.2)) (zg (g, g, g)) (zg (fromEnd (T.nz + 2 * g) (g + 1), g, g))
      (fun k => penAxis (prevY3 T c = none) (nextY3 T c = none) T.ny g w (sinePrefactor w dx)
        (fun i => yg (k, i, p.2.2)) (yg (g, g, g)) (yg (g, fromEnd (T.ny + 2 * g) (g + 1), g))
        (fun j => penAxis (prevX3 T c = none) (nextX3 T c = none) T.nx g w (sinePrefactor w dx)
          (fun i => xg (k, j, i)) (xg (g, g, g)) (xg (g, g, fromEnd (T.nx + 2 * g) (g + 1))) (fun i => fld (k, j, i)) p.2.2) p.2.1) p.1) := by
  unfold penalise3 penAxis
  rw [if_neg (by omega : ¬ w = 0)]
  have r1 : ¬ penRaises (penFrontSrc T.nx g w) := by rw [not_penRaises_front hw]; omega
  have r2 : ¬ penRaises (penBackSrc T.nx g w) := by rw [not_penRaises_back hg hw]; omega
  have r3 : ¬ penRaises (penFrontSrc T.ny g w) := by rw [not_penRaises_front hw]; omega
  have r4 : ¬ penRaises (penBackSrc T.ny g w) := by rw [not_penRaises_back hg hw]; omega
  have r5 : ¬ penRaises (penFrontSrc T.nz g w) := by rw [not_penRaises_front hw]; omega
  have r6 : ¬ penRaises (penBackSrc T.nz g w) := by rw [not_penRaises_back hg hw]; omega
  simp only [r1, r2, r3, r4, r5, r6, if_false, ok_ite, bind, Except.bind]
  congr 1
  funext p
  by_cases h1 : prevX3 T c = none <;> by_cases h2 : nextX3 T c = none <;> by_cases h3 : prevY3 T c = none <;>
    by_cases h4 : nextY3 T c = none <;> by_cases h5 : prevZ3 T c = none <;>
    by_cases h6 : nextZ3 T c = none <;> simp only [h1, h2, h3, h4, h5, h6, if_true, if_false]

end Sopht
