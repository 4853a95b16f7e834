import Verif.PenaliseLemmas
import Mathlib.Analysis.SpecialFunctions.Trigonometric.Bounds

/-! # Properties of the boundary penalisation (C41) -/

namespace Sopht

set_option linter.unusedSimpArgs false

/-- C41: a zone width is accepted exactly if it is a non-negative integer. -/
theorem penCheck_ok_iff (width : PyNum) :
    (penCheck width = .ok () ↔ ∃ n : ℕ, width = .int n) ∧ (penCheck width ≠ .ok () → penCheck width = .error .valueError) := by
  unfold penCheck
  cases width with
  | int v =>
    simp only [PyNum.neg, PyNum.isInt, Bool.not_true, Bool.or_false, decide_eq_true_eq]
    by_cases h : v < 0
    · rw [if_pos h]; simp; intro n hn; omega
    · rw [if_neg h]; simp; exact ⟨v.toNat, by omega⟩
  | float n d => simp [PyNum.isInt]

/-- C41: with width 0 the kernels change nothing. -/
theorem penalise_width_zero (T2 : Cart2) (T3 : Cart3) (g : ℕ) (dx : ℝ) (xg yg : C2 → ℝ) (c : C2) (fld : C2 → ℝ)
    (xg3 yg3 zg3 : C3 → ℝ) (c3 : C3) (fld3 : C3 → ℝ) :
    penalise2 T2 g 0 dx xg yg c fld = .ok fld ∧ penalise3 T3 g 0 dx xg3 yg3 zg3 c3 fld3 = .ok fld3 := ⟨rfl, rfl⟩

/-! ## Agreement with the global grid -/

theorem nbrNone2 {T : Cart2} {c : C2} (hc : Valid2 T c) :
    (prevX2 T c = none ↔ T.per = false ∧ c.2 = 0) ∧ (nextX2 T c = none ↔ T.per = false ∧ c.2 = T.px - 1) ∧
    (prevY2 T c = none ↔ T.per = false ∧ c.1 = 0) ∧ (nextY2 T c = none ↔ T.per = false ∧ c.1 = T.py - 1) := by
  obtain ⟨c1, c2, c3, c4⟩ := hc
  unfold prevX2 nextX2 prevY2 nextY2
  simp only [Option.map_eq_none_iff, axisNbr_none_iff]
  refine ⟨?_, ?_, ?_, ?_⟩ <;> exact and_congr_right fun _ => by omega

theorem nbrNone3 {T : Cart3} {c : C3} (hc : Valid3 T c) :
    (prevX3 T c = none ↔ T.per = false ∧ c.2.2 = 0) ∧ (nextX3 T c = none ↔ T.per = false ∧ c.2.2 = T.px - 1) ∧
    (prevY3 T c = none ↔ T.per = false ∧ c.2.1 = 0) ∧ (nextY3 T c = none ↔ T.per = false ∧ c.2.1 = T.py - 1) ∧
    (prevZ3 T c = none ↔ T.per = false ∧ c.1 = 0) ∧ (nextZ3 T c = none ↔ T.per = false ∧ c.1 = T.pz - 1) := by
  obtain ⟨c1, c2, c3, c4, c5, c6⟩ := hc
  unfold prevX3 nextX3 prevY3 nextY3 prevZ3 nextZ3
  simp only [Option.map_eq_none_iff, axisNbr_none_iff]
  refine ⟨?_, ?_, ?_, ?_, ?_, ?_⟩ <;> exact and_congr_right fun _ => by omega

/-- C41 (2D): on every rank of every accepted decomposition whose blocks are at least `w` cells wide, penalisation leaves in each inner cell, and in
each ghost cell beyond the physical boundary, what penalising the global field gives. -/
theorem penalise2_global {gy gx py px : ℕ} {per : Bool} {T : Cart2} (hT : mkCart2 gy gx py px per = .ok T)
    {g w : ℕ} (hg : 1 ≤ g) (hwy : w ≤ T.ny) (hwx : w ≤ T.nx) {dx : ℝ} (hdx : dx ≠ 0) (x0 y0 : ℝ) {c : C2} (hc : Valid2 T c)
    {xg yg : C2 → ℝ} (hgrid : GridX2 T g dx x0 y0 c xg yg) {fld F : C2 → ℝ} (hf : ∀ p, Inner2 T g p → fld p = F (globalIx2 T g c p)) :
    ∃ out, penalise2 T g w dx xg yg c fld = .ok out ∧
      ∀ p, (Inner2 T g p ∨ (1 ≤ w ∧ OwnedCell2 T g c p)) → out p = serialPen2 per gy gx w F (globalIx2 T g c p) := by
  obtain ⟨e1, e2, -, -, hper, hY, hX⟩ := construct2_ok hT
  rcases Nat.eq_zero_or_pos w with h0 | h0
  · subst h0
    refine ⟨fld, rfl, ?_⟩
    intro p hp
    rcases hp with hp | ⟨h, -⟩
    · unfold serialPen2 serialPen1
      simp only [or_true, if_true]
      exact hf p hp
    · omega
  · refine ⟨_, penalise2_ok hg h0 (by omega) (by omega) dx xg yg c fld, ?_⟩
    intro p hp
    have hO : OwnedCell2 T g c p := by
      rcases hp with ⟨p1, p2, p3, p4⟩ | ⟨-, h⟩
      · exact ⟨⟨by omega, by omega, Or.inl p1, Or.inl p2⟩, ⟨by omega, by omega, Or.inl p3, Or.inl p4⟩⟩
      · exact h
    obtain ⟨n1, n2, n3, n4⟩ := nbrNone2 hc
    obtain ⟨c1, c2, c3, c4⟩ := hc
    have hOy := hO.1
    have hOx := hO.2
    rw [hper] at hOy hOx n1 n2 n3 n4
    unfold serialPen2
    rw [← e1, ← e2, ← hY, ← hX]
    simp only
    have gi : (globalIx2 T g c p).1 = c.1 * T.ny + p.1 - g := rfl
    have gj : (globalIx2 T g c p).2 = c.2 * T.nx + p.2 - g := rfl
    rw [gi, gj]
    refine penAxis_global (x0 := y0) hg h0 hwy c1 c2 n3 n4 hdx ?_ ?_ ?_ ?_ hOy
    · intro i i0 i1
      exact (hgrid (i, p.2) ⟨i0, i1, hOx.1, hOx.2.1⟩).2
    · rw [(hgrid (g, g) ⟨by simp only; omega, by simp only; omega, by simp only; omega, by simp only; omega⟩).2]
      unfold globalIx2; simp only; congr 3; ring
    · unfold fromEnd
      rw [(hgrid (T.ny + 2 * g - (g + 1), g) ⟨by simp only; omega, by simp only; omega, by simp only; omega, by simp only; omega⟩).2]
      unfold globalIx2; simp only; congr 3; ring
    · intro j j0 j1
      refine penAxis_global (x0 := x0) hg h0 hwx c3 c4 n1 n2 hdx ?_ ?_ ?_ ?_ hOx
      · intro i i0 i1
        exact (hgrid (j, i) ⟨by simp only; omega, by simp only; omega, i0, i1⟩).1
      · rw [(hgrid (g, g) ⟨by simp only; omega, by simp only; omega, by simp only; omega, by simp only; omega⟩).1]
        unfold globalIx2; simp only; congr 3; ring
      · unfold fromEnd
        rw [(hgrid (g, T.nx + 2 * g - (g + 1)) ⟨by simp only; omega, by simp only; omega, by simp only; omega, by simp only; omega⟩).1]
        unfold globalIx2; simp only; congr 3; ring
      · intro i i0 i1
        exact hf (j, i) ⟨j0, j1, i0, i1⟩

/-- C41 (3D): as `penalise2_global`. -/
theorem penalise3_global {gz gy gx pz py px : ℕ} {per : Bool} {T : Cart3} (hT : mkCart3 gz gy gx pz py px per = .ok T)
    {g w : ℕ} (hg : 1 ≤ g) (hwz : w ≤ T.nz) (hwy : w ≤ T.ny) (hwx : w ≤ T.nx) {dx : ℝ} (hdx : dx ≠ 0) (x0 y0 z0 : ℝ) {c : C3} (hc : Valid3 T c)
    {xg yg zg : C3 → ℝ} (hgrid : GridX3 T g dx x0 y0 z0 c xg yg zg) {fld F : C3 → ℝ} (hf : ∀ p, Inner3 T g p → fld p = F (globalIx3 T g c p)) :
    ∃ out, penalise3 T g w dx xg yg zg c fld = .ok out ∧
      ∀ p, (Inner3 T g p ∨ (1 ≤ w ∧ OwnedCell3 T g c p)) → out p = serialPen3 per gz gy gx w F (globalIx3 T g c p) := by
  obtain ⟨e0, e1, e2, -, -, -, hper, hZ, hY, hX⟩ := construct3_ok hT
  rcases Nat.eq_zero_or_pos w with h0 | h0
  · subst h0
    refine ⟨fld, rfl, ?_⟩
    intro p hp
    rcases hp with hp | ⟨h, -⟩
    · unfold serialPen3 serialPen1
      simp only [or_true, if_true]
      exact hf p hp
    · omega
  · refine ⟨_, penalise3_ok hg h0 (by omega) (by omega) (by omega) dx xg yg zg c fld, ?_⟩
    intro p hp
    have hO : OwnedCell3 T g c p := by
      rcases hp with ⟨p1, p2, p3, p4, p5, p6⟩ | ⟨-, h⟩
      · exact ⟨⟨by omega, by omega, Or.inl p1, Or.inl p2⟩, ⟨by omega, by omega, Or.inl p3, Or.inl p4⟩, ⟨by omega, by omega, Or.inl p5, Or.inl p6⟩⟩
      · exact h
    obtain ⟨n1, n2, n3, n4, n5, n6⟩ := nbrNone3 hc
    obtain ⟨c1, c2, c3, c4, c5, c6⟩ := hc
    have hOz := hO.1
    have hOy := hO.2.1
    have hOx := hO.2.2
    rw [hper] at hOz hOy hOx n1 n2 n3 n4 n5 n6
    unfold serialPen3
    rw [← e0, ← e1, ← e2, ← hZ, ← hY, ← hX]
    simp only
    have gk : (globalIx3 T g c p).1 = c.1 * T.nz + p.1 - g := rfl
    have gi : (globalIx3 T g c p).2.1 = c.2.1 * T.ny + p.2.1 - g := rfl
    have gj : (globalIx3 T g c p).2.2 = c.2.2 * T.nx + p.2.2 - g := rfl
    rw [gi, gj, gk]
    have hgg : InArr3 T g (g, g, g) :=
      ⟨by simp only; omega, by simp only; omega, by simp only; omega, by simp only; omega, by simp only; omega, by simp only; omega⟩
    refine penAxis_global (x0 := z0) hg h0 hwz c1 c2 n5 n6 hdx ?_ ?_ ?_ ?_ hOz
    · intro i i0 i1
      exact (hgrid (i, p.2.1, p.2.2) ⟨i0, i1, hOy.1, hOy.2.1, hOx.1, hOx.2.1⟩).2.2
    · rw [(hgrid (g, g, g) hgg).2.2]
      unfold globalIx3; simp only; congr 3; ring
    · unfold fromEnd
      rw [(hgrid (T.nz + 2 * g - (g + 1), g, g) ⟨by simp only; omega, by simp only; omega, hgg.2.2.1, hgg.2.2.2.1, hgg.2.2.2.2.1, hgg.2.2.2.2.2⟩).2.2]
      unfold globalIx3; simp only; congr 3; ring
    · intro k k0 k1
      refine penAxis_global (x0 := y0) hg h0 hwy c3 c4 n3 n4 hdx ?_ ?_ ?_ ?_ hOy
      · intro i i0 i1
        exact (hgrid (k, i, p.2.2) ⟨by simp only; omega, by simp only; omega, i0, i1, hOx.1, hOx.2.1⟩).2.1
      · rw [(hgrid (g, g, g) hgg).2.1]
        unfold globalIx3; simp only; congr 3; ring
      · unfold fromEnd
        rw [(hgrid (g, T.ny + 2 * g - (g + 1), g) ⟨hgg.1, hgg.2.1, by simp only; omega, by simp only; omega, hgg.2.2.2.2.1, hgg.2.2.2.2.2⟩).2.1]
        unfold globalIx3; simp only; congr 3; ring
      · intro j j0 j1
        refine penAxis_global (x0 := x0) hg h0 hwx c5 c6 n1 n2 hdx ?_ ?_ ?_ ?_ hOx
        · intro i i0 i1
          exact (hgrid (k, j, i) ⟨by simp only; omega, by simp only; omega, by simp only; omega, by simp only; omega, i0, i1⟩).1
        · rw [(hgrid (g, g, g) hgg).1]
          unfold globalIx3; simp only; congr 3; ring
        · unfold fromEnd
          rw [(hgrid (g, g, T.nx + 2 * g - (g + 1)) ⟨hgg.1, hgg.2.1, hgg.2.2.1, hgg.2.2.2.1, by simp only; omega, by simp only; omega⟩).1]
          unfold globalIx3; simp only; congr 3; ring
        · intro i i0 i1
          exact hf (k, j, i) ⟨k0, k1, j0, j1, i0, i1⟩

/-- C41: the vector kernel penalises each component like a scalar field. -/
theorem penaliseVec3_componentwise {T : Cart3} {g w : ℕ} {dx : ℝ} {xg yg zg : C3 → ℝ} {c : C3} {fld out : Fin 3 → C3 → ℝ}
    (h : penaliseVec3 T g w dx xg yg zg c fld = .ok out) (i : Fin 3) : penalise3 T g w dx xg yg zg c (fld i) = .ok (out i) := by
  unfold penaliseVec3 at h
  simp only [bind, Except.bind] at h
  cases h0 : penalise3 T g w dx xg yg zg c (fld 0) with
  | error e => rw [h0] at h; simp at h
  | ok f0 =>
    rw [h0] at h
    cases h1 : penalise3 T g w dx xg yg zg c (fld 1) with
    | error e => rw [h1] at h; simp at h
    | ok f1 =>
      rw [h1] at h
      cases h2 : penalise3 T g w dx xg yg zg c (fld 2) with
      | error e => rw [h2] at h; simp at h
      | ok f2 =>
        rw [h2] at h
        simp only [Except.ok.injEq] at h
        subst h
        match i with
        | 0 => simpa using h0
        | 1 => simpa using h1
        | 2 => simpa using h2

/-- non-vacuity: coordinate arrays and fields meeting the hypotheses exist on every rank -/
example (T : Cart2) (g : ℕ) (dx x0 y0 : ℝ) (c : C2) (F : C2 → ℝ) : ∃ xg yg fld : C2 → ℝ,
    GridX2 T g dx x0 y0 c xg yg ∧ ∀ p, Inner2 T g p → fld p = F (globalIx2 T g c p) :=
  ⟨fun p => x0 + dx * (globalIx2 T g c p).2, fun p => y0 + dx * (globalIx2 T g c p).1, fun p => F (globalIx2 T g c p),
    fun _ _ => ⟨rfl, rfl⟩, fun _ _ => rfl⟩

/-- non-vacuity, 3D -/
example (T : Cart3) (g : ℕ) (dx x0 y0 z0 : ℝ) (c : C3) (F : C3 → ℝ) : ∃ xg yg zg fld : C3 → ℝ,
    GridX3 T g dx x0 y0 z0 c xg yg zg ∧ ∀ p, Inner3 T g p → fld p = F (globalIx3 T g c p) :=
  ⟨fun p => x0 + dx * (globalIx3 T g c p).2.2, fun p => y0 + dx * (globalIx3 T g c p).2.1, fun p => z0 + dx * (globalIx3 T g c p).1,
    fun p => F (globalIx3 T g c p), fun _ _ => ⟨rfl, rfl, rfl⟩, fun _ _ => rfl⟩

/-! ## What the serial penalisation does -/

theorem ramp_zero (w : ℕ) : ramp w 0 = 0 := by unfold ramp; simp

theorem ramp_full {w : ℕ} (hw : 1 ≤ w) : ramp w w = 1 := by
  unfold ramp
  have : (w : ℝ) ≠ 0 := by have : (0 : ℝ) < w := by exact_mod_cast hw
                           exact this.ne'
  rw [Int.cast_natCast, div_self this, mul_one, Real.sin_pi_div_two]

theorem ramp_mem {w : ℕ} {j : ℤ} (h0 : 0 ≤ j) (h1 : j ≤ w) : 0 ≤ ramp w j ∧ ramp w j ≤ 1 := by
  unfold ramp
  refine ⟨Real.sin_nonneg_of_nonneg_of_le_pi ?_ ?_, Real.sin_le_one _⟩
  · have : (0 : ℝ) ≤ j := by exact_mod_cast h0
    positivity
  · rcases Nat.eq_zero_or_pos w with h | h
    · subst h; simp; exact Real.pi_pos.le
    · have hw : (0 : ℝ) < w := by exact_mod_cast h
      have hj : (j : ℝ) ≤ w := by exact_mod_cast h1
      have : (j : ℝ) / w ≤ 1 := by rw [div_le_one hw]; exact hj
      have hpi := Real.pi_pos
      nlinarith

/-- C41: cells further than `w` cells from the ends of the line keep their values. -/
theorem serialPen1_middle {per : Bool} {N w : ℕ} (U : ℤ → ℝ) {j : ℤ} (h1 : w ≤ j) (h2 : j < N - w) : serialPen1 per N w U j = U j := by
  unfold serialPen1
  split
  · rfl
  · simp only
    rw [if_neg (by omega), if_neg (by omega)]

/-- C41: on lines of at least `2 w` cells the front zone is the ramp times the last cell of the zone, and the back zone likewise. -/
theorem serialPen1_zones {N w : ℕ} (hw : 1 ≤ w) (hN : 2 * w ≤ N) (U : ℤ → ℝ) :
    (∀ j : ℤ, j < w → serialPen1 false N w U j = ramp w j * U (w - 1)) ∧
    (∀ j : ℤ, N - w ≤ j → serialPen1 false N w U j = ramp w (N - 1 - j) * U (N - w)) := by
  unfold serialPen1
  rw [if_neg (by simp; omega)]
  simp only
  refine ⟨fun j hj => ?_, fun j hj => ?_⟩
  · rw [if_neg (by omega), if_pos hj, mul_comm]
  · rw [if_pos hj, if_neg (by omega), mul_comm]

/-- C41: the outermost cells of a penalised field are zero. -/
theorem serialPen2_edge_zero {gy gx w : ℕ} (hw : 1 ≤ w) (hy : 2 * w ≤ gy) (hx : 2 * w ≤ gx) (F : C2 → ℝ) {G : C2}
    (hG : 0 ≤ G.1 ∧ G.1 < gy ∧ 0 ≤ G.2 ∧ G.2 < gx) (hE : OnEdge2 gy gx G) : serialPen2 false gy gx w F G = 0 := by
  have edge : ∀ (N : ℕ) (_ : 2 * w ≤ N) (U : ℤ → ℝ) (j : ℤ), j = 0 ∨ j = N - 1 → serialPen1 false N w U j = 0 := by
    intro N hN U j hj
    obtain ⟨a, b⟩ := serialPen1_zones hw hN U
    rcases hj with rfl | rfl
    · rw [a 0 (by omega), ramp_zero, zero_mul]
    · rw [b _ (by omega), sub_self, ramp_zero, zero_mul]
  have zero : ∀ (N : ℕ) (U : ℤ → ℝ) (j : ℤ), (∀ i, U i = 0) → serialPen1 false N w U j = 0 := by
    intro N U j h
    unfold serialPen1
    rw [if_neg (by simp; omega)]
    simp only [h, zero_mul, ite_self]
  unfold serialPen2
  simp only
  rcases hE with h | h | h | h
  · exact edge gy hy _ _ (Or.inl h)
  · exact edge gy hy _ _ (Or.inr h)
  · exact zero gy _ _ fun i => edge gx hx _ _ (Or.inl h)
  · exact zero gy _ _ fun i => edge gx hx _ _ (Or.inr h)

/-- C41: cells at least `w` cells inside the domain keep their values (2D). -/
theorem serialPen2_middle {per : Bool} {gy gx w : ℕ} (F : C2 → ℝ) {G : C2} (h : Away2 gy gx w G) : serialPen2 per gy gx w F G = F G := by
  obtain ⟨h1, h2, h3, h4⟩ := h
  unfold serialPen2
  simp only
  rw [serialPen1_middle _ h1 h2, serialPen1_middle _ h3 h4]

/-- C41: cells at least `w` cells inside the domain keep their values (3D). -/
theorem serialPen3_middle {per : Bool} {gz gy gx w : ℕ} (F : C3 → ℝ) {G : C3} (h : Away3 gz gy gx w G) :
    serialPen3 per gz gy gx w F G = F G := by
  obtain ⟨⟨h1, h2⟩, ⟨h3, h4⟩, h5, h6⟩ := h
  unfold serialPen3
  simp only
  rw [serialPen1_middle _ h1 h2, serialPen1_middle _ h3 h4, serialPen1_middle _ h5 h6]

/-- C41: penalisation never increases the largest absolute value (one axis; the kernels apply it axis by axis). -/
theorem serialPen1_bound {per : Bool} {N w : ℕ} (hN : 2 * w ≤ N) {U : ℤ → ℝ} {B : ℝ}
    (hB : ∀ j : ℤ, 0 ≤ j → j < N → |U j| ≤ B) {j : ℤ} (h0 : 0 ≤ j) (h1 : j < N) : |serialPen1 per N w U j| ≤ B := by
  by_cases hz : per = true ∨ w = 0
  · unfold serialPen1; rw [if_pos hz]; exact hB j h0 h1
  · have hp : per = false := by cases per <;> simp_all
    subst hp
    have hw : 1 ≤ w := by simp at hz; omega
    obtain ⟨a, b⟩ := serialPen1_zones hw hN U
    by_cases hf : j < w
    · rw [a j hf, abs_mul]
      obtain ⟨r0, r1⟩ := ramp_mem (w := w) h0 (by omega)
      rw [abs_of_nonneg r0]
      have := hB (w - 1) (by omega) (by omega)
      have h2 := abs_nonneg (U (w - 1))
      nlinarith
    · by_cases hb : N - w ≤ j
      · rw [b j hb, abs_mul]
        obtain ⟨r0, r1⟩ := ramp_mem (w := w) (j := N - 1 - j) (by omega) (by omega)
        rw [abs_of_nonneg r0]
        have := hB (N - w) (by omega) (by omega)
        have h2 := abs_nonneg (U (N - w))
        nlinarith
      · rw [serialPen1_middle U (by omega) (by omega)]
        exact hB j h0 h1

/-! ## Zones wider than a block -/

/-- C41: the kernel raises (NumPy cannot broadcast an empty slice) exactly if the rank touches a physical boundary along an axis on which the zone
is wider than block plus ghost layer. -/
theorem penalise2_raises_iff {T : Cart2} {g w : ℕ} (hg : 1 ≤ g) (hw : 1 ≤ w) (dx : ℝ) (xg yg : C2 → ℝ) (c : C2) (fld : C2 → ℝ) :
    penalise2 T g w dx xg yg c fld = .error .valueError ↔
      ((prevX2 T c = none ∨ nextX2 T c = none) ∧ T.nx + g < w) ∨ ((prevY2 T c = none ∨ nextY2 T c = none) ∧ T.ny + g < w) := by
  unfold penalise2
  rw [if_neg (by omega : ¬ w = 0)]
  simp only [not_penRaises_front hw, not_penRaises_back hg hw]
  by_cases h1 : prevX2 T c = none <;> by_cases h2 : nextX2 T c = none <;> by_cases h3 : prevY2 T c = none <;>
    by_cases h4 : nextY2 T c = none <;> by_cases hx : T.nx + g < w <;> by_cases hy : T.ny + g < w <;>
    simp [h1, h2, h3, h4, hx, hy, bind, Except.bind]

/-- C41: with blocks narrower than the zone the result does depend on the decomposition, even with correct ghost cells: field 1 on a 7 × 4
domain, width 3; two ranks along x (blocks of 2 columns) leave 1/2 in cell (3, 1), one rank leaves √3/4. -/
theorem penalise2_thin_differs :
    let T : Cart2 := ⟨7, 4, 1, 2, 7, 2, false⟩
    let xg : C2 → ℝ := fun p => (0 : ℝ) + 1 * ((globalIx2 T 1 (0, 0) p).2 : ℤ)
    let yg : C2 → ℝ := fun p => (0 : ℝ) + 1 * ((globalIx2 T 1 (0, 0) p).1 : ℤ)
    mkCart2 7 4 1 2 false = .ok T ∧
    (∃ out, penalise2 T 1 3 1 xg yg (0, 0) (fun _ => 1) = .ok out ∧ out (4, 2) = 1 / 2) ∧ globalIx2 T 1 (0, 0) (4, 2) = (3, 1) ∧
    serialPen2 false 7 4 3 (fun _ => 1) (3, 1) = Real.sqrt 3 / 4 := by
  intro T xg yg
  have r1 : ramp 3 1 = 1 / 2 := by
    unfold ramp
    rw [show Real.pi / 2 * (((1 : ℤ) : ℝ) / ((3 : ℕ) : ℝ)) = Real.pi / 6 by push_cast; ring, Real.sin_pi_div_six]
  have r2 : ramp 3 2 = Real.sqrt 3 / 2 := by
    unfold ramp
    rw [show Real.pi / 2 * (((2 : ℤ) : ℝ) / ((3 : ℕ) : ℝ)) = Real.pi / 3 by push_cast; ring, Real.sin_pi_div_three]
  refine ⟨rfl, ⟨_, penalise2_ok (by omega) (by omega) (by decide) (by decide) 1 xg yg (0, 0) _, ?_⟩, by decide, ?_⟩
  · have n1 : prevX2 T (0, 0) = none := by decide
    have n2 : ¬ nextX2 T (0, 0) = none := by decide
    have n3 : prevY2 T (0, 0) = none := by decide
    have n4 : nextY2 T (0, 0) = none := by decide
    unfold penAxis
    simp only [n1, n2, n3, n4, if_true, if_false]
    rw [penBack_apply (by omega) (by decide) _ _ _ _ (by decide), if_neg (by decide),
      penFront_apply (by omega) (by decide) _ _ _ _ (by decide), if_neg (by decide),
      penFront_apply (by omega) (by decide) _ _ _ _ (by decide), if_pos (by decide), one_mul]
    rw [← r1]
    unfold ramp
    rw [← sine_arg (w := 3) (by omega) (one_ne_zero : (1 : ℝ) ≠ 0)]
    congr 2
    simp only [xg]
    have e1 : (globalIx2 T 1 (0, 0) (4, 2)).2 = 1 := by decide
    have e2 : (globalIx2 T 1 (0, 0) (((1 : ℕ) : ℤ), ((1 : ℕ) : ℤ))).2 = 0 := by decide
    rw [e1, e2]
    norm_num
  · unfold serialPen2
    simp only
    rw [serialPen1_middle _ (by decide) (by decide)]
    unfold serialPen1
    rw [if_neg (by simp)]
    simp only
    rw [if_pos (by decide), if_pos (by decide)]
    norm_num
    rw [r1, r2]
    ring

end Sopht
