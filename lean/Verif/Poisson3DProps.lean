import Verif.PoissonProps

/-!
# Properties C46, C62, C63 of the 3D unbounded Poisson solver
-/

namespace Sopht

open Finset

theorem re_idft_mul {A : Type} [AddCommGroup A] [Fintype A] [DecidableEq A] (K : FourierKernel A) (a b : A → ℝ) (s : ℝ) (x : A) :
    (idft K (fun k => dft K (fun x => (a x : ℂ)) k * dft K (fun x => (b x : ℂ) * (s : ℂ)) k) x).re
      = ∑ y, a y * (b (x - y) * s) := by
  rw [idft_mul]
  have : ∀ y, (a y : ℂ) * ((b (x - y) : ℂ) * (s : ℂ)) = ((a y * (b (x - y) * s) : ℝ) : ℂ) := by
    intro y; push_cast; rfl
  rw [Finset.sum_congr rfl fun y _ => this y, ← Complex.ofReal_sum, Complex.ofReal_re]

/-- A sum over the doubled axis of something that vanishes on the upper half. -/
theorem sum_lower_half (N : ℕ) [NeZero N] (f : ZMod (2 * N) → ℝ) (h : ℕ → ℝ)
    (h1 : ∀ i < N, f (i : ZMod (2 * N)) = h i) (h2 : ∀ i, N ≤ i → i < 2 * N → f (i : ZMod (2 * N)) = 0) :
    ∑ x, f x = ∑ i ∈ range N, h i := by
  rw [sum_zmod]
  have : ∀ i ∈ range (2 * N), f (i : ZMod (2 * N)) = if i < N then h i else 0 := by
    intro i hi
    rw [mem_range] at hi
    by_cases hN : i < N
    · rw [if_pos hN, h1 i hN]
    · rw [if_neg hN, h2 i (by omega) hi]
  rw [Finset.sum_congr rfl this, ← Finset.sum_filter]
  congr 1
  ext j; simp only [mem_filter, mem_range]; omega

section D3
variable {T : Cart3} [NeZero T.gz] [NeZero T.gy] [NeZero T.gx] {gz gy gx pz py px : ℕ} {per : Bool}

/-- C62: the 3D Green's function does not depend on the decomposition, and is regularised in the origin cell only. -/
theorem greens3_assembled (hZ : T.pz * T.nz = T.gz) (hY : T.py * T.ny = T.gy) (hX : T.px * T.nx = T.gx) {xr : ℝ} (hxr : 0 < xr)
    (x : Dbl3 T) :
    asm3 T (greenLocal3 T (xr / T.gx) xr (xr * (T.gy / T.gx)) (xr * (T.gz / T.gx))) x
      = greens3 (xr / T.gx) (min (x.1.val : ℤ) (2 * T.gz - x.1.val)) (min (x.2.1.val : ℤ) (2 * T.gy - x.2.1.val))
          (min (x.2.2.val : ℤ) (2 * T.gx - x.2.2.val)) := by
  have hgx : (0 : ℝ) < T.gx := by have := NeZero.pos T.gx; exact_mod_cast this
  have hdx : 0 < xr / T.gx := div_pos hxr hgx
  obtain ⟨d1, d2, d3, d4, d5⟩ := dbl_block hZ _ (ZMod.val_lt x.1)
  obtain ⟨a1, a2, a3, a4, a5⟩ := dbl_block hY _ (ZMod.val_lt x.2.1)
  obtain ⟨b1, b2, b3, b4, b5⟩ := dbl_block hX _ (ZMod.val_lt x.2.2)
  have hv0 := ZMod.val_lt x.1
  have hv1 := ZMod.val_lt x.2.1
  have hv2 := ZMod.val_lt x.2.2
  have hnz : 1 < 2 * T.nz := by omega
  have hny : 1 < 2 * T.ny := by omega
  have hnx : 1 < 2 * T.nx := by omega
  have ex : 2 * xr = 2 * ((T.gx : ℝ) * (xr / T.gx)) := by field_simp
  have ey : 2 * (xr * ((T.gy : ℝ) / T.gx)) = 2 * ((T.gy : ℝ) * (xr / T.gx)) := by field_simp
  have ez : 2 * (xr * ((T.gz : ℝ) / T.gx)) = 2 * ((T.gz : ℝ) * (xr / T.gx)) := by field_simp
  unfold asm3 greenLocal3
  simp only
  have cx := linspace_cell ((x.2.2.val : ℤ) / (2 * T.nx) * (2 * T.nx)) (2 * T.nx) hnx (xr / T.gx) ((x.2.2.val : ℤ) % (2 * T.nx))
  have cy := linspace_cell ((x.2.1.val : ℤ) / (2 * T.ny) * (2 * T.ny)) (2 * T.ny) hny (xr / T.gx) ((x.2.1.val : ℤ) % (2 * T.ny))
  have cz := linspace_cell ((x.1.val : ℤ) / (2 * T.nz) * (2 * T.nz)) (2 * T.nz) hnz (xr / T.gx) ((x.1.val : ℤ) % (2 * T.nz))
  rw [b5] at cx
  rw [a5] at cy
  rw [d5] at cz
  push_cast at cx cy cz ⊢
  rw [cx, cy, cz, ex, ey, ez]
  have r1 := reflect_coord T.gx _ hdx.le (x.2.2.val : ℤ)
  have r2 := reflect_coord T.gy _ hdx.le (x.2.1.val : ℤ)
  have r3 := reflect_coord T.gz _ hdx.le (x.1.val : ℤ)
  push_cast at r1 r2 r3
  rw [r1, r2, r3]
  unfold greens3
  have hiff : ((((x.1.val : ℤ) / (2 * T.nz) * (2 * T.nz) = 0 ∧ (x.2.1.val : ℤ) / (2 * T.ny) * (2 * T.ny) = 0 ∧
      (x.2.2.val : ℤ) / (2 * T.nx) * (2 * T.nx) = 0) ∧
      ((x.1.val : ℤ) % (2 * T.nz), (x.2.1.val : ℤ) % (2 * T.ny), (x.2.2.val : ℤ) % (2 * T.nx)) = ((0, 0, 0) : C3))) ↔
      (min (x.1.val : ℤ) (2 * T.gz - x.1.val) = 0 ∧ min (x.2.1.val : ℤ) (2 * T.gy - x.2.1.val) = 0 ∧
        min (x.2.2.val : ℤ) (2 * T.gx - x.2.2.val) = 0) := by
    rw [Prod.mk.injEq, Prod.mk.injEq]
    have p0 : 0 ≤ (x.1.val : ℤ) / (2 * T.nz) * (2 * T.nz) := mul_nonneg d1 (by omega)
    have p1 : 0 ≤ (x.2.1.val : ℤ) / (2 * T.ny) * (2 * T.ny) := mul_nonneg a1 (by omega)
    have p2 : 0 ≤ (x.2.2.val : ℤ) / (2 * T.nx) * (2 * T.nx) := mul_nonneg b1 (by omega)
    omega
  by_cases h : (min (x.1.val : ℤ) (2 * T.gz - x.1.val) = 0 ∧ min (x.2.1.val : ℤ) (2 * T.gy - x.2.1.val) = 0 ∧
        min (x.2.2.val : ℤ) (2 * T.gx - x.2.2.val) = 0)
  · rw [if_pos (hiff.2 h), if_pos h]
  · rw [if_neg (fun hh => h (hiff.1 hh)), if_neg h]
    push_cast
    rfl

/-- The zero-padded right hand side as seen by the transform. -/
theorem asm3_zero_pad (hT : mkCart3 gz gy gx pz py px per = .ok T) (hE : EvenTopo3 T) (g : ℕ) (F : C3 → ℝ) (f : World C3 C3 ℝ)
    (hf : ∀ c, Valid3 T c → ∀ p, Inner3 T g p → f c p = F (globalIx3 T g c p))
    {sched : List Ev} (hs : Complete (toMsgs3 T g) sched) (x : Dbl3 T) :
    asm3 T (copyTo3 T g f (fun _ _ => 0) sched) x
      = if x.1.val < T.gz ∧ x.2.1.val < T.gy ∧ x.2.2.val < T.gx then F (x.1.val, x.2.1.val, x.2.2.val) else 0 := by
  obtain ⟨e0, e1, e2, -, -, -, -, hZ, hY, hX⟩ := construct3_ok hT
  obtain ⟨d1, d2, d3, d4, d5⟩ := dbl_block hZ _ (ZMod.val_lt x.1)
  obtain ⟨a1, a2, a3, a4, a5⟩ := dbl_block hY _ (ZMod.val_lt x.2.1)
  obtain ⟨b1, b2, b3, b4, b5⟩ := dbl_block hX _ (ZMod.val_lt x.2.2)
  unfold asm3
  rw [copyTo3_zero_pads hT hE g F f hf hs ⟨d1, d2, a1, a2, b1, b2⟩ ⟨d3, d4, a3, a4, b3, b4⟩]
  unfold dblIx3
  simp only
  rw [d5, a5, b5, ← e0, ← e1, ← e2]
  simp only [Nat.cast_lt]

/-- C46, C63: every 3D solve returns in each inner cell the free-space sum over the right hand side, whatever the solver's
buffers held before and for every supported decomposition; ghost cells are not touched. -/
theorem solve3_correct (hT : mkCart3 gz gy gx pz py px per = .ok T) (hE : EvenTopo3 T) (g : ℕ) {xr : ℝ} (hxr : 0 < xr)
    {st : Solver3 T} {dbl0 : World C3 C3 ℝ} {conv0 : Dbl3 T → ℂ}
    (hst : st.green = (solverInit3 T xr dbl0 conv0).green) (F : C3 → ℝ) (sol rhs : World C3 C3 ℝ)
    (hf : ∀ c, Valid3 T c → ∀ p, Inner3 T g p → rhs c p = F (globalIx3 T g c p))
    {s1 s2 : List Ev} (h1 : Complete (toMsgs3 T g) s1) (h2 : Complete (fromMsgs3 T g) s2)
    {c p : C3} (hc : Valid3 T c) :
    (Inner3 T g p → (solve3 T g st sol rhs s1 s2).2 c p = freeSolution3 gz gy gx (xr / gx) F (globalIx3 T g c p)) ∧
    (¬ Inner3 T g p → (solve3 T g st sol rhs s1 s2).2 c p = sol c p) := by
  obtain ⟨e0, e1, e2, -, -, -, -, hZ, hY, hX⟩ := construct3_ok hT
  have := NeZero.pos T.gz
  have := NeZero.pos T.gy
  have := NeZero.pos T.gx
  unfold solve3
  simp only
  have key := copyFrom3_correct (α := ℝ) hE g
    (fun G => ((idft (kern3 T) fun k => dft (kern3 T) (fun x => ((asm3 T (copyTo3 T g rhs (fun _ _ => 0) s1) x : ℝ) : ℂ)) k * st.green k)
      ((G.1 : ZMod (2 * T.gz)), (G.2.1 : ZMod (2 * T.gy)), (G.2.2 : ZMod (2 * T.gx)))).re)
    (disasm3 T fun x => (idft (kern3 T) (fun k => dft (kern3 T) (fun x => ((asm3 T (copyTo3 T g rhs (fun _ _ => 0) s1) x : ℝ) : ℂ)) k * st.green k) x).re)
    sol (fun c _ q _ => rfl) h2 (p := p) hc
  refine ⟨fun hI => ?_, key.2⟩
  rw [key.1 hI]
  obtain ⟨i1, i2, i3, i4, i5, i6⟩ := hI
  obtain ⟨c1, c2, c3, c4, c5, c6⟩ := hc
  have l0 := block_lt hZ c2 (b := p.1 - g) (by omega)
  have l1 := block_lt hY c4 (b := p.2.1 - g) (by omega)
  have l2 := block_lt hX c6 (b := p.2.2 - g) (by omega)
  have p0 : 0 ≤ c.1 * T.nz := mul_nonneg c1 (by omega)
  have p1 : 0 ≤ c.2.1 * T.ny := mul_nonneg c3 (by omega)
  have p2 : 0 ≤ c.2.2 * T.nx := mul_nonneg c5 (by omega)
  have G0 : 0 ≤ (globalIx3 T g c p).1 ∧ (globalIx3 T g c p).1 < T.gz := by unfold globalIx3; simp only; omega
  have G1 : 0 ≤ (globalIx3 T g c p).2.1 ∧ (globalIx3 T g c p).2.1 < T.gy := by unfold globalIx3; simp only; omega
  have G2 : 0 ≤ (globalIx3 T g c p).2.2 ∧ (globalIx3 T g c p).2.2 < T.gx := by unfold globalIx3; simp only; omega
  generalize globalIx3 T g c p = G at G0 G1 G2 ⊢
  have hgreen : ∀ k, st.green k = dft (kern3 T) (fun x =>
      ((greens3 (xr / T.gx) (min (x.1.val : ℤ) (2 * T.gz - x.1.val)) (min (x.2.1.val : ℤ) (2 * T.gy - x.2.1.val))
        (min (x.2.2.val : ℤ) (2 * T.gx - x.2.2.val)) : ℝ) : ℂ) * (((xr / T.gx) ^ 3 : ℝ) : ℂ)) k := by
    intro k
    rw [hst]
    unfold solverInit3
    simp only
    rw [← dft_smul]
    congr 2
    funext x
    rw [greens3_assembled hZ hY hX hxr]
  simp only [hgreen]
  rw [re_idft_mul (kern3 T) (fun x => asm3 T (copyTo3 T g rhs (fun _ _ => 0) s1) x)
    (fun x => greens3 (xr / T.gx) (min (x.1.val : ℤ) (2 * T.gz - x.1.val)) (min (x.2.1.val : ℤ) (2 * T.gy - x.2.1.val))
        (min (x.2.2.val : ℤ) (2 * T.gx - x.2.2.val)))]
  simp only [Fintype.sum_prod_type, asm3_zero_pad hT hE g F rhs hf h1, Prod.mk_sub_mk]
  unfold freeSolution3
  rw [← e0, ← e1, ← e2]
  apply sum_lower_half
  · intro k hk
    apply sum_lower_half
    · intro i hi
      apply sum_lower_half
      · intro j hj
        simp only [ZMod.val_cast_of_lt (show k < 2 * T.gz by omega), ZMod.val_cast_of_lt (show i < 2 * T.gy by omega),
          ZMod.val_cast_of_lt (show j < 2 * T.gx by omega)]
        rw [if_pos ⟨hk, hi, hj⟩]
        have v0 : (((G.1 : ZMod (2 * T.gz)) - (k : ZMod (2 * T.gz))).val : ℤ) = (G.1 - k) % (2 * T.gz : ℕ) := by
          rw [← ZMod.val_intCast]; push_cast; rfl
        have v1 : (((G.2.1 : ZMod (2 * T.gy)) - (i : ZMod (2 * T.gy))).val : ℤ) = (G.2.1 - i) % (2 * T.gy : ℕ) := by
          rw [← ZMod.val_intCast]; push_cast; rfl
        have v2 : (((G.2.2 : ZMod (2 * T.gx)) - (j : ZMod (2 * T.gx))).val : ℤ) = (G.2.2 - j) % (2 * T.gx : ℕ) := by
          rw [← ZMod.val_intCast]; push_cast; rfl
        rw [v0, v1, v2, reflect_dist G0.1 G0.2 (by omega) (by omega), reflect_dist G1.1 G1.2 (by omega) (by omega),
          reflect_dist G2.1 G2.2 (by omega) (by omega)]
        ring
      · intro j hj hj'
        simp only [ZMod.val_cast_of_lt hj']
        rw [if_neg (by omega), zero_mul]
    · intro i hi hi'
      simp only [ZMod.val_cast_of_lt hi']
      apply Finset.sum_eq_zero
      intro j _
      rw [if_neg (by omega), zero_mul]
  · intro k hk hk'
    simp only [ZMod.val_cast_of_lt hk']
    apply Finset.sum_eq_zero
    intro i _
    apply Finset.sum_eq_zero
    intro j _
    rw [if_neg (by omega), zero_mul]

/-- C46: the vector solve returns the free-space sum of every component. -/
theorem vectorSolve3_correct (hT : mkCart3 gz gy gx pz py px per = .ok T) (hE : EvenTopo3 T) (g : ℕ) {xr : ℝ} (hxr : 0 < xr)
    {st : Solver3 T} {dbl0 : World C3 C3 ℝ} {conv0 : Dbl3 T → ℂ}
    (hst : st.green = (solverInit3 T xr dbl0 conv0).green) (F : Fin 3 → C3 → ℝ) (sol rhs : Fin 3 → World C3 C3 ℝ)
    (hf : ∀ a c, Valid3 T c → ∀ p, Inner3 T g p → rhs a c p = F a (globalIx3 T g c p))
    {s : Fin 3 → List Ev × List Ev} (h1 : ∀ a, Complete (toMsgs3 T g) (s a).1) (h2 : ∀ a, Complete (fromMsgs3 T g) (s a).2)
    (a : Fin 3) {c p : C3} (hc : Valid3 T c) (hI : Inner3 T g p) :
    (vectorSolve3 T g st sol rhs s).2 a c p = freeSolution3 gz gy gx (xr / gx) (F a) (globalIx3 T g c p) := by
  unfold vectorSolve3
  match a with
  | 0 => exact (solve3_correct hT hE g hxr hst (F 0) (sol 0) (rhs 0) (hf 0) (h1 0) (h2 0) hc).1 hI
  | 1 => exact (solve3_correct hT hE g hxr hst (F 1) (sol 1) (rhs 1) (hf 1) (h1 1) (h2 1) hc).1 hI
  | 2 => exact (solve3_correct hT hE g hxr hst (F 2) (sol 2) (rhs 2) (hf 2) (h1 2) (h2 2) hc).1 hI

/-- A history of earlier solves with arbitrary right hand sides. -/
noncomputable def solveMany3 (T : Cart3) [NeZero T.gz] [NeZero T.gy] [NeZero T.gx] (g : ℕ) (st : Solver3 T)
    (hist : List ((World C3 C3 ℝ × World C3 C3 ℝ) × (List Ev × List Ev))) : Solver3 T :=
  hist.foldl (fun st h => (solve3 T g st h.1.1 h.1.2 h.2.1 h.2.2).1) st

/-- No history of solves changes the Green's function. -/
theorem solveMany3_green (g : ℕ) (st : Solver3 T) (hist) : (solveMany3 T g st hist).green = st.green := by
  unfold solveMany3
  induction hist generalizing st with
  | nil => rfl
  | cons h t ih => rw [List.foldl_cons, ih]; rfl

/-- C46: after any history of solves a solve returns what a fresh solver returns. -/
theorem solve3_history (hT : mkCart3 gz gy gx pz py px per = .ok T) (hE : EvenTopo3 T) (g : ℕ) {xr : ℝ} (hxr : 0 < xr)
    (dbl0 dbl0' : World C3 C3 ℝ) (conv0 conv0' : Dbl3 T → ℂ)
    (hist : List ((World C3 C3 ℝ × World C3 C3 ℝ) × (List Ev × List Ev))) (F : C3 → ℝ) (sol sol' rhs rhs' : World C3 C3 ℝ)
    (hf : ∀ c, Valid3 T c → ∀ p, Inner3 T g p → rhs c p = F (globalIx3 T g c p))
    (hf' : ∀ c, Valid3 T c → ∀ p, Inner3 T g p → rhs' c p = F (globalIx3 T g c p))
    {s1 s2 s1' s2' : List Ev} (h1 : Complete (toMsgs3 T g) s1) (h2 : Complete (fromMsgs3 T g) s2)
    (h1' : Complete (toMsgs3 T g) s1') (h2' : Complete (fromMsgs3 T g) s2')
    {c p : C3} (hc : Valid3 T c) (hI : Inner3 T g p) :
    (solve3 T g (solveMany3 T g (solverInit3 T xr dbl0 conv0) hist) sol rhs s1 s2).2 c p
      = (solve3 T g (solverInit3 T xr dbl0' conv0') sol' rhs' s1' s2').2 c p := by
  rw [(solve3_correct hT hE g hxr (dbl0 := dbl0) (conv0 := conv0) (solveMany3_green g _ hist) F sol rhs hf h1 h2 hc).1 hI,
    (solve3_correct hT hE g hxr (dbl0 := dbl0') (conv0 := conv0') rfl F sol' rhs' hf' h1' h2' hc).1 hI]

/-- non-vacuity: the hypotheses of `solve3_correct` on a 2 × 1 × 2 pencil decomposition with ghost size 1 -/
example : ∃ (T : Cart3), ∃ (_ : NeZero T.gz) (_ : NeZero T.gy) (_ : NeZero T.gx), mkCart3 4 3 2 2 1 2 false = .ok T ∧ EvenTopo3 T ∧
    (∃ s1, Complete (toMsgs3 T 1) s1) ∧ (∃ s2, Complete (fromMsgs3 T 1) s2) ∧ Valid3 T (1, 0, 1) ∧ Inner3 T ((1 : ℕ) : ℤ) (2, 1, 1) := by
  refine ⟨⟨4, 3, 2, 2, 1, 2, 2, 3, 1, false⟩, ⟨by decide⟩, ⟨by decide⟩, ⟨by decide⟩, by decide, ?_, complete_schedule_exists _, complete_schedule_exists _, ?_, ?_⟩
  · unfold EvenTopo3; decide
  · unfold Valid3; decide
  · unfold Inner3; decide

/-- non-vacuity: the hypotheses of `solve2_correct` on three slabs with ghost size 1 -/
example : ∃ (T : Cart2), ∃ (_ : NeZero T.gy) (_ : NeZero T.gx), mkCart2 6 2 3 1 false = .ok T ∧ doublingInit2 (.int 1) T = .ok 0 ∧
    (∃ s1, Complete (toMsgs2 T 1 0) s1) ∧ (∃ s2, Complete (fromMsgs2 T 1 0) s2) ∧ Valid2 T (2, 0) ∧ Inner2 T ((1 : ℕ) : ℤ) (2, 1) := by
  refine ⟨⟨6, 2, 3, 1, 2, 2, false⟩, ⟨by decide⟩, ⟨by decide⟩, by decide, by decide, complete_schedule_exists _, complete_schedule_exists _, ?_, ?_⟩
  · unfold Valid2; decide
  · unfold Inner2; decide

end D3

/-! ### C63: what the solution means -/

/-- C63: the result is linear in the right hand side. -/
theorem freeSolution2_linear (gy gx : ℕ) (dx a b : ℝ) (F F' : C2 → ℝ) (G : C2) :
    freeSolution2 gy gx dx (fun p => a * F p + b * F' p) G = a * freeSolution2 gy gx dx F G + b * freeSolution2 gy gx dx F' G := by
  unfold freeSolution2
  rw [mul_sum, mul_sum, ← sum_add_distrib]
  refine sum_congr rfl fun i _ => ?_
  rw [mul_sum, mul_sum, ← sum_add_distrib]
  refine sum_congr rfl fun j _ => ?_
  ring

/-- C63: no periodic images: a unit source in cell `S` contributes to cell `G` only through their true distance, so moving both
together changes nothing as long as they stay in the domain. -/
theorem freeSolution2_point_source (gy gx : ℕ) (dx : ℝ) (S : C2) (h0 : 0 ≤ S.1) (h1 : S.1 < gy) (h2 : 0 ≤ S.2) (h3 : S.2 < gx) (G : C2) :
    freeSolution2 gy gx dx (fun p => if p = S then 1 else 0) G = greens2 dx |G.1 - S.1| |G.2 - S.2| * dx ^ 2 := by
  obtain ⟨a, ha⟩ := Int.eq_ofNat_of_zero_le h0
  obtain ⟨b, hb⟩ := Int.eq_ofNat_of_zero_le h2
  obtain ⟨S1, S2⟩ := S
  simp only at ha hb h1 h3 ⊢
  subst ha hb
  unfold freeSolution2
  rw [Finset.sum_eq_single a]
  · rw [Finset.sum_eq_single b]
    · simp
    · intro j _ hj; dsimp only; rw [if_neg (by simp only [Prod.mk.injEq, not_and]; intro _; exact_mod_cast hj)]; simp
    · intro hb; exact absurd (mem_range.2 (by exact_mod_cast h3)) hb
  · intro i _ hi
    apply Finset.sum_eq_zero
    intro j _
    dsimp only
    rw [if_neg (by simp only [Prod.mk.injEq, not_and]; intro h; exact absurd (by exact_mod_cast h) hi)]; simp
  · intro ha; exact absurd (mem_range.2 (by exact_mod_cast h1)) ha

end Sopht
