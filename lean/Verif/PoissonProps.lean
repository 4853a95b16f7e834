import Verif.Poisson

/-!
# Properties C46, C62, C63 of the unbounded Poisson solver

`freeSolution2` / `freeSolution3` are the specification: the direct sum of the free-space Green's function over all cells of the
right hand side.
-/

namespace Sopht

open Finset

/-- Free-space Green's function of `-∇²` in 2D between cells `a` rows and `b` columns apart, regularised at distance 0. -/
noncomputable def greens2 (dx : ℝ) (a b : ℤ) : ℝ :=
  if a = 0 ∧ b = 0 then -(2 * Real.log (dx / Real.sqrt Real.pi) - 1) / (4 * Real.pi)
  else -Real.log (Real.sqrt ((b * dx) ^ 2 + (a * dx) ^ 2)) / (2 * Real.pi)

/-- What an unbounded solve should return in cell `G`: the sum over all cells of the right hand side. -/
noncomputable def freeSolution2 (gy gx : ℕ) (dx : ℝ) (F : C2 → ℝ) (G : C2) : ℝ :=
  ∑ i ∈ range gy, ∑ j ∈ range gx, F (i, j) * greens2 dx |G.1 - i| |G.2 - j| * dx ^ 2

/-- Free-space Green's function of `-∇²` in 3D, regularised at distance 0. -/
noncomputable def greens3 (dx : ℝ) (a b c : ℤ) : ℝ :=
  if a = 0 ∧ b = 0 ∧ c = 0 then 1 / (4 * Real.pi * dx)
  else (1 / Real.sqrt ((c * dx) ^ 2 + (b * dx) ^ 2 + (a * dx) ^ 2)) / (4 * Real.pi)

/-- What an unbounded solve should return in cell `G`. -/
noncomputable def freeSolution3 (gz gy gx : ℕ) (dx : ℝ) (F : C3 → ℝ) (G : C3) : ℝ :=
  ∑ k ∈ range gz, ∑ i ∈ range gy, ∑ j ∈ range gx,
    F (k, i, j) * greens3 dx |G.1 - k| |G.2.1 - i| |G.2.2 - j| * dx ^ 3

/-! ### Axis facts -/

/-- The local coordinate array holds the global coordinate of each cell. -/
theorem linspace_cell (s : ℤ) (n : ℕ) (hn : 1 < n) (dx : ℝ) (i : ℤ) :
    linspace (s * dx) (((s + n : ℤ) - 1) * dx) n i = ((s + i : ℤ) : ℝ) * dx := by
  unfold linspace
  have h : (n : ℝ) - 1 ≠ 0 := by
    have : (1 : ℝ) < n := by exact_mod_cast hn
    linarith
  have e : (((s + n : ℤ) : ℝ) - 1) * dx - s * dx = ((n : ℝ) - 1) * dx := by push_cast; ring
  rw [e, mul_div_assoc, mul_div_cancel₀ _ h] <;> try rfl
  push_cast; ring

/-- Even reflection: the coordinate of doubled cell `I` is that of cell `min I (2N - I)`. -/
theorem reflect_coord (N : ℕ) (dx : ℝ) (hdx : 0 ≤ dx) (I : ℤ) :
    min ((I : ℝ) * dx) (2 * (N * dx) - I * dx) = ((min I (2 * N - I) : ℤ) : ℝ) * dx := by
  have e : 2 * (N * dx) - I * dx = ((2 * N - I : ℤ) : ℝ) * dx := by push_cast; ring
  rw [e, ← min_mul_of_nonneg _ _ hdx]
  push_cast
  rfl

/-- Circular distance on the doubled axis is the true distance for cells of the lower half. -/
theorem reflect_dist {N : ℕ} {I i : ℤ} (hI0 : 0 ≤ I) (hI : I < N) (hi0 : 0 ≤ i) (hi : i < N) :
    min ((I - i) % (2 * N : ℕ)) (2 * N - (I - i) % (2 * N : ℕ)) = |I - i| := by
  rcases le_total i I with h | h
  · rw [Int.emod_eq_of_lt (by omega) (by push_cast; omega), abs_of_nonneg (by omega)]
    omega
  · rcases eq_or_lt_of_le h with rfl | h'
    · simp
    · have : (I - i) % ((2 * N : ℕ) : ℤ) = I - i + (2 * N : ℕ) := by
        rw [← Int.add_emod_right]
        exact Int.emod_eq_of_lt (by push_cast; omega) (by push_cast; omega)
      rw [this, abs_of_neg (by omega)]
      push_cast
      omega

theorem dft_smul {A : Type} [AddCommGroup A] [Fintype A] [DecidableEq A] (K : FourierKernel A) (b : A → ℂ) (s : ℂ) (k : A) :
    dft K b k * s = dft K (fun x => b x * s) k := by
  unfold dft
  rw [sum_mul]
  refine sum_congr rfl fun x _ => ?_
  ring

/-- blocks of the doubled array -/
theorem dbl_block {P n N : ℕ} (hN : P * n = N) (v : ℕ) (hv : v < 2 * N) :
    0 ≤ (v : ℤ) / (2 * n) ∧ (v : ℤ) / (2 * n) < P ∧ 0 ≤ (v : ℤ) % (2 * n) ∧ (v : ℤ) % (2 * n) < 2 * n ∧
      (v : ℤ) / (2 * n) * (2 * n) + (v : ℤ) % (2 * n) = v := by
  have hn : 0 < n := by
    rcases Nat.eq_zero_or_pos n with h | h
    · subst h; simp at hN; omega
    · exact h
  have hn' : (0 : ℤ) < 2 * n := by omega
  refine ⟨Int.ediv_nonneg (by omega) hn'.le, ?_, Int.emod_nonneg _ hn'.ne', Int.emod_lt_of_pos _ hn', ?_⟩
  · apply Int.ediv_lt_of_lt_mul hn'
    have : (v : ℤ) < 2 * ((P * n : ℕ) : ℤ) := by rw [hN]; exact_mod_cast hv
    push_cast at this
    linarith
  · exact Int.ediv_mul_add_emod _ _

section D2
variable {T : Cart2} [NeZero T.gy] [NeZero T.gx] {gy gx py px : ℕ} {per : Bool}

/-- C62: the local pieces of the Green's function put together are one global function: the value in cell `x` of the doubled
domain is the free-space Green's function at the evenly reflected distance, independently of the decomposition, and the
regularisation sits in the origin cell only. -/
theorem greens2_assembled (hY : T.py * T.ny = T.gy) (hX : T.px * T.nx = T.gx) {xr : ℝ} (hxr : 0 < xr) (x : Dbl2 T) :
    asm2 T (greenLocal2 T (xr / T.gx) xr (xr * (T.gy / T.gx))) x
      = greens2 (xr / T.gx) (min (x.1.val : ℤ) (2 * T.gy - x.1.val)) (min (x.2.val : ℤ) (2 * T.gx - x.2.val)) := by
  have hgx : (0 : ℝ) < T.gx := by have := NeZero.pos T.gx; exact_mod_cast this
  have hdx : 0 < xr / T.gx := div_pos hxr hgx
  have hv1 := ZMod.val_lt x.1
  have hv2 := ZMod.val_lt x.2
  obtain ⟨a1, a2, a3, a4, a5⟩ := dbl_block hY _ hv1
  obtain ⟨b1, b2, b3, b4, b5⟩ := dbl_block hX _ hv2
  have hny : 1 < 2 * T.ny := by omega
  have hnx : 1 < 2 * T.nx := by omega
  have ex : 2 * xr = 2 * ((T.gx : ℝ) * (xr / T.gx)) := by field_simp
  have ey : 2 * (xr * ((T.gy : ℝ) / T.gx)) = 2 * ((T.gy : ℝ) * (xr / T.gx)) := by field_simp
  unfold asm2 greenLocal2
  simp only
  have cx := linspace_cell ((x.2.val : ℤ) / (2 * T.nx) * (2 * T.nx)) (2 * T.nx) hnx (xr / T.gx) ((x.2.val : ℤ) % (2 * T.nx))
  have cy := linspace_cell ((x.1.val : ℤ) / (2 * T.ny) * (2 * T.ny)) (2 * T.ny) hny (xr / T.gx) ((x.1.val : ℤ) % (2 * T.ny))
  rw [b5] at cx
  rw [a5] at cy
  push_cast at cx cy ⊢
  rw [cx, cy, ex, ey]
  have r1 := reflect_coord T.gx _ hdx.le (x.2.val : ℤ)
  have r2 := reflect_coord T.gy _ hdx.le (x.1.val : ℤ)
  push_cast at r1 r2
  rw [r1, r2]
  unfold greens2
  have hiff : ((((x.1.val : ℤ) / (2 * T.ny) * (2 * T.ny) = 0 ∧ (x.2.val : ℤ) / (2 * T.nx) * (2 * T.nx) = 0) ∧
      ((x.1.val : ℤ) % (2 * T.ny), (x.2.val : ℤ) % (2 * T.nx)) = ((0, 0) : C2))) ↔
      (min (x.1.val : ℤ) (2 * T.gy - x.1.val) = 0 ∧ min (x.2.val : ℤ) (2 * T.gx - x.2.val) = 0) := by
    rw [Prod.mk.injEq]
    have p1 : 0 ≤ (x.1.val : ℤ) / (2 * T.ny) * (2 * T.ny) := mul_nonneg a1 (by omega)
    have p2 : 0 ≤ (x.2.val : ℤ) / (2 * T.nx) * (2 * T.nx) := mul_nonneg b1 (by omega)
    omega
  by_cases h : (min (x.1.val : ℤ) (2 * T.gy - x.1.val) = 0 ∧ min (x.2.val : ℤ) (2 * T.gx - x.2.val) = 0)
  · rw [if_pos (hiff.2 h), if_pos h]
  · rw [if_neg (fun hh => h (hiff.1 hh)), if_neg h]
    push_cast
    rfl

/-- The zero-padded right hand side as seen by the transform. -/
theorem asm2_zero_pad (hT : mkCart2 gy gx py px per = .ok T) {gn : PyNum} {d : Fin 2} (hd : doublingInit2 gn T = .ok d)
    (hp : per = false ∨ topo2 T d % 2 = 0) (g : ℕ) (F : C2 → ℝ) (f : World C2 C2 ℝ)
    (hf : ∀ c, Valid2 T c → ∀ p, Inner2 T g p → f c p = F (globalIx2 T g c p))
    {sched : List Ev} (hs : Complete (toMsgs2 T g d) sched) (x : Dbl2 T) :
    asm2 T (copyTo2 T g d f (fun _ _ => 0) sched) x
      = if x.1.val < T.gy ∧ x.2.val < T.gx then F (x.1.val, x.2.val) else 0 := by
  obtain ⟨e1, e2, -, -, -, hY, hX⟩ := construct2_ok hT
  obtain ⟨a1, a2, a3, a4, a5⟩ := dbl_block hY _ (ZMod.val_lt x.1)
  obtain ⟨b1, b2, b3, b4, b5⟩ := dbl_block hX _ (ZMod.val_lt x.2)
  unfold asm2
  rw [copyTo2_zero_pads hT hd hp g F f hf hs ⟨a1, a2, b1, b2⟩ ⟨a3, a4, b3, b4⟩]
  unfold dblIx2
  simp only
  rw [a5, b5, ← e1, ← e2]
  simp only [Nat.cast_lt]

/-- C46, C63: every solve — whatever the solver's buffers held before, in particular after any earlier solves — returns in each
inner cell the free-space sum over the right hand side, exactly, for every decomposition; ghost cells are not touched. -/
theorem solve2_correct (hT : mkCart2 gy gx py px per = .ok T) {gn : PyNum} {d : Fin 2} (hd : doublingInit2 gn T = .ok d)
    (hp : per = false ∨ topo2 T d % 2 = 0) (g : ℕ) {xr : ℝ} (hxr : 0 < xr) {st : Solver2 T} {dbl0 : World C2 C2 ℝ} {conv0 : Dbl2 T → ℂ}
    (hst : st.green = (solverInit2 T xr dbl0 conv0).green) (F : C2 → ℝ) (sol rhs : World C2 C2 ℝ)
    (hf : ∀ c, Valid2 T c → ∀ p, Inner2 T g p → rhs c p = F (globalIx2 T g c p))
    {s1 s2 : List Ev} (h1 : Complete (toMsgs2 T g d) s1) (h2 : Complete (fromMsgs2 T g d) s2)
    {c p : C2} (hc : Valid2 T c) :
    (Inner2 T g p → (solve2 T g d st sol rhs s1 s2).2 c p = freeSolution2 gy gx (xr / gx) F (globalIx2 T g c p)) ∧
    (¬ Inner2 T g p → (solve2 T g d st sol rhs s1 s2).2 c p = sol c p) := by
  obtain ⟨e1, e2, -, -, -, hY, hX⟩ := construct2_ok hT
  have := NeZero.pos T.gy
  have := NeZero.pos T.gx
  unfold solve2
  simp only
  have key := copyFrom2_correct (α := ℝ) hT hd hp g
    (fun G => ((idft (kern2 T) fun k => dft (kern2 T) (fun x => ((asm2 T (copyTo2 T g d rhs (fun _ _ => 0) s1) x : ℝ) : ℂ)) k * st.green k)
      ((G.1 : ZMod (2 * T.gy)), (G.2 : ZMod (2 * T.gx)))).re)
    (disasm2 T fun x => (idft (kern2 T) (fun k => dft (kern2 T) (fun x => ((asm2 T (copyTo2 T g d rhs (fun _ _ => 0) s1) x : ℝ) : ℂ)) k * st.green k) x).re)
    sol (fun c _ q _ => rfl) h2 (p := p) hc
  refine ⟨fun hI => ?_, key.2⟩
  rw [key.1 hI]
  obtain ⟨i1, i2, i3, i4⟩ := hI
  obtain ⟨c1, c2, c3, c4⟩ := hc
  have l1 := block_lt hY c2 (b := p.1 - g) (by omega)
  have l2 := block_lt hX c4 (b := p.2 - g) (by omega)
  have p1 : 0 ≤ c.1 * T.ny := mul_nonneg c1 (by omega)
  have p2 : 0 ≤ c.2 * T.nx := mul_nonneg c3 (by omega)
  have G1 : 0 ≤ (globalIx2 T g c p).1 ∧ (globalIx2 T g c p).1 < T.gy := by unfold globalIx2; simp only; omega
  have G2 : 0 ≤ (globalIx2 T g c p).2 ∧ (globalIx2 T g c p).2 < T.gx := by unfold globalIx2; simp only; omega
  generalize globalIx2 T g c p = G at G1 G2 ⊢
  have hgreen : ∀ k, st.green k = dft (kern2 T) (fun x =>
      ((greens2 (xr / T.gx) (min (x.1.val : ℤ) (2 * T.gy - x.1.val)) (min (x.2.val : ℤ) (2 * T.gx - x.2.val)) : ℝ) : ℂ)
        * (((xr / T.gx) ^ 2 : ℝ) : ℂ)) k := by
    intro k
    rw [hst]
    unfold solverInit2
    simp only
    rw [← dft_smul]
    congr 2
    funext x
    rw [greens2_assembled hY hX hxr]
  simp only [hgreen]
  rw [idft_mul]
  have hreal : ∀ y : Dbl2 T, (((asm2 T (copyTo2 T g d rhs (fun _ _ => 0) s1) y : ℝ) : ℂ) *
      (((greens2 (xr / T.gx) (min ((((G.1 : ZMod (2 * T.gy)), (G.2 : ZMod (2 * T.gx))) - y : Dbl2 T).1.val : ℤ)
          (2 * T.gy - (((G.1 : ZMod (2 * T.gy)), (G.2 : ZMod (2 * T.gx))) - y : Dbl2 T).1.val))
        (min ((((G.1 : ZMod (2 * T.gy)), (G.2 : ZMod (2 * T.gx))) - y : Dbl2 T).2.val : ℤ)
          (2 * T.gx - (((G.1 : ZMod (2 * T.gy)), (G.2 : ZMod (2 * T.gx))) - y : Dbl2 T).2.val)) : ℝ) : ℂ)
        * (((xr / T.gx) ^ 2 : ℝ) : ℂ)))
      = (((asm2 T (copyTo2 T g d rhs (fun _ _ => 0) s1) y : ℝ) *
      ((greens2 (xr / T.gx) (min ((((G.1 : ZMod (2 * T.gy)), (G.2 : ZMod (2 * T.gx))) - y : Dbl2 T).1.val : ℤ)
          (2 * T.gy - (((G.1 : ZMod (2 * T.gy)), (G.2 : ZMod (2 * T.gx))) - y : Dbl2 T).1.val))
        (min ((((G.1 : ZMod (2 * T.gy)), (G.2 : ZMod (2 * T.gx))) - y : Dbl2 T).2.val : ℤ)
          (2 * T.gx - (((G.1 : ZMod (2 * T.gy)), (G.2 : ZMod (2 * T.gx))) - y : Dbl2 T).2.val)) : ℝ)
        * ((xr / T.gx) ^ 2 : ℝ)) : ℝ) : ℂ) := by
    intro y; push_cast; ring
  rw [Finset.sum_congr rfl fun y _ => hreal y, ← Complex.ofReal_sum, Complex.ofReal_re]
  rw [Fintype.sum_prod_type, sum_zmod]
  have inner : ∀ i ∈ range (2 * T.gy), (∑ y : ZMod (2 * T.gx),
      asm2 T (copyTo2 T g d rhs (fun _ _ => 0) s1) ((i : ZMod (2 * T.gy)), y) *
      (greens2 (xr / T.gx) (min ((((G.1 : ZMod (2 * T.gy)), (G.2 : ZMod (2 * T.gx))) - ((i : ZMod (2 * T.gy)), y) : Dbl2 T).1.val : ℤ)
          (2 * T.gy - (((G.1 : ZMod (2 * T.gy)), (G.2 : ZMod (2 * T.gx))) - ((i : ZMod (2 * T.gy)), y) : Dbl2 T).1.val))
        (min ((((G.1 : ZMod (2 * T.gy)), (G.2 : ZMod (2 * T.gx))) - ((i : ZMod (2 * T.gy)), y) : Dbl2 T).2.val : ℤ)
          (2 * T.gx - (((G.1 : ZMod (2 * T.gy)), (G.2 : ZMod (2 * T.gx))) - ((i : ZMod (2 * T.gy)), y) : Dbl2 T).2.val))
        * (xr / T.gx) ^ 2))
      = if i < T.gy then ∑ j ∈ range T.gx, F (i, j) * greens2 (xr / T.gx) |G.1 - i| |G.2 - j| * (xr / T.gx) ^ 2 else 0 := by
    intro i hi
    rw [mem_range] at hi
    rw [sum_zmod]
    have hj : ∀ j ∈ range (2 * T.gx),
      asm2 T (copyTo2 T g d rhs (fun _ _ => 0) s1) ((i : ZMod (2 * T.gy)), (j : ZMod (2 * T.gx))) *
      (greens2 (xr / T.gx) (min ((((G.1 : ZMod (2 * T.gy)), (G.2 : ZMod (2 * T.gx))) - ((i : ZMod (2 * T.gy)), (j : ZMod (2 * T.gx))) : Dbl2 T).1.val : ℤ)
          (2 * T.gy - (((G.1 : ZMod (2 * T.gy)), (G.2 : ZMod (2 * T.gx))) - ((i : ZMod (2 * T.gy)), (j : ZMod (2 * T.gx))) : Dbl2 T).1.val))
        (min ((((G.1 : ZMod (2 * T.gy)), (G.2 : ZMod (2 * T.gx))) - ((i : ZMod (2 * T.gy)), (j : ZMod (2 * T.gx))) : Dbl2 T).2.val : ℤ)
          (2 * T.gx - (((G.1 : ZMod (2 * T.gy)), (G.2 : ZMod (2 * T.gx))) - ((i : ZMod (2 * T.gy)), (j : ZMod (2 * T.gx))) : Dbl2 T).2.val))
        * (xr / T.gx) ^ 2)
      = if i < T.gy ∧ j < T.gx then F (i, j) * greens2 (xr / T.gx) |G.1 - i| |G.2 - j| * (xr / T.gx) ^ 2 else 0 := by
      intro j hj
      rw [mem_range] at hj
      rw [asm2_zero_pad hT hd hp g F rhs hf h1]
      simp only [ZMod.val_cast_of_lt hi, ZMod.val_cast_of_lt hj]
      by_cases hij : i < T.gy ∧ j < T.gx
      · rw [if_pos hij, if_pos hij]
        have v1 : (((G.1 : ZMod (2 * T.gy)) - (i : ZMod (2 * T.gy))).val : ℤ) = (G.1 - i) % (2 * T.gy : ℕ) := by
          rw [← ZMod.val_intCast]; push_cast; rfl
        have v2 : (((G.2 : ZMod (2 * T.gx)) - (j : ZMod (2 * T.gx))).val : ℤ) = (G.2 - j) % (2 * T.gx : ℕ) := by
          rw [← ZMod.val_intCast]; push_cast; rfl
        have w1 : (((G.1 : ZMod (2 * T.gy)), (G.2 : ZMod (2 * T.gx))) - ((i : ZMod (2 * T.gy)), (j : ZMod (2 * T.gx))) : Dbl2 T).1
          = (G.1 : ZMod (2 * T.gy)) - (i : ZMod (2 * T.gy)) := rfl
        have w2 : (((G.1 : ZMod (2 * T.gy)), (G.2 : ZMod (2 * T.gx))) - ((i : ZMod (2 * T.gy)), (j : ZMod (2 * T.gx))) : Dbl2 T).2
          = (G.2 : ZMod (2 * T.gx)) - (j : ZMod (2 * T.gx)) := rfl
        rw [w1, w2, v1, v2, reflect_dist G1.1 G1.2 (by omega) (by omega), reflect_dist G2.1 G2.2 (by omega) (by omega)]
        ring
      · rw [if_neg hij, if_neg hij, zero_mul]
    rw [Finset.sum_congr rfl hj]
    by_cases hi' : i < T.gy
    · simp only [hi', true_and, if_true]
      rw [← Finset.sum_filter]
      congr 1
      ext j; simp only [mem_filter, mem_range]; omega
    · simp [hi']
  rw [Finset.sum_congr rfl inner, ← Finset.sum_filter]
  unfold freeSolution2
  rw [← e1, ← e2]
  congr 1
  ext j; simp only [mem_filter, mem_range]; omega

/-- A history of earlier solves with arbitrary right hand sides. -/
noncomputable def solveMany2 (T : Cart2) [NeZero T.gy] [NeZero T.gx] (g : ℕ) (d : Fin 2) (st : Solver2 T)
    (hist : List ((World C2 C2 ℝ × World C2 C2 ℝ) × (List Ev × List Ev))) : Solver2 T :=
  hist.foldl (fun st h => (solve2 T g d st h.1.1 h.1.2 h.2.1 h.2.2).1) st

/-- No history of solves changes the Green's function. -/
theorem solveMany2_green (g : ℕ) (d : Fin 2) (st : Solver2 T) (hist) :
    (solveMany2 T g d st hist).green = st.green := by
  unfold solveMany2
  induction hist generalizing st with
  | nil => rfl
  | cons h t ih => rw [List.foldl_cons, ih]; rfl

/-- C46: after any history of solves a solve returns what a fresh solver returns. -/
theorem solve2_history (hT : mkCart2 gy gx py px per = .ok T) {gn : PyNum} {d : Fin 2} (hd : doublingInit2 gn T = .ok d)
    (hp : per = false ∨ topo2 T d % 2 = 0) (g : ℕ) {xr : ℝ} (hxr : 0 < xr) (dbl0 dbl0' : World C2 C2 ℝ) (conv0 conv0' : Dbl2 T → ℂ)
    (hist : List ((World C2 C2 ℝ × World C2 C2 ℝ) × (List Ev × List Ev))) (F : C2 → ℝ) (sol sol' rhs rhs' : World C2 C2 ℝ)
    (hf : ∀ c, Valid2 T c → ∀ p, Inner2 T g p → rhs c p = F (globalIx2 T g c p))
    (hf' : ∀ c, Valid2 T c → ∀ p, Inner2 T g p → rhs' c p = F (globalIx2 T g c p))
    {s1 s2 s1' s2' : List Ev} (h1 : Complete (toMsgs2 T g d) s1) (h2 : Complete (fromMsgs2 T g d) s2)
    (h1' : Complete (toMsgs2 T g d) s1') (h2' : Complete (fromMsgs2 T g d) s2')
    {c p : C2} (hc : Valid2 T c) (hI : Inner2 T g p) :
    (solve2 T g d (solveMany2 T g d (solverInit2 T xr dbl0 conv0) hist) sol rhs s1 s2).2 c p
      = (solve2 T g d (solverInit2 T xr dbl0' conv0') sol' rhs' s1' s2').2 c p := by
  rw [(solve2_correct hT hd hp g hxr (dbl0 := dbl0) (conv0 := conv0) (solveMany2_green g d _ hist) F sol rhs hf h1 h2 hc).1 hI,
    (solve2_correct hT hd hp g hxr (dbl0 := dbl0') (conv0 := conv0') rfl F sol' rhs' hf' h1' h2' hc).1 hI]

end D2
end Sopht
