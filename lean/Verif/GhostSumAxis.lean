import Verif.CartLemmas
import Mathlib.Algebra.BigOperators.Group.Finset.Basic
import Mathlib.Algebra.BigOperators.Intervals
import Mathlib.Algebra.Group.Pi.Basic
import Mathlib.Algebra.Order.Group.Int
import Mathlib.Order.Interval.Finset.Basic
import Mathlib.Data.Int.Interval
import Mathlib.Tactic.Abel

/-! One-axis part of the ghost sum (helpers). -/

namespace Sopht

open Finset

variable {M N : Type} [AddCommMonoid M] [AddCommMonoid N]

/-- receive from the previous block: slab `[g, 2g)` gets the high ghosts of the previous block -/
def axP (P : ℕ) (per : Bool) (n g : ℕ) (h : ℤ → ℤ → M) (c i : ℤ) : M :=
  if (g : ℤ) ≤ i ∧ i < 2 * g then (match axisNbr P per c (-1) with | some b => h b (i + n) | none => 0) else 0

/-- receive from the next block: slab `[n, n + g)` gets the low ghosts of the next block -/
def axM (P : ℕ) (per : Bool) (n g : ℕ) (h : ℤ → ℤ → M) (c i : ℤ) : M :=
  if (n : ℤ) ≤ i ∧ i < n + g then (match axisNbr P per c 1 with | some b => h b (i - n) | none => 0) else 0

def opP (P : ℕ) (per : Bool) (n g : ℕ) (h : ℤ → ℤ → M) (c i : ℤ) : M := h c i + axP P per n g h c i
def opM (P : ℕ) (per : Bool) (n g : ℕ) (h : ℤ → ℤ → M) (c i : ℤ) : M := h c i + axM P per n g h c i

/-- contribution of the block in direction `d`: its value at the index that denotes the same cell -/
def contrib (P : ℕ) (per : Bool) (n g : ℕ) (h : ℤ → ℤ → M) (c i d : ℤ) : M :=
  match axisNbr P per c d with
  | some b => if 0 ≤ i - d * n ∧ i - d * n < n + 2 * g then h b (i - d * n) else 0
  | none => 0

theorem opM_map (P : ℕ) (per : Bool) (n g : ℕ) (Φ : M → N) (h0 : Φ 0 = 0) (hadd : ∀ x y, Φ (x + y) = Φ x + Φ y)
    (h : ℤ → ℤ → M) : opM P per n g (fun c i => Φ (h c i)) = fun c i => Φ (opM P per n g h c i) := by
  funext c i
  unfold opM axM
  rw [hadd]
  congr 1
  split
  · cases axisNbr P per c 1 <;> simp [h0]
  · exact h0.symm

theorem opP_zero (P : ℕ) (per : Bool) (n g : ℕ) : opP P per n g (0 : ℤ → ℤ → M) = 0 := by
  funext c i
  unfold opP axP
  split
  · cases axisNbr P per c (-1) <;> simp
  · simp

theorem opP_add (P : ℕ) (per : Bool) (n g : ℕ) (x y : ℤ → ℤ → M) :
    opP P per n g (x + y) = opP P per n g x + opP P per n g y := by
  funext c i
  unfold opP axP
  simp only [Pi.add_apply]
  split
  · cases axisNbr P per c (-1) with
    | none => simp
    | some b => simp only [Pi.add_apply]; abel
  · simp

theorem axis_sum {P : ℕ} {per : Bool} {n g : ℕ} (hg : g ≤ n) (h : ℤ → ℤ → M) {c i : ℤ} (hc : 0 ≤ c ∧ c < P)
    (hi : (g : ℤ) ≤ i ∧ i < g + n) :
    opM P per n g (opP P per n g h) c i =
      contrib P per n g h c i (-1) + contrib P per n g h c i 0 + contrib P per n g h c i 1 := by
  unfold opM axM
  have e0 : contrib P per n g h c i 0 = h c i := by
    unfold contrib
    rw [axisNbr_zero hc.1 hc.2]
    simp only [zero_mul, sub_zero]
    rw [if_pos (by omega)]
  have e1 : contrib P per n g h c i (-1) = axP P per n g h c i := by
    unfold contrib axP
    cases axisNbr P per c (-1) with
    | none => simp
    | some b =>
      simp only [neg_mul, one_mul, sub_neg_eq_add]
      by_cases hh : i < 2 * g
      · rw [if_pos (by omega), if_pos (by omega)]
      · rw [if_neg (by omega), if_neg (by omega)]
  rw [e0, e1]
  have e2 : (if (n : ℤ) ≤ i ∧ i < n + g then
      (match axisNbr P per c 1 with | some b => opP P per n g h b (i - n) | none => 0) else 0) =
      contrib P per n g h c i 1 := by
    unfold contrib
    cases axisNbr P per c 1 with
    | none => simp
    | some b =>
      simp only [one_mul]
      by_cases hh : (n : ℤ) ≤ i
      · rw [if_pos (by omega), if_pos (by omega)]
        unfold opP axP
        rw [if_neg (by omega), add_zero]
      · rw [if_neg (by omega), if_neg (by omega)]
  rw [e2]
  unfold opP
  abel

/-- Non-periodic: the three contributions are the sum over all blocks whose array contains the cell. -/
theorem axis_sum_global {P n g : ℕ} (hg : g ≤ n) (h : ℤ → ℤ → M) {c i : ℤ} (hc : 0 ≤ c ∧ c < P)
    (hi : (g : ℤ) ≤ i ∧ i < g + n) :
    contrib P false n g h c i (-1) + contrib P false n g h c i 0 + contrib P false n g h c i 1 =
      ∑ b ∈ Ico (0 : ℤ) P, if 0 ≤ (c - b) * n + i ∧ (c - b) * n + i < n + 2 * g then h b ((c - b) * n + i) else 0 := by
  obtain ⟨F, hF⟩ : ∃ F : ℤ → M, F = fun b : ℤ =>
      if 0 ≤ (c - b) * n + i ∧ (c - b) * n + i < n + 2 * g then h b ((c - b) * n + i) else 0 := ⟨_, rfl⟩
  have hgoal : (∑ b ∈ Ico (0 : ℤ) P,
      if 0 ≤ (c - b) * n + i ∧ (c - b) * n + i < n + 2 * g then h b ((c - b) * n + i) else 0) = ∑ b ∈ Ico (0 : ℤ) P, F b := by
    rw [hF]
  rw [hgoal]
  have hcon : ∀ d : ℤ, contrib P false n g h c i d = if c + d ∈ Ico (0 : ℤ) P then F (c + d) else 0 := by
    intro d
    unfold contrib axisNbr
    simp only [mem_Ico]
    by_cases hr : 0 ≤ c + d ∧ c + d < P
    · rw [if_pos hr, if_pos hr, hF]
      have : (c - (c + d)) * n + i = i - d * n := by ring
      simp only [this]
    · rw [if_neg hr, if_neg hr]; rfl
  rw [hcon, hcon, hcon]
  have hsub : ∀ b ∈ Ico (0 : ℤ) P, b ∉ ({c + -1, c + 0, c + 1} : Finset ℤ) → F b = 0 := by
    intro b hb hnb
    simp only [mem_insert, mem_singleton, not_or] at hnb
    rw [hF]
    simp only
    rw [if_neg]
    rintro ⟨h1, h2⟩
    have hn : (0 : ℤ) ≤ n := Int.natCast_nonneg _
    rcases lt_trichotomy b c with hlt | heq | hgt
    · have : 2 ≤ c - b := by omega
      nlinarith
    · omega
    · have : c - b ≤ -2 := by omega
      nlinarith
  have : ∑ b ∈ Ico (0 : ℤ) P, F b = ∑ b ∈ ({c + -1, c + 0, c + 1} : Finset ℤ), if b ∈ Ico (0 : ℤ) P then F b else 0 := by
    rw [← Finset.sum_filter]
    symm
    apply Finset.sum_subset
    · intro b hb
      rw [mem_filter] at hb; exact hb.2
    · intro b hb hnb
      apply hsub b hb
      intro hmem
      exact hnb (mem_filter.2 ⟨hmem, hb⟩)
  rw [this, sum_insert (by simp), sum_insert (by simp), sum_singleton]
  abel

theorem sum_shift (P : ℕ) (per : Bool) (d : ℤ) (hd : d = -1 ∨ d = 1) (u : ℤ → M) :
    (∑ c ∈ Ico (0 : ℤ) P, match axisNbr P per c d with | some b => u b | none => 0) =
      ∑ b ∈ Ico (0 : ℤ) P, if per = true ∨ (0 ≤ b - d ∧ b - d < P) then u b else 0 := by
  have hmatch : ∀ c, (match axisNbr P per c d with | some b => u b | none => 0) =
      if per = true ∨ (0 ≤ c + d ∧ c + d < P) then u (if per then (c + d) % P else c + d) else 0 := by
    intro c
    rw [axisNbr_eq]
    cases per
    · simp only [Bool.false_eq_true, if_false, false_or]
      by_cases hh : 0 ≤ c + d ∧ c + d < (P : ℤ)
      · rw [if_pos hh, if_pos hh]
      · rw [if_neg hh, if_neg hh]
    · simp
  simp only [hmatch]
  rw [← Finset.sum_filter, ← Finset.sum_filter]
  apply Finset.sum_bij' (fun c _ => if per then (c + d) % P else c + d) (fun b _ => if per then (b - d) % P else b - d)
  · intro c hc
    rw [mem_filter, mem_Ico] at hc ⊢
    cases per
    · simp at hc ⊢; omega
    · simp at hc ⊢
      exact ⟨Int.emod_nonneg _ (by omega), Int.emod_lt_of_pos _ (by omega)⟩
  · intro b hb
    rw [mem_filter, mem_Ico] at hb ⊢
    cases per
    · simp at hb ⊢; omega
    · simp at hb ⊢
      exact ⟨Int.emod_nonneg _ (by omega), Int.emod_lt_of_pos _ (by omega)⟩
  · intro c hc
    rw [mem_filter, mem_Ico] at hc
    cases per
    · simp
    · simp only [if_true]
      rw [Int.emod_sub_emod, add_sub_cancel_right, Int.emod_eq_of_lt hc.1.1 hc.1.2]
  · intro b hb
    rw [mem_filter, mem_Ico] at hb
    cases per
    · simp
    · simp only [if_true]
      rw [Int.emod_add_emod, sub_add_cancel, Int.emod_eq_of_lt hb.1.1 hb.1.2]
  · intro c hc; rfl

/-- Total over one axis: every cell that is not beyond a physical boundary is counted exactly once. -/
theorem axis_total {P : ℕ} {per : Bool} {n g : ℕ} (hg : g ≤ n) (h : ℤ → ℤ → M) :
    (∑ c ∈ Ico (0 : ℤ) P, ∑ i ∈ Ico (g : ℤ) (g + n),
      (contrib P per n g h c i (-1) + contrib P per n g h c i 0 + contrib P per n g h c i 1)) =
    ∑ c ∈ Ico (0 : ℤ) P, ∑ i ∈ Ico (0 : ℤ) (n + 2 * g),
      if per = true ∨ (0 ≤ c * n + i - g ∧ c * n + i - g < P * n) then h c i else 0 := by
  simp only [sum_add_distrib]
  -- split the right-hand side along the axis
  have hsplit : ∀ u : ℤ → M, (∑ i ∈ Ico (0 : ℤ) (n + 2 * g), u i) =
      (∑ i ∈ Ico (0 : ℤ) g, u i) + (∑ i ∈ Ico (g : ℤ) (g + n), u i) + ∑ i ∈ Ico ((g : ℤ) + n) (n + 2 * g), u i := by
    intro u
    have h1 : Ico (0 : ℤ) (n + 2 * g) = (Ico (0 : ℤ) g ∪ Ico (g : ℤ) (g + n)) ∪ Ico ((g : ℤ) + n) (n + 2 * g) := by
      ext i; simp only [mem_union, mem_Ico]; omega
    rw [h1, sum_union, sum_union]
    · rw [Finset.disjoint_left]; intro i hi hj; rw [mem_Ico] at hi hj; omega
    · rw [Finset.disjoint_left]; intro i hi hj; rw [mem_union, mem_Ico, mem_Ico] at hi; rw [mem_Ico] at hj; omega
  have hre : ∀ (a b s : ℤ) (u : ℤ → M), ∑ i ∈ Ico a b, u (i + s) = ∑ i ∈ Ico (a + s) (b + s), u i := by
    intro a b s u
    apply Finset.sum_bij' (fun i _ => i + s) (fun i _ => i - s)
    · intro i hi; rw [mem_Ico] at hi ⊢; omega
    · intro i hi; rw [mem_Ico] at hi ⊢; omega
    · intro i _; ring
    · intro i _; ring
    · intro i _; rfl
  -- middle
  have e0 : (∑ c ∈ Ico (0 : ℤ) P, ∑ i ∈ Ico (g : ℤ) (g + n), contrib P per n g h c i 0) =
      ∑ c ∈ Ico (0 : ℤ) P, ∑ i ∈ Ico (g : ℤ) (g + n), h c i := by
    apply sum_congr rfl; intro c hc
    apply sum_congr rfl; intro i hi
    rw [mem_Ico] at hc hi
    unfold contrib
    rw [axisNbr_zero hc.1 hc.2]
    simp only [zero_mul, sub_zero]
    rw [if_pos (by omega)]
  -- from the previous block
  have e1 : (∑ c ∈ Ico (0 : ℤ) P, ∑ i ∈ Ico (g : ℤ) (g + n), contrib P per n g h c i (-1)) =
      ∑ b ∈ Ico (0 : ℤ) P, if per = true ∨ b + 1 < P then ∑ i ∈ Ico ((g : ℤ) + n) (n + 2 * g), h b i else 0 := by
    have : ∀ c, (∑ i ∈ Ico (g : ℤ) (g + n), contrib P per n g h c i (-1)) =
        match axisNbr P per c (-1) with | some b => ∑ i ∈ Ico ((g : ℤ) + n) (n + 2 * g), h b i | none => 0 := by
      intro c
      unfold contrib
      cases axisNbr P per c (-1) with
      | none => simp
      | some b =>
        simp only [neg_mul, one_mul, sub_neg_eq_add]
        have := hre g (2 * g) n (fun i => h b i)
        rw [show (2 : ℤ) * g + n = n + 2 * g by ring] at this
        rw [← this, ← Finset.sum_filter]
        apply sum_congr _ (fun _ _ => rfl)
        ext i; simp only [mem_filter, mem_Ico]; omega
    simp only [this]
    rw [sum_shift P per (-1) (Or.inl rfl) (fun b => ∑ i ∈ Ico ((g : ℤ) + n) (n + 2 * g), h b i)]
    apply sum_congr rfl; intro b hb
    rw [mem_Ico] at hb
    have : (per = true ∨ (0 ≤ b - -1 ∧ b - -1 < (P : ℤ))) ↔ (per = true ∨ b + 1 < (P : ℤ)) := by
      constructor
      · rintro (h | h)
        · exact Or.inl h
        · right; omega
      · rintro (h | h)
        · exact Or.inl h
        · right; omega
    simp only [this]
  have e2 : (∑ c ∈ Ico (0 : ℤ) P, ∑ i ∈ Ico (g : ℤ) (g + n), contrib P per n g h c i 1) =
      ∑ b ∈ Ico (0 : ℤ) P, if per = true ∨ 0 ≤ b - 1 then ∑ i ∈ Ico (0 : ℤ) g, h b i else 0 := by
    have : ∀ c, (∑ i ∈ Ico (g : ℤ) (g + n), contrib P per n g h c i 1) =
        match axisNbr P per c 1 with | some b => ∑ i ∈ Ico (0 : ℤ) g, h b i | none => 0 := by
      intro c
      unfold contrib
      cases axisNbr P per c 1 with
      | none => simp
      | some b =>
        simp only [one_mul]
        have := hre n (n + g) (-n) (fun i => h b i)
        rw [show (n : ℤ) + -n = 0 by ring, show (n : ℤ) + g + -n = g by ring] at this
        rw [← this, ← Finset.sum_filter]
        apply sum_congr _ (fun _ _ => rfl)
        ext i; simp only [mem_filter, mem_Ico]; omega
    simp only [this]
    rw [sum_shift P per 1 (Or.inr rfl) (fun b => ∑ i ∈ Ico (0 : ℤ) g, h b i)]
    apply sum_congr rfl; intro b hb
    rw [mem_Ico] at hb
    have : (per = true ∨ (0 ≤ b - 1 ∧ b - 1 < (P : ℤ))) ↔ (per = true ∨ 0 ≤ b - 1) := by
      constructor
      · rintro (h | h)
        · exact Or.inl h
        · right; omega
      · rintro (h | h)
        · exact Or.inl h
        · right; omega
    simp only [this]
  rw [e0, e1, e2, ← sum_add_distrib, ← sum_add_distrib]
  apply sum_congr rfl; intro c hc
  rw [mem_Ico] at hc
  rw [hsplit]
  have hn : (0 : ℤ) ≤ n := Int.natCast_nonneg _
  have f0 : (∑ i ∈ Ico (g : ℤ) (g + n), if per = true ∨ (0 ≤ c * n + i - g ∧ c * n + i - g < P * n) then h c i else 0) =
      ∑ i ∈ Ico (g : ℤ) (g + n), h c i := by
    apply sum_congr rfl; intro i hi
    rw [mem_Ico] at hi
    rw [if_pos]
    right
    constructor
    · nlinarith
    · have : c + 1 ≤ P := by omega
      nlinarith
  have f1 : (∑ i ∈ Ico ((g : ℤ) + n) (n + 2 * g), if per = true ∨ (0 ≤ c * n + i - g ∧ c * n + i - g < P * n) then h c i else 0) =
      if per = true ∨ c + 1 < P then ∑ i ∈ Ico ((g : ℤ) + n) (n + 2 * g), h c i else 0 := by
    split
    · rename_i hcond
      apply sum_congr rfl; intro i hi
      rw [mem_Ico] at hi
      rw [if_pos]
      rcases hcond with hp | hp
      · exact Or.inl hp
      · right
        constructor
        · nlinarith
        · have : c + 2 ≤ P := by omega
          nlinarith
    · rename_i hcond
      apply sum_eq_zero; intro i hi
      rw [mem_Ico] at hi
      rw [if_neg]
      rintro (hp | ⟨h1, h2⟩)
      · exact hcond (Or.inl hp)
      · have : (P : ℤ) ≤ c + 1 := by by_contra hh; exact hcond (Or.inr (by omega))
        nlinarith
  have f2 : (∑ i ∈ Ico (0 : ℤ) g, if per = true ∨ (0 ≤ c * n + i - g ∧ c * n + i - g < P * n) then h c i else 0) =
      if per = true ∨ 0 ≤ c - 1 then ∑ i ∈ Ico (0 : ℤ) g, h c i else 0 := by
    split
    · rename_i hcond
      apply sum_congr rfl; intro i hi
      rw [mem_Ico] at hi
      rw [if_pos]
      rcases hcond with hp | hp
      · exact Or.inl hp
      · right
        constructor
        · nlinarith
        · have : c + 1 ≤ P := by omega
          nlinarith
    · rename_i hcond
      apply sum_eq_zero; intro i hi
      rw [mem_Ico] at hi
      rw [if_neg]
      rintro (hp | ⟨h1, h2⟩)
      · exact hcond (Or.inl hp)
      · have : c ≤ 0 := by by_contra hh; exact hcond (Or.inr (by omega))
        nlinarith
  rw [f0, f1, f2]
  abel

end Sopht
