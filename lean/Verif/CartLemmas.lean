import Verif.Spec
import Mathlib.Tactic.Ring
import Mathlib.Algebra.Order.Group.Unbundled.Int

/-! Helper lemmas about topologies. -/

namespace Sopht

theorem mem_irange {n : ℕ} {x : ℤ} : x ∈ irange n ↔ 0 ≤ x ∧ x < n := by
  unfold irange
  simp only [List.mem_map, List.mem_range]
  constructor
  · rintro ⟨k, hk, rfl⟩; omega
  · rintro ⟨h0, h1⟩; exact ⟨x.toNat, by omega, by omega⟩

theorem length_irange (n : ℕ) : (irange n).length = n := by simp [irange]

theorem mem_ranks2 {T : Cart2} {c : C2} : c ∈ ranks2 T ↔ Valid2 T c := by
  unfold ranks2 Valid2
  simp only [List.mem_flatMap, List.mem_map, mem_irange]
  constructor
  · rintro ⟨a, ha, b, hb, rfl⟩; simp; omega
  · intro h; exact ⟨c.1, by omega, c.2, by omega, rfl⟩

theorem mem_ranks3 {T : Cart3} {c : C3} : c ∈ ranks3 T ↔ Valid3 T c := by
  unfold ranks3 Valid3
  simp only [List.mem_flatMap, List.mem_map, mem_irange]
  constructor
  · rintro ⟨a, ha, b, hb, d, hd, rfl⟩; simp; omega
  · intro h; exact ⟨c.1, by omega, c.2.1, by omega, c.2.2, by omega, rfl⟩

/-- Uniform description: in the periodic case the neighbour is always the wrapped coordinate. -/
theorem axisNbr_eq (P : ℕ) (per : Bool) (c s : ℤ) :
    axisNbr P per c s = if per then some ((c + s) % P) else if 0 ≤ c + s ∧ c + s < P then some (c + s) else none := by
  unfold axisNbr
  cases per
  · simp
  · simp only [if_true]
    split
    · rename_i h; rw [Int.emod_eq_of_lt h.1 h.2]
    · rfl

theorem axisNbr_range {P : ℕ} (hP : 0 < P) {per : Bool} {c s d : ℤ} (h : axisNbr P per c s = some d) :
    0 ≤ d ∧ d < P := by
  rw [axisNbr_eq] at h
  cases per
  · simp only [Bool.false_eq_true, if_false] at h
    split at h
    · rename_i hh; cases h; exact hh
    · cases h
  · simp only [if_true, Option.some.injEq] at h
    have h1 : (0 : ℤ) < P := by exact_mod_cast hP
    rw [← h]
    exact ⟨Int.emod_nonneg _ (by omega), Int.emod_lt_of_pos _ h1⟩

theorem axisNbr_zero {P : ℕ} {per : Bool} {c : ℤ} (h0 : 0 ≤ c) (h1 : c < P) : axisNbr P per c 0 = some c := by
  unfold axisNbr
  simp [h0, h1]

/-- Neighbour relations are mirrored by the opposite shift. -/
theorem axisNbr_symm {P : ℕ} {per : Bool} {c d s : ℤ} (hc : 0 ≤ c ∧ c < P) (hd : 0 ≤ d ∧ d < P) :
    axisNbr P per c s = some d ↔ axisNbr P per d (-s) = some c := by
  rw [axisNbr_eq, axisNbr_eq]
  cases per
  · simp only [Bool.false_eq_true, if_false]
    constructor
    · intro h
      split at h
      · cases h
        rw [if_pos (by omega)]
        congr 1; omega
      · cases h
    · intro h
      split at h
      · cases h
        rw [if_pos (by omega)]
        congr 1; omega
      · cases h
  · simp only [if_true, Option.some.injEq]
    constructor
    · intro h
      rw [← h, ← sub_eq_add_neg, Int.emod_sub_emod]
      simp only [add_sub_cancel_right]
      exact Int.emod_eq_of_lt hc.1 hc.2
    · intro h
      rw [← h, Int.emod_add_emod]
      simp only [neg_add_cancel_right]
      exact Int.emod_eq_of_lt hd.1 hd.2

theorem nbr2_eq_some {T : Cart2} {c s d : C2} :
    nbr2 T c s = some d ↔ axisNbr T.py T.per c.1 s.1 = some d.1 ∧ axisNbr T.px T.per c.2 s.2 = some d.2 := by
  unfold nbr2
  cases h1 : axisNbr T.py T.per c.1 s.1 <;> cases h2 : axisNbr T.px T.per c.2 s.2 <;> simp [Prod.ext_iff]

theorem nbr3_eq_some {T : Cart3} {c s d : C3} :
    nbr3 T c s = some d ↔ axisNbr T.pz T.per c.1 s.1 = some d.1 ∧ axisNbr T.py T.per c.2.1 s.2.1 = some d.2.1 ∧
      axisNbr T.px T.per c.2.2 s.2.2 = some d.2.2 := by
  unfold nbr3
  cases h1 : axisNbr T.pz T.per c.1 s.1 <;> cases h2 : axisNbr T.py T.per c.2.1 s.2.1 <;>
    cases h3 : axisNbr T.px T.per c.2.2 s.2.2 <;> simp [Prod.ext_iff]

theorem nbr2_symm {T : Cart2} {c d s : C2} (hc : Valid2 T c) (hd : Valid2 T d) :
    nbr2 T c s = some d ↔ nbr2 T d (-s.1, -s.2) = some c := by
  unfold Valid2 at hc hd
  rw [nbr2_eq_some, nbr2_eq_some]
  exact and_congr (axisNbr_symm (by omega) (by omega)) (axisNbr_symm (by omega) (by omega))

theorem nbr3_symm {T : Cart3} {c d s : C3} (hc : Valid3 T c) (hd : Valid3 T d) :
    nbr3 T c s = some d ↔ nbr3 T d (-s.1, -s.2.1, -s.2.2) = some c := by
  unfold Valid3 at hc hd
  rw [nbr3_eq_some, nbr3_eq_some]
  exact and_congr (axisNbr_symm (by omega) (by omega))
    (and_congr (axisNbr_symm (by omega) (by omega)) (axisNbr_symm (by omega) (by omega)))

theorem nbr2_valid {T : Cart2} (hy : 0 < T.py) (hx : 0 < T.px) {c s d : C2} (h : nbr2 T c s = some d) :
    Valid2 T d := by
  rw [nbr2_eq_some] at h
  have h1 := axisNbr_range hy h.1
  have h2 := axisNbr_range hx h.2
  exact ⟨h1.1, h1.2, h2.1, h2.2⟩

theorem nbr3_valid {T : Cart3} (hz : 0 < T.pz) (hy : 0 < T.py) (hx : 0 < T.px) {c s d : C3}
    (h : nbr3 T c s = some d) : Valid3 T d := by
  rw [nbr3_eq_some] at h
  have h1 := axisNbr_range hz h.1
  have h2 := axisNbr_range hy h.2.1
  have h3 := axisNbr_range hx h.2.2
  exact ⟨h1.1, h1.2, h2.1, h2.2, h3.1, h3.2⟩

theorem Valid2.pos {T : Cart2} {c : C2} (h : Valid2 T c) : 0 < T.py ∧ 0 < T.px := by
  unfold Valid2 at h; omega

theorem Valid3.pos {T : Cart3} {c : C3} (h : Valid3 T c) : 0 < T.pz ∧ 0 < T.py ∧ 0 < T.px := by
  unfold Valid3 at h; omega

theorem prevY2_eq {T : Cart2} {c : C2} (hc : Valid2 T c) : prevY2 T c = nbr2 T c (-1, 0) := by
  unfold Valid2 at hc
  unfold prevY2 nbr2
  rw [axisNbr_zero (by omega) (by omega)]
  cases axisNbr T.py T.per c.1 (-1) <;> rfl

theorem nextY2_eq {T : Cart2} {c : C2} (hc : Valid2 T c) : nextY2 T c = nbr2 T c (1, 0) := by
  unfold Valid2 at hc
  unfold nextY2 nbr2
  rw [axisNbr_zero (by omega) (by omega)]
  cases axisNbr T.py T.per c.1 1 <;> rfl

theorem prevX2_eq {T : Cart2} {c : C2} (hc : Valid2 T c) : prevX2 T c = nbr2 T c (0, -1) := by
  unfold Valid2 at hc
  unfold prevX2 nbr2
  rw [axisNbr_zero (by omega) (by omega)]
  cases axisNbr T.px T.per c.2 (-1) <;> rfl

theorem nextX2_eq {T : Cart2} {c : C2} (hc : Valid2 T c) : nextX2 T c = nbr2 T c (0, 1) := by
  unfold Valid2 at hc
  unfold nextX2 nbr2
  rw [axisNbr_zero (by omega) (by omega)]
  cases axisNbr T.px T.per c.2 1 <;> rfl

theorem diag2_eq (T : Cart2) (c s : C2) : diag2 T c s = nbr2 T c s := by
  unfold diag2 nbr2
  rw [axisNbr_eq, axisNbr_eq]
  cases T.per
  · simp only [true_and, Bool.false_eq_true, if_false]
    by_cases h1 : 0 ≤ c.1 + s.1 ∧ c.1 + s.1 < T.py
    · by_cases h2 : 0 ≤ c.2 + s.2 ∧ c.2 + s.2 < T.px
      · rw [if_pos h1, if_pos h2, if_neg (by omega)]
      · rw [if_pos h1, if_neg h2, if_pos (by omega)]
    · rw [if_neg h1, if_pos (by omega)]
  · simp

theorem prevZ3_eq {T : Cart3} {c : C3} (hc : Valid3 T c) : prevZ3 T c = nbr3 T c (-1, 0, 0) := by
  unfold Valid3 at hc
  unfold prevZ3 nbr3
  rw [axisNbr_zero (by omega) (by omega), axisNbr_zero (by omega) (by omega)]
  cases axisNbr T.pz T.per c.1 (-1) <;> rfl

theorem nextZ3_eq {T : Cart3} {c : C3} (hc : Valid3 T c) : nextZ3 T c = nbr3 T c (1, 0, 0) := by
  unfold Valid3 at hc
  unfold nextZ3 nbr3
  rw [axisNbr_zero (by omega) (by omega), axisNbr_zero (by omega) (by omega)]
  cases axisNbr T.pz T.per c.1 1 <;> rfl

theorem prevY3_eq {T : Cart3} {c : C3} (hc : Valid3 T c) : prevY3 T c = nbr3 T c (0, -1, 0) := by
  unfold Valid3 at hc
  unfold prevY3 nbr3
  rw [axisNbr_zero (c := c.1) (by omega) (by omega), axisNbr_zero (c := c.2.2) (by omega) (by omega)]
  cases axisNbr T.py T.per c.2.1 (-1) <;> rfl

theorem nextY3_eq {T : Cart3} {c : C3} (hc : Valid3 T c) : nextY3 T c = nbr3 T c (0, 1, 0) := by
  unfold Valid3 at hc
  unfold nextY3 nbr3
  rw [axisNbr_zero (c := c.1) (by omega) (by omega), axisNbr_zero (c := c.2.2) (by omega) (by omega)]
  cases axisNbr T.py T.per c.2.1 1 <;> rfl

theorem prevX3_eq {T : Cart3} {c : C3} (hc : Valid3 T c) : prevX3 T c = nbr3 T c (0, 0, -1) := by
  unfold Valid3 at hc
  unfold prevX3 nbr3
  rw [axisNbr_zero (c := c.1) (by omega) (by omega), axisNbr_zero (c := c.2.1) (by omega) (by omega)]
  cases axisNbr T.px T.per c.2.2 (-1) <;> rfl

theorem nextX3_eq {T : Cart3} {c : C3} (hc : Valid3 T c) : nextX3 T c = nbr3 T c (0, 0, 1) := by
  unfold Valid3 at hc
  unfold nextX3 nbr3
  rw [axisNbr_zero (c := c.1) (by omega) (by omega), axisNbr_zero (c := c.2.1) (by omega) (by omega)]
  cases axisNbr T.px T.per c.2.2 1 <;> rfl

theorem diag3_eq (T : Cart3) (c s : C3) : diag3 T c s = nbr3 T c s := by
  unfold diag3 nbr3
  rw [axisNbr_eq, axisNbr_eq, axisNbr_eq]
  cases T.per
  · simp only [true_and, Bool.false_eq_true, if_false]
    by_cases h1 : 0 ≤ c.1 + s.1 ∧ c.1 + s.1 < T.pz
    · by_cases h2 : 0 ≤ c.2.1 + s.2.1 ∧ c.2.1 + s.2.1 < T.py
      · by_cases h3 : 0 ≤ c.2.2 + s.2.2 ∧ c.2.2 + s.2.2 < T.px
        · rw [if_pos h1, if_pos h2, if_pos h3, if_neg (by omega)]
        · rw [if_pos h1, if_pos h2, if_neg h3, if_pos (by omega)]
      · rw [if_pos h1, if_neg h2, if_pos (by omega)]
        
    · rw [if_neg h1, if_pos (by omega)]
  · simp

end Sopht
