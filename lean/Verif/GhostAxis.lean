import Verif.CartLemmas

/-! One-axis facts about the send and receive regions of a ghost exchange (helpers). -/

namespace Sopht

/-- start of the region sent in direction `s` along one axis -/
def axSend (n g : ℕ) (s : ℤ) : ℤ := if s = 1 then n else g
/-- start of the region received from direction `-s` along one axis -/
def axRecv (n g : ℕ) (s : ℤ) : ℤ := if s = 1 then 0 else if s = -1 then g + n else g
/-- extent along one axis of the message in direction `s` -/
def axCnt (n g : ℕ) (s : ℤ) : ℕ := if s = 0 then n else g

/-- `s` is -1, 0 or 1 -/
def Dir1 (s : ℤ) : Prop := s = -1 ∨ s = 0 ∨ s = 1

theorem axRecv_zone {n g : ℕ} {s r : ℤ} (hs : Dir1 s) (h0 : 0 ≤ r) (h1 : r < axCnt n g s) :
    zone g n (axRecv n g s + r) = -s := by
  rcases hs with rfl | rfl | rfl <;> simp [axRecv, axCnt, zone] at * <;> omega

theorem axSend_inner {n g : ℕ} (hng : g ≤ n) {s r : ℤ} (hs : Dir1 s) (h0 : 0 ≤ r) (h1 : r < axCnt n g s) :
    g ≤ axSend n g s + r ∧ axSend n g s + r < g + n := by
  rcases hs with rfl | rfl | rfl <;> simp [axSend, axCnt] at * <;> omega

theorem axSend_zone {n g : ℕ} (hng : g ≤ n) {s r : ℤ} (hs : Dir1 s) (h0 : 0 ≤ r) (h1 : r < axCnt n g s) :
    zone g n (axSend n g s + r) = 0 := by
  have := axSend_inner hng hs h0 h1
  unfold zone
  rw [if_neg (by omega), if_pos (by omega)]

theorem axSend_eq {n g : ℕ} {s : ℤ} (hs : Dir1 s) : axSend n g s = axRecv n g s + s * n := by
  rcases hs with rfl | rfl | rfl <;> simp [axSend, axRecv]

theorem axRecv_range {n g : ℕ} {s r : ℤ} (hs : Dir1 s) (h0 : 0 ≤ r) (h1 : r < axCnt n g s) :
    0 ≤ axRecv n g s + r ∧ axRecv n g s + r < n + 2 * g := by
  rcases hs with rfl | rfl | rfl <;> simp [axRecv, axCnt] at * <;> omega

theorem axSend_range {n g : ℕ} {s r : ℤ} (hs : Dir1 s) (h0 : 0 ≤ r) (h1 : r < axCnt n g s) :
    0 ≤ axSend n g s + r ∧ axSend n g s + r < n + 2 * g := by
  rcases hs with rfl | rfl | rfl <;> simp [axSend, axCnt] at * <;> omega

theorem zone_dir (g n i : ℤ) : Dir1 (zone g n i) := by
  unfold zone Dir1; split
  · simp
  · split <;> simp

/-- every index in range is received by the message whose direction is opposite to its zone -/
theorem axRecv_cover {n g : ℕ} {i : ℤ} (h0 : 0 ≤ i) (h1 : i < n + 2 * g) :
    0 ≤ i - axRecv n g (-(zone g n i)) ∧ i - axRecv n g (-(zone g n i)) < axCnt n g (-(zone g n i)) := by
  unfold zone
  split
  · simp [axRecv, axCnt]; omega
  · split
    · simp [axRecv, axCnt]; omega
    · simp [axRecv, axCnt]; omega

theorem zone_zero_iff {g n : ℕ} {i : ℤ} : zone g n i = 0 ↔ (g : ℤ) ≤ i ∧ i < g + n := by
  unfold zone; split
  · simp; omega
  · split <;> simp <;> omega

/-- along one axis: a ghost index inside the global domain belongs to an existing neighbour, at an inner index of it -/
theorem axis_window {P n g : ℕ} (hng : g ≤ n) {c i : ℤ} (hc0 : 0 ≤ c) (hc1 : c < P)
    (hi0 : 0 ≤ i) (hi1 : i < n + 2 * g) :
    (0 ≤ c * n + i - g → c * n + i - g < (P * n : ℕ) →
      axisNbr P false c (zone g n i) = some (c + zone g n i)) ∧
    (g ≤ i - zone g n i * n ∧ i - zone g n i * n < g + n) ∧
    ((c + zone g n i) % P * n + (i - zone g n i * n) - g = (c * n + i - g) % (P * n : ℕ)) := by
  have hin : (g : ℤ) ≤ i - zone g n i * n ∧ i - zone g n i * n < g + n := by
    unfold zone; split
    · constructor <;> omega
    · split
      · simp; omega
      · constructor <;> omega
  refine ⟨?_, hin, ?_⟩
  · intro h0 h1
    push_cast at h1
    unfold axisNbr
    rw [if_pos]
    have e : c * n + i - g = (c + zone g n i) * n + (i - zone g n i * n - g) := by ring
    rw [e] at h0 h1
    have hn : (0 : ℤ) ≤ n := Int.natCast_nonneg _
    constructor
    · by_contra hneg
      have : c + zone g n i + 1 ≤ 0 := by omega
      nlinarith
    · by_contra hneg
      have : (P : ℤ) ≤ c + zone g n i := by omega
      nlinarith
  · have hP : (0 : ℤ) < P := by omega
    set d := (c + zone g n i) % P with hd
    have d0 : 0 ≤ d := Int.emod_nonneg _ hP.ne'
    have d1 : d < P := Int.emod_lt_of_pos _ hP
    have e := Int.mul_ediv_add_emod (c + zone g n i) P
    symm
    have e2 : c * n + i - g = (d * n + (i - zone g n i * n) - g) + (P * n : ℕ) * ((c + zone g n i) / P) := by
      push_cast
      have : d = c + zone g n i - P * ((c + zone g n i) / P) := by omega
      rw [this]; ring
    rw [e2, Int.add_mul_emod_self_left, Int.emod_eq_of_lt]
    · nlinarith
    · push_cast; nlinarith

end Sopht
