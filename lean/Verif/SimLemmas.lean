import Verif.Sim2D
import Verif.WeightsProps
import Verif.PenaliseProps
import Verif.PoissonProps
import Mathlib.Order.Bounds.Basic

/-! Helpers for the simulator properties: reductions, coordinates. -/

namespace Sopht

/-! ## Reductions -/

theorem foldl_max_ge (l : List ℝ) (a : ℝ) : a ≤ l.foldl max a ∧ (∀ x ∈ l, x ≤ l.foldl max a) ∧ (l.foldl max a = a ∨ l.foldl max a ∈ l) := by
  induction l generalizing a with
  | nil => exact ⟨le_rfl, by simp, Or.inl rfl⟩
  | cons b l ih =>
    rw [List.foldl_cons]
    obtain ⟨h1, h2, h3⟩ := ih (max a b)
    refine ⟨(le_max_left _ _).trans h1, ?_, ?_⟩
    · intro x hx
      rcases List.mem_cons.1 hx with rfl | hx
      · exact (le_max_right _ _).trans h1
      · exact h2 x hx
    · rcases h3 with h3 | h3
      · rcases max_choice a b with h | h
        · left; rw [h3, h]
        · right; rw [h3, h]; exact List.mem_cons_self
      · right; exact List.mem_cons_of_mem _ h3

theorem foldl_min_le (l : List ℝ) (a : ℝ) : l.foldl min a ≤ a ∧ (∀ x ∈ l, l.foldl min a ≤ x) ∧ (l.foldl min a = a ∨ l.foldl min a ∈ l) := by
  induction l generalizing a with
  | nil => exact ⟨le_rfl, by simp, Or.inl rfl⟩
  | cons b l ih =>
    rw [List.foldl_cons]
    obtain ⟨h1, h2, h3⟩ := ih (min a b)
    refine ⟨h1.trans (min_le_left _ _), ?_, ?_⟩
    · intro x hx
      rcases List.mem_cons.1 hx with rfl | hx
      · exact h1.trans (min_le_right _ _)
      · exact h2 x hx
    · rcases h3 with h3 | h3
      · rcases min_choice a b with h | h
        · left; rw [h3, h]
        · right; rw [h3, h]; exact List.mem_cons_self
      · right; exact List.mem_cons_of_mem _ h3

/-- the maximum of a non-empty array -/
theorem amax_ok {l : List ℝ} (h : l ≠ []) : ∃ m, amax l = .ok m ∧ IsGreatest {x | x ∈ l} m := by
  cases l with
  | nil => exact absurd rfl h
  | cons a l =>
    obtain ⟨h1, h2, h3⟩ := foldl_max_ge l a
    refine ⟨_, rfl, ?_, ?_⟩
    · rcases h3 with h3 | h3
      · rw [h3]; exact List.mem_cons_self
      · exact List.mem_cons_of_mem _ h3
    · intro x hx
      rcases List.mem_cons.1 hx with rfl | hx
      · exact h1
      · exact h2 x hx

theorem mapM_okR {R α : Type} {rs : List R} {x : R → Except PyErr α} {y : R → α} (h : ∀ r ∈ rs, x r = .ok (y r)) : rs.mapM x = .ok (rs.map y) := by
  induction rs with
  | nil => rfl
  | cons r rs ih =>
    rw [List.mapM_cons, h r List.mem_cons_self, ih fun q hq => h q (List.mem_cons_of_mem _ hq)]
    rfl

/-- if every rank fails with `e`, so does the call -/
theorem allreduce_error {R : Type} {op : ℝ → ℝ → ℝ} {rs : List R} (hne : rs ≠ []) {x : R → Except PyErr ℝ} {e : PyErr}
    (h : ∀ r ∈ rs, x r = .error e) : allreduce op rs x = .error e := by
  cases rs with
  | nil => exact absurd rfl hne
  | cons r rs =>
    unfold allreduce
    rw [List.mapM_cons, h r List.mem_cons_self]
    rfl

theorem allreduce_max {R : Type} {rs : List R} (hne : rs ≠ []) {x : R → Except PyErr ℝ} {y : R → ℝ} (h : ∀ r ∈ rs, x r = .ok (y r)) :
    ∃ m, allreduce max rs x = .ok m ∧ IsGreatest {v | ∃ r ∈ rs, v = y r} m := by
  unfold allreduce
  rw [mapM_okR h]
  cases rs with
  | nil => exact absurd rfl hne
  | cons r rs =>
    obtain ⟨h1, h2, h3⟩ := foldl_max_ge (rs.map y) (y r)
    refine ⟨_, rfl, ?_, ?_⟩
    · rcases h3 with h3 | h3
      · exact ⟨r, List.mem_cons_self, h3⟩
      · obtain ⟨q, hq, he⟩ := List.mem_map.1 h3
        exact ⟨q, List.mem_cons_of_mem _ hq, he.symm⟩
    · rintro v ⟨q, hq, rfl⟩
      rcases List.mem_cons.1 hq with rfl | hq
      · exact h1
      · exact h2 _ (List.mem_map_of_mem hq)

theorem allreduce_min {R : Type} {rs : List R} (hne : rs ≠ []) {x : R → Except PyErr ℝ} {y : R → ℝ} (h : ∀ r ∈ rs, x r = .ok (y r)) :
    ∃ m, allreduce min rs x = .ok m ∧ IsLeast {v | ∃ r ∈ rs, v = y r} m := by
  unfold allreduce
  rw [mapM_okR h]
  cases rs with
  | nil => exact absurd rfl hne
  | cons r rs =>
    obtain ⟨h1, h2, h3⟩ := foldl_min_le (rs.map y) (y r)
    refine ⟨_, rfl, ?_, ?_⟩
    · rcases h3 with h3 | h3
      · exact ⟨r, List.mem_cons_self, h3⟩
      · obtain ⟨q, hq, he⟩ := List.mem_map.1 h3
        exact ⟨q, List.mem_cons_of_mem _ hq, he.symm⟩
    · rintro v ⟨q, hq, rfl⟩
      rcases List.mem_cons.1 hq with rfl | hq
      · exact h1
      · exact h2 _ (List.mem_map_of_mem hq)

/-! ## Inner cells -/

theorem mem_rangeOf_inner {n g : ℕ} {i : ℤ} : i ∈ rangeOf (innerR n g) ↔ 1 ≤ g ∧ g ≤ i ∧ i < g + n := by
  unfold rangeOf
  simp only [List.mem_map, mem_irange]
  unfold innerR sliceR
  rcases Nat.eq_zero_or_pos g with h0 | h0
  · subst h0
    unfold pyStart
    simp only [CharP.cast_eq_zero, neg_zero, lt_irrefl, if_false]
    constructor
    · rintro ⟨a, ha, -⟩; omega
    · rintro ⟨h, -⟩; omega
  · rw [pyStart_min (by omega), pyStart_max (by omega)]
    simp only
    constructor
    · rintro ⟨a, ha, rfl⟩; omega
    · rintro ⟨h, h1, h2⟩
      exact ⟨i - min (g : ℤ) (n + 2 * g), by omega, by omega⟩

theorem mem_innerElems2 {T : Cart2} {g : ℕ} {a : C2 → ℝ} {x : ℝ} : x ∈ innerElems2 T g a ↔ 1 ≤ g ∧ ∃ p, Inner2 T g p ∧ x = a p := by
  unfold innerElems2
  simp only [List.mem_flatMap, List.mem_map, mem_rangeOf_inner]
  constructor
  · rintro ⟨i, ⟨h, i1, i2⟩, j, ⟨-, j1, j2⟩, rfl⟩
    exact ⟨h, (i, j), ⟨i1, i2, j1, j2⟩, rfl⟩
  · rintro ⟨h, p, ⟨p1, p2, p3, p4⟩, rfl⟩
    exact ⟨p.1, ⟨h, p1, p2⟩, p.2, ⟨h, p3, p4⟩, rfl⟩

/-- every cell of the domain is an inner cell of some rank -/
theorem domain_owned2 {gy gx py px : ℕ} {per : Bool} {T : Cart2} (hT : mkCart2 gy gx py px per = .ok T) (g : ℕ) {G : C2} (hG : InDomain2 T G) :
    ∃ c p, Valid2 T c ∧ Inner2 T g p ∧ globalIx2 T g c p = G := by
  obtain ⟨c, ⟨hc, b1, b2, b3, b4⟩, -⟩ := decomposition2_partition hT G hG
  refine ⟨c, (G.1 - c.1 * T.ny + g, G.2 - c.2 * T.nx + g), hc, ⟨?_, ?_, ?_, ?_⟩, ?_⟩
  · simp only; omega
  · simp only; omega
  · simp only; omega
  · simp only; omega
  · unfold globalIx2; refine Prod.ext ?_ ?_ <;> simp only <;> ring

/-- The ranks hold the blocks of the global array `F` in their inner cells. -/
def Blocks2 (T : Cart2) (g : ℕ) (F : C2 → ℝ) (v : World C2 C2 ℝ) : Prop :=
  ∀ c p, Valid2 T c → Inner2 T g p → v c p = F (globalIx2 T g c p)

/-- the local maxima of all ranks, and the global one -/
theorem localMax2 {gy gx py px : ℕ} {per : Bool} {T : Cart2} (hT : mkCart2 gy gx py px per = .ok T) {g : ℕ} (hg : 1 ≤ g) {F : C2 → ℝ}
    {v : World C2 C2 ℝ} (hv : Blocks2 T g F v) {M : ℝ} (hM : IsGreatest {x | ∃ G, InDomain2 T G ∧ x = F G} M) :
    ranks2 T ≠ [] ∧ ∃ m : C2 → ℝ, (∀ c ∈ ranks2 T, amax (innerElems2 T g (v c)) = .ok (m c) ∧ m c ≤ M ∧ ∃ p, Inner2 T g p ∧ m c = v c p) ∧
      ∃ c ∈ ranks2 T, m c = M := by
  obtain ⟨e1, e2, -, -, -, hY, hX⟩ := construct2_ok hT
  obtain ⟨⟨G, hG, rfl⟩, hub⟩ := hM
  obtain ⟨c0, p0, hc0, hp0, rfl⟩ := domain_owned2 hT g hG
  refine ⟨List.ne_nil_of_mem (mem_ranks2.2 hc0), ?_⟩
  have hne : ∀ c, innerElems2 T g (v c) ≠ [] := fun c => List.ne_nil_of_mem (mem_innerElems2.2 ⟨hg, p0, hp0, rfl⟩)
  choose m hm hgr using fun c => amax_ok (hne c)
  have hin : ∀ c, ∃ p, Inner2 T g p ∧ m c = v c p := fun c => (mem_innerElems2.1 (hgr c).1).2
  have hle : ∀ c ∈ ranks2 T, m c ≤ F (globalIx2 T g c0 p0) := by
    intro c hc
    obtain ⟨p, hp, he⟩ := hin c
    rw [he, hv c p (mem_ranks2.1 hc) hp]
    exact hub ⟨_, inner_inDomain2 hT (mem_ranks2.1 hc) hp, rfl⟩
  refine ⟨m, fun c hc => ⟨hm c, hle c hc, hin c⟩, c0, mem_ranks2.2 hc0, le_antisymm (hle _ (mem_ranks2.2 hc0)) ?_⟩
  rw [← hv c0 p0 hc0 hp0]
  exact (hgr c0).2 (mem_innerElems2.2 ⟨hg, p0, hp0, rfl⟩)

/-! ## Coordinates -/

theorem localCoords_eq (dx : ℝ) {g n : ℕ} (c i : ℤ) (h0 : 0 ≤ i) (h1 : i < n + 2 * g) :
    localCoords dx g n c i = dx / 2 + dx * ((c * n + i - g : ℤ) : ℝ) := by
  unfold localCoords linspace
  simp only
  rcases (by omega : n + 2 * g = 1 ∨ 1 < n + 2 * g) with h | h
  · have hi : i = 0 := by omega
    have hg : g = 0 := by omega
    subst hi; subst hg
    push_cast
    simp only [zero_mul, add_zero]
    ring
  · have hne : ((n + 2 * g : ℕ) : ℝ) - 1 ≠ 0 := by
      have : (1 : ℝ) < ((n + 2 * g : ℕ) : ℝ) := by exact_mod_cast h
      linarith
    have e : (((c * n + n : ℤ) : ℝ) * dx - dx / 2 + g * dx - (dx / 2 + ((c * n : ℤ) : ℝ) * dx - g * dx)) = (((n + 2 * g : ℕ) : ℝ) - 1) * dx := by
      push_cast; ring
    rw [e, mul_div_right_comm, div_self hne]
    push_cast; ring

end Sopht
