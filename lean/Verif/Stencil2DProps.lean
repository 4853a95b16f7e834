import Verif.Stencil2DLemmas

/-! # Properties of the 2D stencil kernels and time steps (C30, C31, C33, C34, C36–C39) -/

namespace Sopht

set_option linter.unusedSimpArgs false

/-! ## C30 -/

/-- C30: kernel generators raise ValueError exactly when the ghost layer is thinner than the stencil. -/
theorem checkSupport_error_iff (ghost support : ℤ) :
    (checkSupport ghost support = .error .valueError ↔ ghost < support) ∧
    (checkSupport ghost support = .ok () ↔ support ≤ ghost) := by
  unfold checkSupport
  by_cases h : ghost < support
  · rw [if_pos h]; simp [h]
  · rw [if_neg h]; simp [h]; omega

/-! ## C31 -/

/-- How often the passes of a kernel compute cell `p`. -/
def timesWritten2 (T : Cart2) (g k : ℕ) (p : C2) : ℕ := (interiorView2 T g :: boundaryViews2 T g k).countP fun V => writes2 k V p

/-- C31: every inner cell is computed at least once, for every block that the ghost exchange supports. -/
theorem timesWritten2_pos {T : Cart2} {g k : ℕ} (hk1 : 1 ≤ k) (hkg : k ≤ g) (hny : k ≤ T.ny) (hnx : k ≤ T.nx) {p : C2}
    (hp : Inner2 T g p) : 1 ≤ timesWritten2 T g k p := by
  obtain ⟨v0, v1, v2, v3, v4⟩ := views2_at hk1 hkg hny hnx hp
  unfold timesWritten2 boundaryViews2
  rw [Nat.one_le_iff_ne_zero, Ne, List.countP_eq_zero]
  intro h
  simp only [List.mem_cons, List.not_mem_nil, or_false, forall_eq_or_imp, forall_eq, decide_eq_true_eq] at h
  rw [v0, v1, v2, v3, v4] at h
  obtain ⟨p1, p2, p3, p4⟩ := hp
  omega

/-- C31: the passes compute every inner cell exactly once if and only if the block is wide enough: at least `2k` columns and,
unless the two column passes already cover everything, at least `2k` rows. -/
theorem passes2_exactly_once_iff {T : Cart2} {g k : ℕ} (hk1 : 1 ≤ k) (hkg : k ≤ g) (hny : k ≤ T.ny) (hnx : k ≤ T.nx) :
    (∀ p, Inner2 T g p → timesWritten2 T g k p = 1) ↔ 2 * k ≤ T.nx ∧ (T.nx = 2 * k ∨ 2 * k ≤ T.ny) := by
  have cnt : ∀ p, Inner2 T g p → timesWritten2 T g k p =
      (if (g + k ≤ p.1 ∧ p.1 < g + T.ny - k) ∧ g + k ≤ p.2 ∧ p.2 < g + T.nx - k then 1 else 0) +
      (if p.1 < g + k ∧ g + k ≤ p.2 ∧ p.2 < g + T.nx - k then 1 else 0) +
      (if g + T.ny - k ≤ p.1 ∧ g + k ≤ p.2 ∧ p.2 < g + T.nx - k then 1 else 0) +
      (if p.2 < g + k then 1 else 0) + (if g + T.nx - k ≤ p.2 then 1 else 0) := by
    intro p hp
    obtain ⟨v0, v1, v2, v3, v4⟩ := views2_at hk1 hkg hny hnx hp
    unfold timesWritten2 boundaryViews2
    simp only [List.countP_cons, List.countP_nil, decide_eq_true_eq, v0, v1, v2, v3, v4]
    ring
  constructor
  · intro h
    refine ⟨?_, ?_⟩
    · by_contra hlt
      have hp : Inner2 T g ((g : ℤ), (g : ℤ) + T.nx - k) := ⟨by simp only; omega, by simp only; omega, by simp only; omega, by simp only; omega⟩
      have := h _ hp
      rw [cnt _ hp] at this
      simp only at this
      split_ifs at this <;> omega
    · by_contra hlt
      push Not at hlt
      by_cases h2 : 2 * k ≤ T.nx
      · have hp : Inner2 T g ((g : ℤ) + T.ny - k, (g : ℤ) + k) :=
          ⟨by simp only; omega, by simp only; omega, by simp only; omega, by simp only; omega⟩
        have := h _ hp
        rw [cnt _ hp] at this
        simp only at this
        split_ifs at this <;> omega
      · have hp : Inner2 T g ((g : ℤ), (g : ℤ) + T.nx - k) := ⟨by simp only; omega, by simp only; omega, by simp only; omega, by simp only; omega⟩
        have := h _ hp
        rw [cnt _ hp] at this
        simp only at this
        split_ifs at this <;> omega
  · rintro ⟨h1, h2⟩ p hp
    rw [cnt p hp]
    obtain ⟨p1, p2, p3, p4⟩ := hp
    split_ifs <;> omega

/-- non-vacuity: 4 × 4 block, support 2, ghost size 2; and the sharper bound 1 × 2 block with support 1 -/
example : (∀ p, Inner2 ⟨4, 4, 1, 1, 4, 4, false⟩ ((2 : ℕ) : ℤ) p → timesWritten2 ⟨4, 4, 1, 1, 4, 4, false⟩ 2 2 p = 1) ∧
    ∀ p, Inner2 ⟨1, 2, 1, 1, 1, 2, false⟩ ((1 : ℕ) : ℤ) p → timesWritten2 ⟨1, 2, 1, 1, 1, 2, false⟩ 1 1 p = 1 :=
  ⟨(passes2_exactly_once_iff (by omega) (by omega) (by simp) (by simp)).2 (by simp),
   (passes2_exactly_once_iff (by omega) (by omega) (by simp) (by simp)).2 (by simp)⟩

section
variable {ι K β : Type}

/-- C31: on blocks with fewer than `2k` columns an accumulating kernel adds its increment twice in the columns both column
passes cover. -/
theorem kernel2_thin_doubles {T : Cart2} {g k : ℕ} (hk1 : 1 ≤ k) (hkg : k ≤ g) (hny : k ≤ T.ny) (hnx : k ≤ T.nx)
    (op : β → β → β) (f : (ι → C2 → K) → β) (A1 A2 : ι → C2 → K) (out : C2 → β) {p : C2} (hp : Inner2 T g p)
    (h1 : g + T.nx - k ≤ p.2) (h2 : p.2 < g + k) :
    kernel2 T g k op f A1 A2 out p =
      op (op (out p) (f fun i d => A2 i (p.1 + d.1, p.2 + d.2))) (f fun i d => A2 i (p.1 + d.1, p.2 + d.2)) := by
  obtain ⟨v0, v1, v2, v3, v4⟩ := views2_at hk1 hkg hny hnx hp
  unfold kernel2 boundaryViews2
  simp only [List.foldl_cons, List.foldl_nil]
  rw [pass2_pos (v4.2 h1), pass2_pos (v3.2 h2), pass2_neg (by rw [v2]; omega), pass2_neg (by rw [v1]; omega),
    pass2_neg (by rw [v0]; omega)]

/-- such cells exist exactly on thin blocks; example: one column per rank -/
example : ∃ p, Inner2 ⟨3, 3, 1, 3, 3, 1, false⟩ 1 p ∧ (1 : ℤ) + 1 - 1 ≤ p.2 ∧ p.2 < 1 + 1 :=
  ⟨(1, 1), by simp [Inner2], by simp, by simp⟩

/-! ## C36: data in flight -/

/-- C36: the result in inner cells does not depend on what the ghost cells hold during the interior pass: any two contents `A1`, `A1'`
of the arrays that have the final inner values give the same result. Overwriting kernels. -/
theorem kernel2_ignores_inflight {T : Cart2} {g k : ℕ} (hk1 : 1 ≤ k) (hkg : k ≤ g) (op : β → β → β) {f : (ι → C2 → K) → β}
    (hf : CrossLocal2 k f) {A1 A1' A2 : ι → C2 → K}
    (h1 : ∀ i p, Inner2 T g p → A1 i p = A2 i p) (h1' : ∀ i p, Inner2 T g p → A1' i p = A2 i p) (out : C2 → β) :
    kernel2 T g k op f A1 A2 out = kernel2 T g k op f A1' A2 out := by
  unfold kernel2
  congr 1
  funext p
  by_cases h : writes2 k (interiorView2 T g) p
  · rw [pass2_pos h, pass2_pos h]
    congr 1
    apply hf
    intro i d hd
    have := interior_window (by omega) h hd
    rw [h1 i _ this, h1' i _ this]
  · rw [pass2_neg h, pass2_neg h]

variable [DecidableEq ι]

/-- C36: whatever part of the communication has happened when a rank does its interior pass (`s1`, `s1'` arbitrary), the arrays after the
kernel are the same. -/
theorem stencil2_schedule_independent {T : Cart2} {g k : ℕ} (hk1 : 1 ≤ k) (hkg : k ≤ g) (hy : g ≤ T.ny) (hx : g ≤ T.nx)
    (full : Bool) {comps : List ι} (hcs : ∀ i, i ∈ comps) (op : β → β → β) {f : (ι → C2 → K) → β} (hf : CrossLocal2 k f)
    (w : World C2 (ι × ℤ) K) (s1 s1' : C2 → List Ev) {s s' : List Ev} (hs : Complete (multiMsgs2 T g full comps) s)
    (hs' : Complete (multiMsgs2 T g full comps) s') (out : C2 → C2 → β) (c : C2) :
    stencil2 T g full comps k op f w s1 s out c = stencil2 T g full comps k op f w s1' s' out c := by
  have hE : multiExchange2 T g full comps w s = multiExchange2 T g full comps w s' := by
    funext c i
    unfold multiExchange2
    rw [runNet_eq (multi2_exchSpec (by omega) hy hx full hcs w) hs, runNet_eq (multi2_exchSpec (by omega) hy hx full hcs w) hs']
  unfold stencil2
  rw [hE]
  refine kernel2_ignores_inflight hk1 hkg op hf ?_ ?_ _
  all_goals
    intro i p hp
    rw [multiExchange2_inner (by omega) hy hx full hcs w _ i hp, multiExchange2_inner (by omega) hy hx full hcs w _ i hp]

/-! ## C33, C34, C37: agreement with the global field -/

/-- Overwriting kernels compute in an inner cell what the kernel gives on the global field. -/
theorem stencil2_over_global {gy gx py px : ℕ} {per : Bool} {T : Cart2} (hT : mkCart2 gy gx py px per = .ok T)
    {g k : ℕ} (hk1 : 1 ≤ k) (hkg : k ≤ g) (hy : g ≤ T.ny) (hx : g ≤ T.nx) (full : Bool) {comps : List ι} (hcs : ∀ i, i ∈ comps)
    {w : World C2 (ι × ℤ) K} {F : ι → C2 → K} {f : (ι → C2 → K) → β} (hf : CrossLocal2 k f)
    (hw : ∀ i c p, Valid2 T c → Inner2 T g p → w c (i, flat2 T g p) = F i (globalIx2 T g c p))
    (s1 : C2 → List Ev) {s : List Ev} (hs : Complete (multiMsgs2 T g full comps) s) (out : C2 → C2 → β)
    {c p : C2} (hc : Valid2 T c) (hp : Inner2 T g p) (hG : per = true ∨ Away2 gy gx k (globalIx2 T g c p)) :
    stencil2 T g full comps k (fun _ b => b) f w s1 s out c p = serialAt2 gy gx per f F (globalIx2 T g c p) := by
  unfold stencil2
  rw [kernel2_over hk1 hkg (by omega) (by omega) hf ?_ (out c) hp]
  · exact multi2_stencil hT (by omega) hkg hy hx full hcs hf hw hs hc hp (hG.elim Or.inl (fun h => Or.inr (Or.inl h)))
  · intro i p hp
    rw [multiExchange2_inner (by omega) hy hx full hcs w _ i hp, multiExchange2_inner (by omega) hy hx full hcs w _ i hp]

/-- C34: an accumulating kernel adds to every inner cell exactly the increment computed from the global field, if all cells read for it are
in the domain (`Away2`) or the domain is periodic, for blocks of at least `2k` cells. -/
theorem stencilAdd2_global [Add β] {gy gx py px : ℕ} {per : Bool} {T : Cart2} (hT : mkCart2 gy gx py px per = .ok T)
    {g k : ℕ} (hk1 : 1 ≤ k) (hkg : k ≤ g) (hy : g ≤ T.ny) (hx : g ≤ T.nx) (hy2 : 2 * k ≤ T.ny) (hx2 : 2 * k ≤ T.nx)
    (full : Bool) {comps : List ι} (hcs : ∀ i, i ∈ comps)
    {w : World C2 (ι × ℤ) K} {F : ι → C2 → K} {f : (ι → C2 → K) → β} (hf : CrossLocal2 k f)
    (hw : ∀ i c p, Valid2 T c → Inner2 T g p → w c (i, flat2 T g p) = F i (globalIx2 T g c p))
    (s1 : C2 → List Ev) {s : List Ev} (hs : Complete (multiMsgs2 T g full comps) s) (out : C2 → C2 → β)
    {c p : C2} (hc : Valid2 T c) (hp : Inner2 T g p)
    (hG : per = true ∨ Away2 gy gx k (globalIx2 T g c p) ∨
      ∀ i q, InArr2 T g q → (zone g T.ny q.1 = 0 ∨ zone g T.nx q.2 = 0) → ¬ InDomain2 T (globalIx2 T g c q) →
        w c (i, flat2 T g q) = F i (globalIx2 T g c q)) :
    stencilAdd2 T g full comps k f w s1 s out c p = out c p + serialAt2 gy gx per f F (globalIx2 T g c p) := by
  unfold stencilAdd2 stencil2
  rw [kernel2_once hk1 hkg hy2 hx2 hf _ ?_ (out c) hp]
  · rw [multi2_stencil hT (by omega) hkg hy hx full hcs hf hw hs hc hp hG]
  · intro i p hp
    rw [multiExchange2_inner (by omega) hy hx full hcs w _ i hp, multiExchange2_inner (by omega) hy hx full hcs w _ i hp]

/-- On an axis: no neighbour on a side means non-periodic and first/last rank. -/
theorem axisNbr_none_iff {P : ℕ} {per : Bool} {c s : ℤ} :
    axisNbr P per c s = none ↔ per = false ∧ ¬ (0 ≤ c + s ∧ c + s < P) := by
  rw [axisNbr_eq]
  cases per
  · by_cases h : 0 ≤ c + s ∧ c + s < P
    · simp [h]
    · simp [h]
  · simp

/-- first and last cell of an axis in terms of the block -/
theorem axis_edge {P n g : ℕ} {c i : ℤ} (h0 : 0 ≤ c) (h1 : c < P) (i0 : g ≤ i) (i1 : i < g + n) :
    (c * n + i - g = 0 ↔ c = 0 ∧ i = g) ∧ (c * n + i - g = (P * n : ℕ) - 1 ↔ c = P - 1 ∧ i = g + n - 1) := by
  push_cast
  refine ⟨⟨fun h => ?_, fun h => by rw [h.1, h.2]; ring⟩, ⟨fun h => ?_, fun h => by rw [h.1, h.2]; ring⟩⟩
  · have hc : c = 0 := by
      by_contra hne
      have : 1 ≤ c := by omega
      nlinarith
    subst hc
    exact ⟨rfl, by linarith⟩
  · have hc : c = P - 1 := by
      by_contra hne
      have : c ≤ P - 2 := by omega
      nlinarith
    subst hc
    refine ⟨rfl, by linarith⟩

/-- C37: the boundary zeroing sets an inner cell to `z` exactly if the domain is not periodic and the cell is one of the outermost cells of
the *global* domain; it changes no other inner cell — in particular none at a boundary between two ranks. -/
theorem zeroSides2_inner {gy gx py px : ℕ} {per : Bool} {T : Cart2} (hT : mkCart2 gy gx py px per = .ok T) {g : ℕ} (hg : 1 ≤ g)
    (z : β) (out : C2 → β) {c p : C2} (hc : Valid2 T c) (hp : Inner2 T g p) :
    zeroSides2 T g z c out p = if per = false ∧ OnEdge2 gy gx (globalIx2 T g c p) then z else out p := by
  obtain ⟨e1, e2, -, -, hper, hY, hX⟩ := construct2_ok hT
  obtain ⟨c1, c2, c3, c4⟩ := hc
  obtain ⟨p1, p2, p3, p4⟩ := hp
  have ey := axis_edge c1 c2 p1 p2
  have ex := axis_edge c3 c4 p3 p4
  rw [hY, e1] at ey
  rw [hX, e2] at ex
  have n1 : prevX2 T c = none ↔ per = false ∧ c.2 = 0 := by
    unfold prevX2; rw [Option.map_eq_none_iff, axisNbr_none_iff, hper]
    exact and_congr_right fun _ => by omega
  have n2 : nextX2 T c = none ↔ per = false ∧ c.2 = T.px - 1 := by
    unfold nextX2; rw [Option.map_eq_none_iff, axisNbr_none_iff, hper]
    exact and_congr_right fun _ => by omega
  have n3 : prevY2 T c = none ↔ per = false ∧ c.1 = 0 := by
    unfold prevY2; rw [Option.map_eq_none_iff, axisNbr_none_iff, hper]
    exact and_congr_right fun _ => by omega
  have n4 : nextY2 T c = none ↔ per = false ∧ c.1 = T.py - 1 := by
    unfold nextY2; rw [Option.map_eq_none_iff, axisNbr_none_iff, hper]
    exact and_congr_right fun _ => by omega
  have hE : OnEdge2 gy gx (globalIx2 T g c p) ↔ (c.1 = 0 ∧ p.1 = g) ∨ (c.1 = T.py - 1 ∧ p.1 = g + T.ny - 1) ∨
      (c.2 = 0 ∧ p.2 = g) ∨ (c.2 = T.px - 1 ∧ p.2 = g + T.nx - 1) := by
    unfold OnEdge2 globalIx2
    simp only
    rw [ey.1, ey.2, ex.1, ex.2]
  unfold zeroSides2 sliceR
  rw [pyStart_min (size := T.nx + 2 * g) (o := 0) le_rfl, pyStart_min (size := T.ny + 2 * g) (o := 0) le_rfl,
    pyStart_min (size := T.nx + 2 * g) (o := g + 1) (by omega), pyStart_min (size := T.ny + 2 * g) (o := g + 1) (by omega),
    pyStart_max (size := T.nx + 2 * g) (o := -g - 1) (by omega), pyStart_max (size := T.ny + 2 * g) (o := -g - 1) (by omega)]
  simp only
  have a1 : (min 0 ((T.nx : ℤ) + 2 * g) ≤ p.2 ∧ p.2 < min ((g : ℤ) + 1) (T.nx + 2 * g)) ↔ p.2 = g := by omega
  have a2 : (max 0 ((T.nx : ℤ) + 2 * g + (-g - 1)) ≤ p.2 ∧ p.2 < T.nx + 2 * g) ↔ p.2 = g + T.nx - 1 := by omega
  have a3 : (min 0 ((T.ny : ℤ) + 2 * g) ≤ p.1 ∧ p.1 < min ((g : ℤ) + 1) (T.ny + 2 * g)) ↔ p.1 = g := by omega
  have a4 : (max 0 ((T.ny : ℤ) + 2 * g + (-g - 1)) ≤ p.1 ∧ p.1 < T.ny + 2 * g) ↔ p.1 = g + T.ny - 1 := by omega
  have hset : ∀ (A B : Prop) [Decidable A] [Decidable B] (o : β), (if A then (if B then z else o) else o) = if A ∧ B then z else o := by
    intro A B _ _ o; by_cases hA : A <;> by_cases hB : B <;> simp [hA, hB]
  have hor : ∀ (A B : Prop) [Decidable A] [Decidable B] (o : β), (if A then z else if B then z else o) = if A ∨ B then z else o := by
    intro A B _ _ o; by_cases hA : A <;> by_cases hB : B <;> simp [hA, hB]
  simp only [ite_apply, a1, a2, a3, a4, n1, n2, n3, n4, hE]
  simp only [hset]
  simp only [hor]
  refine if_congr ?_ rfl rfl
  clear hE n1 n2 n3 n4 a1 a2 a3 a4 hset hor ey ex
  cases per
  · simp only [true_and]; omega
  · simp

/-- cells of the domain that are not outermost are away from the boundary -/
theorem away_of_not_edge {gy gx py px : ℕ} {per : Bool} {T : Cart2} (hT : mkCart2 gy gx py px per = .ok T) {g : ℕ}
    {c p : C2} (hc : Valid2 T c) (hp : Inner2 T g p) (h : ¬ OnEdge2 gy gx (globalIx2 T g c p)) :
    Away2 gy gx 1 (globalIx2 T g c p) := by
  obtain ⟨e1, e2, -, -, hper, hY, hX⟩ := construct2_ok hT
  obtain ⟨c1, c2, c3, c4⟩ := hc
  obtain ⟨p1, p2, p3, p4⟩ := hp
  have b1 : 0 ≤ (globalIx2 T g c p).1 := by unfold globalIx2; simp only; nlinarith
  have b2 : (globalIx2 T g c p).1 < gy := by
    rw [← e1, ← hY]; unfold globalIx2; simp only; push_cast; nlinarith
  have b3 : 0 ≤ (globalIx2 T g c p).2 := by unfold globalIx2; simp only; nlinarith
  have b4 : (globalIx2 T g c p).2 < gx := by
    rw [← e2, ← hX]; unfold globalIx2; simp only; push_cast; nlinarith
  unfold OnEdge2 at h
  unfold Away2
  push_cast
  omega

/-- C33: diffusion flux and out-of-plane curl (overwriting, support 1, outermost cells zeroed): if the ranks hold the blocks of global fields
`F`, every inner cell of every rank gets what the kernel gives on the global fields — whatever the topology, the ghost size, the
contents of ghost cells and output array, and the order in which messages move. -/
theorem stencilZero2_global {gy gx py px : ℕ} {per : Bool} {T : Cart2} (hT : mkCart2 gy gx py px per = .ok T)
    {g : ℕ} (hg : 1 ≤ g) (hy : g ≤ T.ny) (hx : g ≤ T.nx) (full : Bool) {comps : List ι} (hcs : ∀ i, i ∈ comps)
    {w : World C2 (ι × ℤ) K} {F : ι → C2 → K} {f : (ι → C2 → K) → β} (hf : CrossLocal2 1 f) (z : β)
    (hw : ∀ i c p, Valid2 T c → Inner2 T g p → w c (i, flat2 T g p) = F i (globalIx2 T g c p))
    (s1 : C2 → List Ev) {s : List Ev} (hs : Complete (multiMsgs2 T g full comps) s) (out : C2 → C2 → β)
    {c p : C2} (hc : Valid2 T c) (hp : Inner2 T g p) :
    stencilZero2 T g full comps 1 z f w s1 s out c p = serialZero2 gy gx per z f F (globalIx2 T g c p) := by
  unfold stencilZero2 serialZero2
  rw [zeroSides2_inner hT hg z _ hc hp]
  by_cases h : per = false ∧ OnEdge2 gy gx (globalIx2 T g c p)
  · rw [if_pos h, if_pos h]
  · rw [if_neg h, if_neg h]
    refine stencil2_over_global hT le_rfl hg hy hx full hcs hf hw s1 hs out hc hp ?_
    cases per with
    | true => exact Or.inl rfl
    | false => exact Or.inr (away_of_not_edge hT hc hp fun h' => h ⟨rfl, h'⟩)

/-- C33: two decompositions of the same domain (for example any topology and a single rank) give the same values at the same
global cell. -/
theorem stencilZero2_decomposition_independent {gy gx py px py' px' : ℕ} {per : Bool} {T T' : Cart2}
    (hT : mkCart2 gy gx py px per = .ok T) (hT' : mkCart2 gy gx py' px' per = .ok T')
    {g g' : ℕ} (hg : 1 ≤ g) (hy : g ≤ T.ny) (hx : g ≤ T.nx) (hg' : 1 ≤ g') (hy' : g' ≤ T'.ny) (hx' : g' ≤ T'.nx)
    (full full' : Bool) {comps : List ι} (hcs : ∀ i, i ∈ comps)
    {w w' : World C2 (ι × ℤ) K} {F : ι → C2 → K} {f : (ι → C2 → K) → β} (hf : CrossLocal2 1 f) (z : β)
    (hw : ∀ i c p, Valid2 T c → Inner2 T g p → w c (i, flat2 T g p) = F i (globalIx2 T g c p))
    (hw' : ∀ i c p, Valid2 T' c → Inner2 T' g' p → w' c (i, flat2 T' g' p) = F i (globalIx2 T' g' c p))
    (s1 s1' : C2 → List Ev) {s s' : List Ev} (hs : Complete (multiMsgs2 T g full comps) s)
    (hs' : Complete (multiMsgs2 T' g' full' comps) s') (out out' : C2 → C2 → β)
    {c p c' p' : C2} (hc : Valid2 T c) (hp : Inner2 T g p) (hc' : Valid2 T' c') (hp' : Inner2 T' g' p')
    (hG : globalIx2 T g c p = globalIx2 T' g' c' p') :
    stencilZero2 T g full comps 1 z f w s1 s out c p = stencilZero2 T' g' full' comps 1 z f w' s1' s' out' c' p' := by
  rw [stencilZero2_global hT hg hy hx full hcs hf z hw s1 hs out hc hp,
    stencilZero2_global hT' hg' hy' hx' full' hcs hf z hw' s1' hs' out' hc' hp', hG]

/-- Five-point Laplacian with a prefactor: the diffusion flux. -/
def laplace2 (nu : ℤ) (u : Unit → C2 → ℤ) : ℤ :=
  nu * (u () (1, 0) + u () (-1, 0) + u () (0, 1) + u () (0, -1) - 4 * u () (0, 0))

theorem laplace2_local (nu : ℤ) : CrossLocal2 1 (laplace2 nu) := by
  intro u v h
  unfold laplace2
  rw [h () (1, 0) (by simp [Cross2]), h () (-1, 0) (by simp [Cross2]), h () (0, 1) (by simp [Cross2]),
    h () (0, -1) (by simp [Cross2]), h () (0, 0) (by simp [Cross2])]

/-- non-vacuity of C33: a 4 × 4 domain on 2 × 1 ranks; quadratic field; its Laplacian is 2 in a cell at the inter-rank boundary, and
an outermost cell gets 0. -/
example : mkCart2 4 4 2 1 false = .ok ⟨4, 4, 2, 1, 2, 4, false⟩ ∧
    serialZero2 4 4 false 0 (laplace2 1) (fun _ G => G.1 * G.1) (globalIx2 ⟨4, 4, 2, 1, 2, 4, false⟩ 1 (0, 0) (2, 2)) = 2 ∧
    serialZero2 4 4 false 0 (laplace2 1) (fun _ G => G.1 * G.1) (globalIx2 ⟨4, 4, 2, 1, 2, 4, false⟩ 1 (0, 0) (1, 2)) = 0 := by
  refine ⟨rfl, by decide, by decide⟩

/-- and the kernel run through: all messages picked up before any lands, interior pass before anything has landed -/
example : stencilZero2 ⟨4, 4, 2, 1, 2, 4, false⟩ 1 false [()] 1 0 (laplace2 1)
    (fun c i => let G := globalIx2 ⟨4, 4, 2, 1, 2, 4, false⟩ 1 c (unflat2 ⟨4, 4, 2, 1, 2, 4, false⟩ 1 i.2); G.1 * G.1)
    (fun _ => []) [.pick 0, .pick 1, .land 1, .land 0] (fun _ _ => 77) (0, 0) (2, 2) = 2 := by decide

/-! ## C38: diffusion time stepping -/

end

section Diffusion
variable {K : Type} [AddGroup K]

/-- One diffusion step on the global field: add the flux, which is zero in the outermost cells of a non-periodic domain. -/
def serialDiffusion2 (gy gx : ℕ) (per : Bool) (f : (Unit → C2 → K) → K) (F : C2 → K) : C2 → K :=
  fun G => F G + serialZero2 gy gx per 0 f (fun _ => F) G

/-- One diffusion step of the distributed code gives in every inner cell the step on the global field. -/
theorem diffusionStep2_global {gy gx py px : ℕ} {per : Bool} {T : Cart2} (hT : mkCart2 gy gx py px per = .ok T)
    {g : ℕ} (hg : 1 ≤ g) (hy : g ≤ T.ny) (hx : g ≤ T.nx) (full : Bool) {F : C2 → K} {f : (Unit → C2 → K) → K}
    (hf : CrossLocal2 1 f) (st : StepState C2 ℤ K)
    (hw : ∀ c p, Valid2 T c → Inner2 T g p → st.field c (flat2 T g p) = F (globalIx2 T g c p))
    (s1 : C2 → List Ev) {s : List Ev} (hs : Complete (multiMsgs2 T g full [()]) s) {c p : C2} (hc : Valid2 T c) (hp : Inner2 T g p) :
    (diffusionStep2 T g full f s1 s st).field c (flat2 T g p) = serialDiffusion2 gy gx per f F (globalIx2 T g c p) := by
  unfold diffusionStep2 addFlux2 serialDiffusion2
  simp only
  have hcs : ∀ i : Unit, i ∈ [()] := by simp
  have hu : unflat2 T g (flat2 T g p) = p := by
    have hw : p.2 < cols2 T g := by unfold cols2; have := hp.2.2.2; omega
    have := flat2_div (T := T) (g := g) (p := p) (by have := hp.2.2.1; omega) hw
    unfold unflat2
    rw [this.1, this.2]
  rw [hu, multiExchange2_inner hg hy hx full hcs _ s () hp]
  simp only
  rw [hw c p hc hp, stencilZero2_global hT hg hy hx full hcs hf 0 (F := fun _ => F) (fun _ c p hc hp => hw c p hc hp) s1 hs _ hc hp]

/-- Run of several diffusion steps: each has its own flux function (prefactor `nu dt / dx²`) and its own message schedule. -/
def diffusionRun2 (T : Cart2) (g : ℕ) (full : Bool) (steps : List (((Unit → C2 → K) → K) × (C2 → List Ev) × List Ev))
    (st : StepState C2 ℤ K) : StepState C2 ℤ K :=
  steps.foldl (fun st x => diffusionStep2 T g full x.1 x.2.1 x.2.2 st) st

/-- C38: after any number of diffusion steps, with any step sizes, message schedules, initial flux buffer and ghost cells, the inner cells of
all ranks are the blocks of the field obtained by the same steps on the global field. -/
theorem diffusionRun2_global {gy gx py px : ℕ} {per : Bool} {T : Cart2} (hT : mkCart2 gy gx py px per = .ok T)
    {g : ℕ} (hg : 1 ≤ g) (hy : g ≤ T.ny) (hx : g ≤ T.nx) (full : Bool)
    (steps : List (((Unit → C2 → K) → K) × (C2 → List Ev) × List Ev))
    (hst : ∀ x ∈ steps, CrossLocal2 1 x.1 ∧ Complete (multiMsgs2 T g full [()]) x.2.2)
    (F : C2 → K) (st : StepState C2 ℤ K)
    (hw : ∀ c p, Valid2 T c → Inner2 T g p → st.field c (flat2 T g p) = F (globalIx2 T g c p))
    {c p : C2} (hc : Valid2 T c) (hp : Inner2 T g p) :
    (diffusionRun2 T g full steps st).field c (flat2 T g p) =
      (steps.foldl (fun F x => serialDiffusion2 gy gx per x.1 F) F) (globalIx2 T g c p) := by
  unfold diffusionRun2
  induction steps generalizing F st with
  | nil => exact hw c p hc hp
  | cons x xs ih =>
    rw [List.foldl_cons, List.foldl_cons]
    refine ih (fun y hy => hst y (List.mem_cons_of_mem _ hy)) _ _ ?_
    intro c p hc hp
    exact diffusionStep2_global hT hg hy hx full (hst x (List.mem_cons_self)).1 st hw x.2.1 (hst x (List.mem_cons_self)).2 hc hp

/-- non-vacuity of C38: complete schedules and axis-aligned kernels exist, so every list of step sizes gives such a list of steps -/
example (T : Cart2) (g : ℕ) (full : Bool) (nus : List ℤ) : ∃ steps : List (((Unit → C2 → ℤ) → ℤ) × (C2 → List Ev) × List Ev),
    steps.map (·.1) = nus.map laplace2 ∧ ∀ x ∈ steps, CrossLocal2 1 x.1 ∧ Complete (multiMsgs2 T g full [()]) x.2.2 := by
  obtain ⟨s, hs⟩ := complete_schedule_exists (multiMsgs2 T g full [()])
  refine ⟨nus.map fun nu => (laplace2 nu, fun _ => [], s), by simp, ?_⟩
  intro x hx
  obtain ⟨nu, -, rfl⟩ := List.mem_map.1 hx
  exact ⟨laplace2_local nu, hs⟩

/-! ## C39: advection time step -/

/-- C39: the advection step resets the flux buffer: its result does not depend on what the buffer held. -/
theorem advectionStep2_buffer_irrelevant (T : Cart2) (g : ℕ) (full : Bool) (f : K → (Option (Fin 2) → C2 → K) → K) (dtByDx : K)
    (s1 : C2 → List Ev) (s : List Ev) (vel : World C2 (Fin 2 × ℤ) K) (fld : World C2 ℤ K) (flux flux' : C2 → C2 → K) :
    advectionStep2 T g full f dtByDx s1 s vel ⟨fld, flux⟩ = advectionStep2 T g full f dtByDx s1 s vel ⟨fld, flux'⟩ := rfl

/-- The inputs of the advection flux as one family: the field and the velocity components. -/
def advIn2 (F : C2 → K) (V : Fin 2 → C2 → K) : Option (Fin 2) → C2 → K
  | none => F
  | some j => V j

theorem mem_advComps2 : ∀ i : Option (Fin 2), i ∈ ([none, some 0, some 1] : List (Option (Fin 2))) := by
  intro i
  match i with
  | none => simp
  | some 0 => simp
  | some 1 => simp

/-- C39: the advection step adds, in every inner cell away from the boundary (or anywhere on a periodic domain, or if the physical ghost
cells hold the continuation `F`, `V` of the fields), exactly the flux of this step, with factor `-dt/dx`. -/
theorem advectionStep2_global {gy gx py px : ℕ} {per : Bool} {T : Cart2} (hT : mkCart2 gy gx py px per = .ok T)
    {g : ℕ} (hg : 2 ≤ g) (hy : g ≤ T.ny) (hx : g ≤ T.nx) (hy2 : 4 ≤ T.ny) (hx2 : 4 ≤ T.nx) (full : Bool)
    {F : C2 → K} {V : Fin 2 → C2 → K} {f : K → (Option (Fin 2) → C2 → K) → K} (dtByDx : K)
    (hf : CrossLocal2 2 (f (-dtByDx))) (vel : World C2 (Fin 2 × ℤ) K) (st : StepState C2 ℤ K)
    (hw : ∀ c p, Valid2 T c → Inner2 T g p → st.field c (flat2 T g p) = F (globalIx2 T g c p))
    (hv : ∀ c p, Valid2 T c → Inner2 T g p → ∀ j, vel c (j, flat2 T g p) = V j (globalIx2 T g c p))
    (s1 : C2 → List Ev) {s : List Ev} (hs : Complete (multiMsgs2 T g full [none, some (0 : Fin 2), some 1]) s)
    {c p : C2} (hc : Valid2 T c) (hp : Inner2 T g p)
    (hG : per = true ∨ Away2 gy gx 2 (globalIx2 T g c p) ∨
      ∀ q, InArr2 T g q → (zone g T.ny q.1 = 0 ∨ zone g T.nx q.2 = 0) → ¬ InDomain2 T (globalIx2 T g c q) →
        st.field c (flat2 T g q) = F (globalIx2 T g c q) ∧ ∀ j, vel c (j, flat2 T g q) = V j (globalIx2 T g c q)) :
    (advectionStep2 T g full f dtByDx s1 s vel st).2.field c (flat2 T g p) =
      F (globalIx2 T g c p) + serialAt2 gy gx per (f (-dtByDx)) (advIn2 F V) (globalIx2 T g c p) := by
  unfold advectionStep2 addFlux2
  simp only
  have hu : unflat2 T g (flat2 T g p) = p := by
    have hw : p.2 < cols2 T g := by unfold cols2; have := hp.2.2.2; omega
    have := flat2_div (T := T) (g := g) (p := p) (by have := hp.2.2.1; omega) hw
    unfold unflat2
    rw [this.1, this.2]
  rw [hu, multiExchange2_inner (by omega) hy hx full mem_advComps2 _ s none hp,
    stencilAdd2_global (F := advIn2 F V) hT (by omega) hg hy hx hy2 hx2 full mem_advComps2 hf ?_ s1 hs _ hc hp ?_]
  · simp only [zero_add]
    rw [hw c p hc hp]
  · intro i c p hc hp
    cases i with
    | none => exact hw c p hc hp
    | some j => exact hv c p hc hp j
  · rcases hG with h | h | h
    · exact Or.inl h
    · exact Or.inr (Or.inl h)
    · refine Or.inr (Or.inr ?_)
      intro i q h1 h2 h3
      cases i with
      | none => exact (h q h1 h2 h3).1
      | some j => exact (h q h1 h2 h3).2 j


/-- One advection step on the global field and its continuation: cells of the domain get the flux, cells outside a non-periodic domain stay. -/
def serialAdvection2 (gy gx : ℕ) (per : Bool) (f : (Option (Fin 2) → C2 → K) → K) (V : Fin 2 → C2 → K) (F : C2 → K) : C2 → K :=
  fun G => if per = true ∨ (0 ≤ G.1 ∧ G.1 < gy ∧ 0 ≤ G.2 ∧ G.2 < gx) then F G + serialAt2 gy gx per f (advIn2 F V) G else F G

/-- The ranks hold the field `F`: inner cells, and for a non-periodic domain also the ghost cells beyond the sides of the domain. -/
def HoldsExt2 (T : Cart2) (g : ℕ) (F : C2 → K) (v : C2 → ℤ → K) : Prop :=
  ∀ c p, Valid2 T c → Inner2 T g p ∨ (T.per = false ∧ InArr2 T g p ∧ (zone g T.ny p.1 = 0 ∨ zone g T.nx p.2 = 0) ∧
    ¬ InDomain2 T (globalIx2 T g c p)) → v c (flat2 T g p) = F (globalIx2 T g c p)

/-- with ghost size equal to the kernel support no kernel pass touches a ghost cell -/
theorem kernel2_ghost_kept {ι β : Type} {T : Cart2} {k : ℕ} (hk1 : 1 ≤ k) (hny : k ≤ T.ny) (hnx : k ≤ T.nx) (op : β → β → β)
    (f : (ι → C2 → K) → β) (A1 A2 : ι → C2 → K) (out : C2 → β) {p : C2} (hp : ¬ Inner2 T k p) :
    kernel2 T k k op f A1 A2 out p = out p := by
  have key : ∀ V ∈ interiorView2 T k :: boundaryViews2 T k k, ¬ writes2 k V p := by
    intro V hV hw
    apply hp
    unfold boundaryViews2 interiorView2 at hV
    simp only [List.mem_cons, List.not_mem_nil, or_false] at hV
    unfold Inner2
    rcases hV with rfl | rfl | rfl | rfl | rfl <;> unfold writes2 at hw <;>
      simp only [inPass_inner hk1, inPass_lo le_rfl hny, inPass_lo le_rfl hnx, inPass_hi hk1 le_rfl hny, inPass_hi hk1 le_rfl hnx,
        inPass_full] at hw <;> omega
  unfold kernel2
  unfold boundaryViews2 at *
  simp only [List.foldl_cons, List.foldl_nil]
  simp only [List.mem_cons, List.not_mem_nil, or_false, forall_eq_or_imp, forall_eq] at key
  obtain ⟨k0, k1, k2, k3, k4⟩ := key
  rw [pass2_neg k4, pass2_neg k3, pass2_neg k2, pass2_neg k1, pass2_neg k0]

/-- C39: with the simulators' ghost size 2 one advection step of the distributed code is one step on the global field, in all inner
cells, including those next to a physical boundary; the physical ghost cells keep their values. -/
theorem advectionStep2_holds {gy gx py px : ℕ} {per : Bool} {T : Cart2} (hT : mkCart2 gy gx py px per = .ok T)
    (hy2 : 4 ≤ T.ny) (hx2 : 4 ≤ T.nx) (full : Bool) {F : C2 → K} {V : Fin 2 → C2 → K} {f : K → (Option (Fin 2) → C2 → K) → K} (dtByDx : K)
    (hf : CrossLocal2 2 (f (-dtByDx))) (vel : World C2 (Fin 2 × ℤ) K) (st : StepState C2 ℤ K)
    (hw : HoldsExt2 T 2 F st.field) (hv : ∀ j, HoldsExt2 T 2 (V j) fun c i => vel c (j, i))
    (s1 : C2 → List Ev) {s : List Ev} (hs : Complete (multiMsgs2 T 2 full [none, some (0 : Fin 2), some 1]) s) :
    HoldsExt2 T 2 (serialAdvection2 gy gx per (f (-dtByDx)) V F) (advectionStep2 T 2 full f dtByDx s1 s vel st).2.field := by
  obtain ⟨e1, e2, -, -, hper, hY, hX⟩ := construct2_ok hT
  intro c p hc hp
  rcases hp with hp | ⟨hpe, ha, hz, hD⟩
  · rw [advectionStep2_global (F := F) (V := V) hT le_rfl (by omega) (by omega) hy2 hx2 full dtByDx hf vel st
      (fun c p hc hp => hw c p hc (Or.inl hp)) (fun c p hc hp j => hv j c p hc (Or.inl hp)) s1 hs hc hp]
    · unfold serialAdvection2
      rw [if_pos]
      right
      obtain ⟨c1, c2, c3, c4⟩ := hc
      obtain ⟨p1, p2, p3, p4⟩ := hp
      rw [← e1, ← e2, ← hY, ← hX]
      unfold globalIx2
      simp only
      push_cast at *
      refine ⟨by nlinarith, by nlinarith, by nlinarith, by nlinarith⟩
    · cases hp' : per with
      | true => exact Or.inl rfl
      | false =>
        refine Or.inr (Or.inr ?_)
        intro q h1 h2 h3
        exact ⟨hw c q hc (Or.inr ⟨by rw [hper, hp'], h1, h2, h3⟩), fun j => hv j c q hc (Or.inr ⟨by rw [hper, hp'], h1, h2, h3⟩)⟩
  · have hpf : per = false := by rw [← hper]; exact hpe
    subst hpf
    unfold serialAdvection2
    rw [if_neg (by
      simp only [Bool.false_eq_true, false_or]
      unfold InDomain2 at hD
      rw [e1, e2] at hD
      exact hD)]
    unfold advectionStep2 addFlux2
    simp only
    have hu : unflat2 T 2 (flat2 T 2 p) = p := by
      have h4 : p.2 < cols2 T 2 := by unfold cols2; have := ha.2.2.2; omega
      have := flat2_div (T := T) (g := 2) (p := p) (by have := ha.2.2.1; omega) h4
      unfold unflat2
      rw [this.1, this.2]
    obtain ⟨s', hs'⟩ := complete_schedule_exists (ghostMsgs2 T 2 full)
    have hin : ¬ Inner2 T ((2 : ℕ) : ℤ) p := by
      intro hin
      apply hD
      obtain ⟨c1, c2, c3, c4⟩ := hc
      obtain ⟨p1, p2, p3, p4⟩ := hin
      unfold InDomain2
      rw [← hY, ← hX]
      unfold globalIx2
      simp only
      push_cast at *
      refine ⟨by nlinarith, by nlinarith, by nlinarith, by nlinarith⟩
    rw [hu, multiExchange2_eq (by omega) (by omega) (by omega) full mem_advComps2 _ hs hs' none,
      exchange2_outside hT (by omega) (by omega) (by omega) full _ hs' hc ha hD]
    unfold stencilAdd2 stencil2
    rw [kernel2_ghost_kept (by omega) (by omega) (by omega) _ _ _ _ _ hin]
    simp only [add_zero]
    exact hw c p hc (Or.inr ⟨hpe, ha, hz, hD⟩)

/-- What changes from one advection step to the next: flux function, `dt/dx`, velocity arrays and schedules. -/
structure AdvStep (K : Type) where
  f : K → (Option (Fin 2) → C2 → K) → K
  dtByDx : K
  vel : World C2 (Fin 2 × ℤ) K
  s1 : C2 → List Ev
  s : List Ev

/-- C39: any number of advection steps (each with its own velocity `V`, time step and schedule): the distributed field is the
global one after the same steps. -/
theorem advectionRun2_global {gy gx py px : ℕ} {per : Bool} {T : Cart2} (hT : mkCart2 gy gx py px per = .ok T)
    (hy2 : 4 ≤ T.ny) (hx2 : 4 ≤ T.nx) (full : Bool) (steps : List (AdvStep K × (Fin 2 → C2 → K)))
    (hst : ∀ x ∈ steps, CrossLocal2 2 (x.1.f (-x.1.dtByDx)) ∧ Complete (multiMsgs2 T 2 full [none, some (0 : Fin 2), some 1]) x.1.s ∧
      ∀ j, HoldsExt2 T 2 (x.2 j) fun c i => x.1.vel c (j, i))
    (F : C2 → K) (st : StepState C2 ℤ K) (hw : HoldsExt2 T 2 F st.field) :
    HoldsExt2 T 2 (steps.foldl (fun F x => serialAdvection2 gy gx per (x.1.f (-x.1.dtByDx)) x.2 F) F)
      (steps.foldl (fun st x => (advectionStep2 T 2 full x.1.f x.1.dtByDx x.1.s1 x.1.s x.1.vel st).2) st).field := by
  induction steps generalizing F st with
  | nil => exact hw
  | cons x xs ih =>
    rw [List.foldl_cons, List.foldl_cons]
    obtain ⟨h1, h2, h3⟩ := hst x List.mem_cons_self
    exact ih (fun y hy => hst y (List.mem_cons_of_mem _ hy)) _ _ (advectionStep2_holds hT hy2 hx2 full x.1.dtByDx h1 x.1.vel st hw h3 x.1.s1 h2)

/-- non-vacuity: every global field and its continuation can be held by the ranks -/
example (T : Cart2) (F : C2 → K) : ∃ v, HoldsExt2 T 2 F v := by
  refine ⟨fun c i => F (globalIx2 T (2 : ℕ) c (unflat2 T 2 i)), ?_⟩
  intro c p hc hp
  have ha : InArr2 T ((2 : ℕ) : ℤ) p := by
    rcases hp with hp | hp
    · obtain ⟨p1, p2, p3, p4⟩ := hp
      refine ⟨by omega, by omega, by omega, by omega⟩
    · exact hp.2.1
  have h4 : p.2 < cols2 T 2 := by unfold cols2; have := ha.2.2.2; omega
  have := flat2_div (T := T) (g := 2) (p := p) (by have := ha.2.2.1; omega) h4
  simp only [unflat2, this.1, this.2]

/-! ## C61: physical ghost cells when the ghost layer is thicker than the stencil -/

/-- C61: which ghost cells a kernel writes: those of ghost rows at least `k` rows from the end of the array, in the `k` first and last
inner columns of the *block*. None if the ghost size equals the support. -/
theorem ghost_cells_written_iff {T : Cart2} {g k : ℕ} (hk1 : 1 ≤ k) (hkg : k ≤ g) (hny : k ≤ T.ny) (hnx : k ≤ T.nx) {p : C2}
    (hp : ¬ Inner2 T g p) :
    1 ≤ timesWritten2 T g k p ↔ (k ≤ p.1 ∧ p.1 < T.ny + 2 * g - k) ∧
      ((g ≤ p.2 ∧ p.2 < g + k) ∨ (g + T.nx - k ≤ p.2 ∧ p.2 < g + T.nx)) := by
  have hg : 1 ≤ g := by omega
  unfold timesWritten2 boundaryViews2 interiorView2
  rw [Nat.one_le_iff_ne_zero, Ne, List.countP_eq_zero]
  simp only [List.mem_cons, List.not_mem_nil, or_false, forall_eq_or_imp, forall_eq, decide_eq_true_eq, writes2]
  simp only [inPass_inner hg, inPass_lo hkg hny, inPass_lo hkg hnx, inPass_hi hg hkg hny, inPass_hi hg hkg hnx, inPass_full,
    decide_eq_true_eq]
  unfold Inner2 at hp
  omega

end Diffusion

/-- One-sided curl-like increment used in the witness: difference of the two inputs' neighbours. -/
def curlDemo (u : Fin 2 → C2 → ℤ) : ℤ := (u 1 (0, 1) - u 1 (0, -1)) - (u 0 (1, 0) - u 0 (-1, 0))

theorem curlDemo_local : CrossLocal2 1 curlDemo := by
  intro u v h
  unfold curlDemo
  rw [h 1 (0, 1) (by simp [Cross2]), h 1 (0, -1) (by simp [Cross2]), h 0 (1, 0) (by simp [Cross2]), h 0 (-1, 0) (by simp [Cross2])]

/-- A forcing that is 1 in the first row of the domain and 0 elsewhere, ghost cells included, on any decomposition. -/
def demoForcing (T : Cart2) : World C2 (Fin 2 × ℤ) ℤ := fun c i =>
  if i.1 = 0 ∧ (globalIx2 T 2 c (unflat2 T 2 i.2)).1 = 0 then 1 else 0

/-- the same cell of the same non-periodic 4 × 4 domain on one rank and on 1 × 2 ranks -/
def demoT1 : Cart2 := ⟨4, 4, 1, 1, 4, 4, false⟩
/-- see `demoT1` -/
def demoT2 : Cart2 := ⟨4, 4, 1, 2, 4, 2, false⟩

/-- C61: with the simulators' ghost size 2 and support 1 the vorticity update leaves different values in a physical ghost cell
depending on the decomposition: the cell one row below the domain in column 1 keeps its value 0 on a single rank, but gets an increment on 1 × 2
ranks. (The next advection step reads that cell.) -/
theorem stencilAdd2_physical_ghost_depends :
    mkCart2 4 4 1 1 false = .ok demoT1 ∧ mkCart2 4 4 1 2 false = .ok demoT2 ∧
    (∃ s, Complete (multiMsgs2 demoT1 2 false ([0, 1] : List (Fin 2))) s ∧ stencilAdd2 demoT1 2 false [0, 1] 1 curlDemo (demoForcing demoT1)
      (fun _ => []) s (fun _ _ => 0) (0, 0) (1, 3) = 0) ∧
    (∃ s, Complete (multiMsgs2 demoT2 2 false ([0, 1] : List (Fin 2))) s ∧ stencilAdd2 demoT2 2 false [0, 1] 1 curlDemo (demoForcing demoT2)
      (fun _ => []) s (fun _ _ => 0) (0, 0) (1, 3) = -1) ∧
    globalIx2 demoT1 2 (0, 0) (1, 3) = (-1, 1) ∧ globalIx2 demoT2 2 (0, 0) (1, 3) = (-1, 1) := by
  refine ⟨rfl, rfl, ⟨[], ?_, by decide⟩, ⟨[.pick 0, .pick 1, .pick 2, .pick 3, .land 0, .land 1, .land 2, .land 3], ?_, by decide⟩,
    by decide, by decide⟩
  · intro k hk
    have : (multiMsgs2 demoT1 2 false ([0, 1] : List (Fin 2))).length = 0 := by decide
    omega
  · intro k hk
    have : (multiMsgs2 demoT2 2 false ([0, 1] : List (Fin 2))).length = 4 := by decide
    rw [this] at hk
    rcases (by omega : k = 0 ∨ k = 1 ∨ k = 2 ∨ k = 3) with rfl | rfl | rfl | rfl
    · exact ⟨[], [.pick 1, .pick 2, .pick 3], [.land 1, .land 2, .land 3], rfl⟩
    · exact ⟨[.pick 0], [.pick 2, .pick 3, .land 0], [.land 2, .land 3], rfl⟩
    · exact ⟨[.pick 0, .pick 1], [.pick 3, .land 0, .land 1], [.land 3], rfl⟩
    · exact ⟨[.pick 0, .pick 1, .pick 2], [.land 0, .land 1, .land 2], [], rfl⟩

end Sopht
