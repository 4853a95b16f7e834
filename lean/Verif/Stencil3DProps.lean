import Verif.Stencil3DLemmas
import Verif.Stencil2DProps
import Mathlib.Tactic.FinCases
import Mathlib.Data.Fintype.Basic

/-! # Properties of the 3D stencil kernels and time steps (C30, C32, C35–C39) -/

namespace Sopht

set_option linter.unusedSimpArgs false

/-- C30 (3D): generators that take a field type raise ValueError exactly for an unknown field type or a ghost layer thinner than the
stencil. -/
theorem genFieldKernel3_error_iff (fieldType : String) (ghost support : ℤ) :
    (genFieldKernel3 fieldType ghost support = .error .valueError ↔
      (fieldType ≠ "scalar" ∧ fieldType ≠ "vector") ∨ ghost < support) ∧
    (genFieldKernel3 fieldType ghost support = .ok () ↔ (fieldType = "scalar" ∨ fieldType = "vector") ∧ support ≤ ghost) := by
  unfold genFieldKernel3
  have := checkSupport_error_iff ghost support
  by_cases h : fieldType ≠ "scalar" ∧ fieldType ≠ "vector"
  · rw [if_pos h]
    refine ⟨by simp [h], ?_⟩
    constructor
    · intro h'; cases h'
    · rintro ⟨h' | h', -⟩
      · exact absurd h' h.1
      · exact absurd h' h.2
  · rw [if_neg h, this.1, this.2]
    refine ⟨by simp only [h, false_or], ?_⟩
    have : fieldType = "scalar" ∨ fieldType = "vector" := by
      by_contra hh; push Not at hh; exact h hh
    simp only [this, true_and]

/-! ## C32 -/

/-- How often the passes of a kernel compute cell `p`. -/
def timesWritten3 (T : Cart3) (g k : ℕ) (isCurl : Bool) (p : C3) : ℕ :=
  (interiorView3 T g isCurl :: boundaryViews3 T g k).countP fun V => writes3 k V p

/-- C32: every inner cell is computed at least once, for every block that the ghost exchange supports. -/
theorem timesWritten3_pos {T : Cart3} {g k : ℕ} (hk1 : 1 ≤ k) (hkg : k ≤ g) (hnz : k ≤ T.nz) (hny : k ≤ T.ny) (hnx : k ≤ T.nx)
    (isCurl : Bool) {p : C3} (hp : Inner3 T g p) : 1 ≤ timesWritten3 T g k isCurl p := by
  obtain ⟨v0, v1, v2, v3, v4, v5, v6⟩ := views3_at hk1 hkg hnz hny hnx isCurl hp
  unfold timesWritten3 boundaryViews3
  rw [Nat.one_le_iff_ne_zero, Ne, List.countP_eq_zero]
  intro h
  simp only [List.mem_cons, List.not_mem_nil, or_false, forall_eq_or_imp, forall_eq, decide_eq_true_eq] at h
  rw [v0, v1, v2, v3, v4, v5, v6] at h
  obtain ⟨p1, p2, p3, p4, p5, p6⟩ := hp
  obtain ⟨h0, h1, h2, h3, h4, h5, h6⟩ := h
  have hx : g + k ≤ p.2.2 ∧ p.2.2 < g + T.nx - k := by omega
  exact h0 ⟨by omega, by omega, Or.inr hx⟩

/-- C32: the passes compute every inner cell exactly once if and only if the block is wide enough: at least `2k` cells along x and, unless the
x passes already cover everything, at least `2k` along y and, unless the y passes cover the rest, at least `2k` along z. -/
theorem passes3_exactly_once_iff {T : Cart3} {g k : ℕ} (hk1 : 1 ≤ k) (hkg : k ≤ g) (hnz : k ≤ T.nz) (hny : k ≤ T.ny) (hnx : k ≤ T.nx) :
    (∀ p, Inner3 T g p → timesWritten3 T g k false p = 1) ↔
      2 * k ≤ T.nx ∧ (T.nx = 2 * k ∨ (2 * k ≤ T.ny ∧ (T.ny = 2 * k ∨ 2 * k ≤ T.nz))) := by
  have cnt : ∀ p, Inner3 T g p → timesWritten3 T g k false p =
      (if (g + k ≤ p.1 ∧ p.1 < g + T.nz - k) ∧ (g + k ≤ p.2.1 ∧ p.2.1 < g + T.ny - k) ∧ g + k ≤ p.2.2 ∧ p.2.2 < g + T.nx - k then 1 else 0) +
      (if p.1 < g + k ∧ (g + k ≤ p.2.1 ∧ p.2.1 < g + T.ny - k) ∧ g + k ≤ p.2.2 ∧ p.2.2 < g + T.nx - k then 1 else 0) +
      (if g + T.nz - k ≤ p.1 ∧ (g + k ≤ p.2.1 ∧ p.2.1 < g + T.ny - k) ∧ g + k ≤ p.2.2 ∧ p.2.2 < g + T.nx - k then 1 else 0) +
      (if p.2.1 < g + k ∧ g + k ≤ p.2.2 ∧ p.2.2 < g + T.nx - k then 1 else 0) +
      (if g + T.ny - k ≤ p.2.1 ∧ g + k ≤ p.2.2 ∧ p.2.2 < g + T.nx - k then 1 else 0) +
      (if p.2.2 < g + k then 1 else 0) + (if g + T.nx - k ≤ p.2.2 then 1 else 0) := by
    intro p hp
    obtain ⟨v0, v1, v2, v3, v4, v5, v6⟩ := views3_at hk1 hkg hnz hny hnx false hp
    unfold timesWritten3 boundaryViews3
    simp only [List.countP_cons, List.countP_nil, decide_eq_true_eq, v0, v1, v2, v3, v4, v5, v6, Bool.false_eq_true, false_or]
    ring
  constructor
  · intro h
    have mk : ∀ z y x : ℤ, g ≤ z → z < g + T.nz → g ≤ y → y < g + T.ny → g ≤ x → x < g + T.nx → Inner3 T g (z, y, x) :=
      fun z y x a b c d e f => ⟨a, b, c, d, e, f⟩
    have hx : 2 * k ≤ T.nx := by
      by_contra hlt
      have hp := mk g g (g + T.nx - k) (by omega) (by omega) (by omega) (by omega) (by omega) (by omega)
      have := h _ hp
      rw [cnt _ hp] at this
      simp only at this
      rw [if_pos (show (g : ℤ) + T.nx - k < g + k by omega), if_pos (le_refl _)] at this
      omega
    refine ⟨hx, ?_⟩
    by_cases hx2 : T.nx = 2 * k
    · exact Or.inl hx2
    right
    have hy : 2 * k ≤ T.ny := by
      by_contra hlt
      have hp := mk g (g + T.ny - k) (g + k) (by omega) (by omega) (by omega) (by omega) (by omega) (by omega)
      have := h _ hp
      rw [cnt _ hp] at this
      simp only at this
      rw [if_pos (show (g : ℤ) + T.ny - k < g + k ∧ (g : ℤ) + k ≤ g + k ∧ (g : ℤ) + k < g + T.nx - k by omega),
        if_pos (show (g : ℤ) + T.ny - k ≤ g + T.ny - k ∧ (g : ℤ) + k ≤ g + k ∧ (g : ℤ) + k < g + T.nx - k by omega)] at this
      omega
    refine ⟨hy, ?_⟩
    by_cases hy2 : T.ny = 2 * k
    · exact Or.inl hy2
    right
    by_contra hlt
    have hp := mk (g + T.nz - k) (g + k) (g + k) (by omega) (by omega) (by omega) (by omega) (by omega) (by omega)
    have := h _ hp
    rw [cnt _ hp] at this
    simp only at this
    rw [if_pos (show (g : ℤ) + T.nz - k < g + k ∧ ((g : ℤ) + k ≤ g + k ∧ (g : ℤ) + k < g + T.ny - k) ∧
        (g : ℤ) + k ≤ g + k ∧ (g : ℤ) + k < g + T.nx - k by omega),
      if_pos (show (g : ℤ) + T.nz - k ≤ g + T.nz - k ∧ ((g : ℤ) + k ≤ g + k ∧ (g : ℤ) + k < g + T.ny - k) ∧
        (g : ℤ) + k ≤ g + k ∧ (g : ℤ) + k < g + T.nx - k by omega)] at this
    omega
  · rintro ⟨h1, h2⟩ p hp
    rw [cnt p hp]
    obtain ⟨p1, p2, p3, p4, p5, p6⟩ := hp
    by_cases x1 : p.2.2 < g + k
    · rw [if_neg (by omega), if_neg (by omega), if_neg (by omega), if_neg (by omega), if_neg (by omega), if_pos x1, if_neg (by omega)]
    by_cases x2 : g + T.nx - k ≤ p.2.2
    · rw [if_neg (by omega), if_neg (by omega), if_neg (by omega), if_neg (by omega), if_neg (by omega), if_neg x1, if_pos x2]
    by_cases y1 : p.2.1 < g + k
    · rw [if_neg (by omega), if_neg (by omega), if_neg (by omega), if_pos (by omega), if_neg (by omega), if_neg x1, if_neg x2]
    by_cases y2 : g + T.ny - k ≤ p.2.1
    · rw [if_neg (by omega), if_neg (by omega), if_neg (by omega), if_neg (by omega), if_pos (by omega), if_neg x1, if_neg x2]
    by_cases z1 : p.1 < g + k
    · rw [if_neg (by omega), if_pos (by omega), if_neg (by omega), if_neg (by omega), if_neg (by omega), if_neg x1, if_neg x2]
    by_cases z2 : g + T.nz - k ≤ p.1
    · rw [if_neg (by omega), if_neg (by omega), if_pos (by omega), if_neg (by omega), if_neg (by omega), if_neg x1, if_neg x2]
    · rw [if_pos (by omega), if_neg (by omega), if_neg (by omega), if_neg (by omega), if_neg (by omega), if_neg x1, if_neg x2]

/-- non-vacuity: 4 × 4 × 4 block, support 2, ghost size 2 -/
example : ∀ p, Inner3 ⟨4, 4, 4, 1, 1, 1, 4, 4, 4, false⟩ ((2 : ℕ) : ℤ) p →
    timesWritten3 ⟨4, 4, 4, 1, 1, 1, 4, 4, 4, false⟩ 2 2 false p = 1 :=
  (passes3_exactly_once_iff (by omega) (by omega) (by simp) (by simp) (by simp)).2 (by simp)

section
variable {ι K β : Type}

/-- C32: on blocks with fewer than `2k` cells along x an accumulating kernel adds its increment twice where both x passes overlap. -/
theorem kernel3_thin_doubles {T : Cart3} {g k : ℕ} (hk1 : 1 ≤ k) (hkg : k ≤ g) (hnz : k ≤ T.nz) (hny : k ≤ T.ny) (hnx : k ≤ T.nx)
    (op : β → β → β) (f : (ι → C3 → K) → β) (A1 A2 : ι → C3 → K) (out : C3 → β) {p : C3} (hp : Inner3 T g p)
    (h1 : g + T.nx - k ≤ p.2.2) (h2 : p.2.2 < g + k) :
    kernel3 T g k false op f A1 A2 out p =
      op (op (out p) (f fun i d => A2 i (shift3 p d))) (f fun i d => A2 i (shift3 p d)) := by
  obtain ⟨v0, v1, v2, v3, v4, v5, v6⟩ := views3_at hk1 hkg hnz hny hnx false hp
  simp only [Bool.false_eq_true, false_or] at v0
  unfold kernel3 boundaryViews3
  simp only [List.foldl_cons, List.foldl_nil]
  rw [pass3_pos (v6.2 h1), pass3_pos (v5.2 h2), pass3_neg (by rw [v4]; omega), pass3_neg (by rw [v3]; omega),
    pass3_neg (by rw [v2]; omega), pass3_neg (by rw [v1]; omega), pass3_neg (by rw [v0]; omega)]

example : ∃ p, Inner3 ⟨3, 3, 3, 1, 1, 3, 3, 3, 1, false⟩ 1 p ∧ (1 : ℤ) + 1 - 1 ≤ p.2.2 ∧ p.2.2 < 1 + 1 :=
  ⟨(1, 1, 1), by simp [Inner3], by simp, by simp⟩

/-! ## C36: data in flight -/

/-- C36 (all 3D kernels except the curl): the arrays after the kernel do not depend on what ghost cells hold during the interior pass. -/
theorem kernel3_ignores_inflight {T : Cart3} {g k : ℕ} (hk1 : 1 ≤ k) (hkg : k ≤ g) (op : β → β → β) {f : (ι → C3 → K) → β}
    (hf : CrossLocal3 k f) {A1 A1' A2 : ι → C3 → K}
    (h1 : ∀ i p, Inner3 T g p → A1 i p = A2 i p) (h1' : ∀ i p, Inner3 T g p → A1' i p = A2 i p) (out : C3 → β) :
    kernel3 T g k false op f A1 A2 out = kernel3 T g k false op f A1' A2 out := by
  unfold kernel3
  congr 1
  funext p
  by_cases h : writes3 k (interiorView3 T g false) p
  · rw [pass3_pos h, pass3_pos h]
    congr 1
    apply hf
    intro i d hd
    have := interior_window3 (by omega) h (fun h => by simp at h) hd
    rw [h1 i _ this, h1' i _ this]
  · rw [pass3_neg h, pass3_neg h]

/-- C36 (overwriting kernels, the curl included): inner cells of the result do not depend on what ghost cells hold during the interior
pass, although the curl's interior pass reads ghost columns. -/
theorem kernel3_over_ignores_inflight {T : Cart3} {g k : ℕ} (hk1 : 1 ≤ k) (hkg : k ≤ g) (hnz : k ≤ T.nz) (hny : k ≤ T.ny) (hnx : k ≤ T.nx)
    (isCurl : Bool) {f : (ι → C3 → K) → β} (hf : CrossLocal3 k f) {A1 A1' A2 : ι → C3 → K}
    (h1 : ∀ i p, Inner3 T g p → A1 i p = A2 i p) (h1' : ∀ i p, Inner3 T g p → A1' i p = A2 i p) (out out' : C3 → β) {p : C3}
    (hp : Inner3 T g p) :
    kernel3 T g k isCurl (fun _ b => b) f A1 A2 out p = kernel3 T g k isCurl (fun _ b => b) f A1' A2 out' p := by
  rw [kernel3_over hk1 hkg hnz hny hnx isCurl hf h1 out hp, kernel3_over hk1 hkg hnz hny hnx isCurl hf h1' out' hp]

/-- The restriction to inner cells is needed for the curl: with ghost size above the support its interior pass leaves values computed from
in-flight data in ghost columns. Witness: ghost size 2, support 1, a 4 × 4 × 4 block; two contents of the arrays that agree in all
inner cells give different values in ghost cell (3, 3, 1). -/
theorem curl_ghost_columns_race :
    ∃ (T : Cart3) (f : (Unit → C3 → ℤ) → ℤ) (A1 A1' A2 : Unit → C3 → ℤ), CrossLocal3 1 f ∧
      (∀ i p, Inner3 T ((2 : ℕ) : ℤ) p → A1 i p = A2 i p) ∧ (∀ i p, Inner3 T ((2 : ℕ) : ℤ) p → A1' i p = A2 i p) ∧
      InArr3 T ((2 : ℕ) : ℤ) (3, 3, 1) ∧
      kernel3 T 2 1 true (fun _ b => b) f A1 A2 (fun _ => 0) (3, 3, 1) ≠ kernel3 T 2 1 true (fun _ b => b) f A1' A2 (fun _ => 0) (3, 3, 1) := by
  refine ⟨⟨4, 4, 4, 1, 1, 1, 4, 4, 4, false⟩, fun u => u () (0, 0, 0), fun _ p => if p.2.2 < 2 then 5 else 0, fun _ _ => 0, fun _ _ => 0,
    ?_, ?_, ?_, ?_, ?_⟩
  · intro u v h
    exact h () (0, 0, 0) (by simp [Cross3])
  · intro i p hp
    have := hp.2.2.2.2.1
    simp only
    rw [if_neg (by push_cast at this; omega)]
  · intro i p hp; rfl
  · simp [InArr3]
  · decide

variable [DecidableEq ι]

/-- C36: whatever part of the communication has happened when a rank does its interior pass and in whatever order messages move, inner
cells of the result are the same (curl included); for the other kernels also ghost cells (`stencil3_schedule_independent`). -/
theorem stencil3_over_schedule_independent {T : Cart3} {g k : ℕ} (hk1 : 1 ≤ k) (hkg : k ≤ g) (hz : g ≤ T.nz) (hy : g ≤ T.ny) (hx : g ≤ T.nx)
    (full : Bool) {comps : List ι} (hcs : ∀ i, i ∈ comps) (isCurl : Bool) {f : (ι → C3 → K) → β} (hf : CrossLocal3 k f)
    (w : World C3 (ι × C3) K) (s1 s1' : C3 → List Ev) {s s' : List Ev} (hs : Complete (multiMsgs3 T g full comps) s)
    (hs' : Complete (multiMsgs3 T g full comps) s') (out out' : C3 → C3 → β) (c : C3) {p : C3} (hp : Inner3 T g p) :
    stencil3 T g full comps k isCurl (fun _ b => b) f w s1 s out c p = stencil3 T g full comps k isCurl (fun _ b => b) f w s1' s' out' c p := by
  have hE : multiExchange3 T g full comps w s = multiExchange3 T g full comps w s' := by
    funext c i
    unfold multiExchange3
    rw [runNet_eq (multi3_exchSpec hz hy hx full hcs w) hs, runNet_eq (multi3_exchSpec hz hy hx full hcs w) hs']
  unfold stencil3
  rw [hE]
  refine kernel3_over_ignores_inflight hk1 hkg (by omega) (by omega) (by omega) isCurl hf ?_ ?_ _ _ hp
  all_goals
    intro i p hp
    rw [multiExchange3_inner hz hy hx full hcs w _ i hp, multiExchange3_inner hz hy hx full hcs w _ i hp]

/-- C36: schedule independence of all kernels but the curl, on the whole arrays, overwriting or accumulating. -/
theorem stencil3_schedule_independent {T : Cart3} {g k : ℕ} (hk1 : 1 ≤ k) (hkg : k ≤ g) (hz : g ≤ T.nz) (hy : g ≤ T.ny) (hx : g ≤ T.nx)
    (full : Bool) {comps : List ι} (hcs : ∀ i, i ∈ comps) (op : β → β → β) {f : (ι → C3 → K) → β} (hf : CrossLocal3 k f)
    (w : World C3 (ι × C3) K) (s1 s1' : C3 → List Ev) {s s' : List Ev} (hs : Complete (multiMsgs3 T g full comps) s)
    (hs' : Complete (multiMsgs3 T g full comps) s') (out : C3 → C3 → β) (c : C3) :
    stencil3 T g full comps k false op f w s1 s out c = stencil3 T g full comps k false op f w s1' s' out c := by
  have hE : multiExchange3 T g full comps w s = multiExchange3 T g full comps w s' := by
    funext c i
    unfold multiExchange3
    rw [runNet_eq (multi3_exchSpec hz hy hx full hcs w) hs, runNet_eq (multi3_exchSpec hz hy hx full hcs w) hs']
  unfold stencil3
  rw [hE]
  refine kernel3_ignores_inflight hk1 hkg op hf ?_ ?_ _
  all_goals
    intro i p hp
    rw [multiExchange3_inner hz hy hx full hcs w _ i hp, multiExchange3_inner hz hy hx full hcs w _ i hp]

/-! ## C35, C37: agreement with the global field -/

/-- Overwriting kernels compute in an inner cell what the kernel gives on the global field. -/
theorem stencil3_over_global {gz gy gx pz py px : ℕ} {per : Bool} {T : Cart3} (hT : mkCart3 gz gy gx pz py px per = .ok T)
    {g k : ℕ} (hk1 : 1 ≤ k) (hkg : k ≤ g) (hz : g ≤ T.nz) (hy : g ≤ T.ny) (hx : g ≤ T.nx) (full : Bool) {comps : List ι}
    (hcs : ∀ i, i ∈ comps) (isCurl : Bool)
    {w : World C3 (ι × C3) K} {F : ι → C3 → K} {f : (ι → C3 → K) → β} (hf : CrossLocal3 k f)
    (hw : ∀ i c p, Valid3 T c → Inner3 T g p → w c (i, p) = F i (globalIx3 T g c p))
    (s1 : C3 → List Ev) {s : List Ev} (hs : Complete (multiMsgs3 T g full comps) s) (out : C3 → C3 → β)
    {c p : C3} (hc : Valid3 T c) (hp : Inner3 T g p) (hG : per = true ∨ Away3 gz gy gx k (globalIx3 T g c p)) :
    stencil3 T g full comps k isCurl (fun _ b => b) f w s1 s out c p = serialAt3 gz gy gx per f F (globalIx3 T g c p) := by
  unfold stencil3
  rw [kernel3_over hk1 hkg (by omega) (by omega) (by omega) isCurl hf ?_ (out c) hp]
  · exact multi3_stencil hT hkg hz hy hx full hcs hf hw hs hc hp (hG.elim Or.inl (fun h => Or.inr (Or.inl h)))
  · intro i p hp
    rw [multiExchange3_inner hz hy hx full hcs w _ i hp, multiExchange3_inner hz hy hx full hcs w _ i hp]

/-- C35: an accumulating kernel (advection flux, vorticity updates) adds to every inner cell exactly the increment computed from the
global field, if all cells read for it are in the domain, or the domain is periodic, or the ghost cells beyond the domain hold the
continuation `F`, for blocks of at least `2k` cells. -/
theorem stencilAdd3_global [Add β] {gz gy gx pz py px : ℕ} {per : Bool} {T : Cart3} (hT : mkCart3 gz gy gx pz py px per = .ok T)
    {g k : ℕ} (hk1 : 1 ≤ k) (hkg : k ≤ g) (hz : g ≤ T.nz) (hy : g ≤ T.ny) (hx : g ≤ T.nx) (hz2 : 2 * k ≤ T.nz) (hy2 : 2 * k ≤ T.ny)
    (hx2 : 2 * k ≤ T.nx) (full : Bool) {comps : List ι} (hcs : ∀ i, i ∈ comps)
    {w : World C3 (ι × C3) K} {F : ι → C3 → K} {f : (ι → C3 → K) → β} (hf : CrossLocal3 k f)
    (hw : ∀ i c p, Valid3 T c → Inner3 T g p → w c (i, p) = F i (globalIx3 T g c p))
    (s1 : C3 → List Ev) {s : List Ev} (hs : Complete (multiMsgs3 T g full comps) s) (out : C3 → C3 → β)
    {c p : C3} (hc : Valid3 T c) (hp : Inner3 T g p)
    (hG : per = true ∨ Away3 gz gy gx k (globalIx3 T g c p) ∨
      ∀ i q, InArr3 T g q → dirRank (zone g T.nz q.1, zone g T.ny q.2.1, zone g T.nx q.2.2) ≤ 1 → ¬ InDomain3 T (globalIx3 T g c q) →
        w c (i, q) = F i (globalIx3 T g c q)) :
    stencilAdd3 T g full comps k f w s1 s out c p = out c p + serialAt3 gz gy gx per f F (globalIx3 T g c p) := by
  unfold stencilAdd3 stencil3
  rw [kernel3_once hk1 hkg hz2 hy2 hx2 hf _ ?_ (out c) hp]
  · rw [multi3_stencil hT hkg hz hy hx full hcs hf hw hs hc hp hG]
  · intro i p hp
    rw [multiExchange3_inner hz hy hx full hcs w _ i hp, multiExchange3_inner hz hy hx full hcs w _ i hp]

/-- C37 (3D): the boundary zeroing sets an inner cell to `z` exactly if the domain is not periodic and the cell is one of the outermost
cells of the *global* domain; it changes no other inner cell. -/
theorem zeroSides3_inner {gz gy gx pz py px : ℕ} {per : Bool} {T : Cart3} (hT : mkCart3 gz gy gx pz py px per = .ok T) {g : ℕ} (hg : 1 ≤ g)
    (z : β) (out : C3 → β) {c p : C3} (hc : Valid3 T c) (hp : Inner3 T g p) :
    zeroSides3 T g z c out p = if per = false ∧ OnEdge3 gz gy gx (globalIx3 T g c p) then z else out p := by
  obtain ⟨e0, e1, e2, -, -, -, hper, hZ, hY, hX⟩ := construct3_ok hT
  obtain ⟨b1, b2, c1, c2, c3, c4⟩ := hc
  obtain ⟨q1, q2, p1, p2, p3, p4⟩ := hp
  have ez := axis_edge b1 b2 q1 q2
  have ey := axis_edge c1 c2 p1 p2
  have ex := axis_edge c3 c4 p3 p4
  rw [hZ, e0] at ez
  rw [hY, e1] at ey
  rw [hX, e2] at ex
  have n1 : prevX3 T c = none ↔ per = false ∧ c.2.2 = 0 := by
    unfold prevX3; rw [Option.map_eq_none_iff, axisNbr_none_iff, hper]
    exact and_congr_right fun _ => by omega
  have n2 : nextX3 T c = none ↔ per = false ∧ c.2.2 = T.px - 1 := by
    unfold nextX3; rw [Option.map_eq_none_iff, axisNbr_none_iff, hper]
    exact and_congr_right fun _ => by omega
  have n3 : prevY3 T c = none ↔ per = false ∧ c.2.1 = 0 := by
    unfold prevY3; rw [Option.map_eq_none_iff, axisNbr_none_iff, hper]
    exact and_congr_right fun _ => by omega
  have n4 : nextY3 T c = none ↔ per = false ∧ c.2.1 = T.py - 1 := by
    unfold nextY3; rw [Option.map_eq_none_iff, axisNbr_none_iff, hper]
    exact and_congr_right fun _ => by omega
  have n5 : prevZ3 T c = none ↔ per = false ∧ c.1 = 0 := by
    unfold prevZ3; rw [Option.map_eq_none_iff, axisNbr_none_iff, hper]
    exact and_congr_right fun _ => by omega
  have n6 : nextZ3 T c = none ↔ per = false ∧ c.1 = T.pz - 1 := by
    unfold nextZ3; rw [Option.map_eq_none_iff, axisNbr_none_iff, hper]
    exact and_congr_right fun _ => by omega
  have hE : OnEdge3 gz gy gx (globalIx3 T g c p) ↔ (c.1 = 0 ∧ p.1 = g) ∨ (c.1 = T.pz - 1 ∧ p.1 = g + T.nz - 1) ∨
      (c.2.1 = 0 ∧ p.2.1 = g) ∨ (c.2.1 = T.py - 1 ∧ p.2.1 = g + T.ny - 1) ∨
      (c.2.2 = 0 ∧ p.2.2 = g) ∨ (c.2.2 = T.px - 1 ∧ p.2.2 = g + T.nx - 1) := by
    unfold OnEdge3 globalIx3
    simp only
    rw [ez.1, ez.2, ey.1, ey.2, ex.1, ex.2]
  unfold zeroSides3 sliceR
  rw [pyStart_min (size := T.nx + 2 * g) (o := 0) le_rfl, pyStart_min (size := T.ny + 2 * g) (o := 0) le_rfl,
    pyStart_min (size := T.nz + 2 * g) (o := 0) le_rfl,
    pyStart_min (size := T.nx + 2 * g) (o := g + 1) (by omega), pyStart_min (size := T.ny + 2 * g) (o := g + 1) (by omega),
    pyStart_min (size := T.nz + 2 * g) (o := g + 1) (by omega),
    pyStart_max (size := T.nx + 2 * g) (o := -g - 1) (by omega), pyStart_max (size := T.ny + 2 * g) (o := -g - 1) (by omega),
    pyStart_max (size := T.nz + 2 * g) (o := -g - 1) (by omega)]
  simp only
  have a1 : (min 0 ((T.nx : ℤ) + 2 * g) ≤ p.2.2 ∧ p.2.2 < min ((g : ℤ) + 1) (T.nx + 2 * g)) ↔ p.2.2 = g := by omega
  have a2 : (max 0 ((T.nx : ℤ) + 2 * g + (-g - 1)) ≤ p.2.2 ∧ p.2.2 < T.nx + 2 * g) ↔ p.2.2 = g + T.nx - 1 := by omega
  have a3 : (min 0 ((T.ny : ℤ) + 2 * g) ≤ p.2.1 ∧ p.2.1 < min ((g : ℤ) + 1) (T.ny + 2 * g)) ↔ p.2.1 = g := by omega
  have a4 : (max 0 ((T.ny : ℤ) + 2 * g + (-g - 1)) ≤ p.2.1 ∧ p.2.1 < T.ny + 2 * g) ↔ p.2.1 = g + T.ny - 1 := by omega
  have a5 : (min 0 ((T.nz : ℤ) + 2 * g) ≤ p.1 ∧ p.1 < min ((g : ℤ) + 1) (T.nz + 2 * g)) ↔ p.1 = g := by omega
  have a6 : (max 0 ((T.nz : ℤ) + 2 * g + (-g - 1)) ≤ p.1 ∧ p.1 < T.nz + 2 * g) ↔ p.1 = g + T.nz - 1 := by omega
  have hset : ∀ (A B : Prop) [Decidable A] [Decidable B] (o : β), (if A then (if B then z else o) else o) = if A ∧ B then z else o := by
    intro A B _ _ o; by_cases hA : A <;> by_cases hB : B <;> simp [hA, hB]
  have hor : ∀ (A B : Prop) [Decidable A] [Decidable B] (o : β), (if A then z else if B then z else o) = if A ∨ B then z else o := by
    intro A B _ _ o; by_cases hA : A <;> by_cases hB : B <;> simp [hA, hB]
  simp only [ite_apply, a1, a2, a3, a4, a5, a6, n1, n2, n3, n4, n5, n6, hE]
  simp only [hset]
  simp only [hor]
  refine if_congr ?_ rfl rfl
  clear hE n1 n2 n3 n4 n5 n6 a1 a2 a3 a4 a5 a6 hset hor ez ey ex
  cases per
  · simp only [true_and]; omega
  · simp

/-- cells of the domain that are not outermost are away from the boundary -/
theorem away_of_not_edge3 {gz gy gx pz py px : ℕ} {per : Bool} {T : Cart3} (hT : mkCart3 gz gy gx pz py px per = .ok T) {g : ℕ}
    {c p : C3} (hc : Valid3 T c) (hp : Inner3 T g p) (h : ¬ OnEdge3 gz gy gx (globalIx3 T g c p)) :
    Away3 gz gy gx 1 (globalIx3 T g c p) := by
  obtain ⟨e0, e1, e2, -, -, -, hper, hZ, hY, hX⟩ := construct3_ok hT
  obtain ⟨b1, b2, c1, c2, c3, c4⟩ := hc
  obtain ⟨q1, q2, p1, p2, p3, p4⟩ := hp
  have d1 : 0 ≤ (globalIx3 T g c p).1 := by unfold globalIx3; simp only; nlinarith
  have d2 : (globalIx3 T g c p).1 < gz := by
    rw [← e0, ← hZ]; unfold globalIx3; simp only; push_cast; nlinarith
  have d3 : 0 ≤ (globalIx3 T g c p).2.1 := by unfold globalIx3; simp only; nlinarith
  have d4 : (globalIx3 T g c p).2.1 < gy := by
    rw [← e1, ← hY]; unfold globalIx3; simp only; push_cast; nlinarith
  have d5 : 0 ≤ (globalIx3 T g c p).2.2 := by unfold globalIx3; simp only; nlinarith
  have d6 : (globalIx3 T g c p).2.2 < gx := by
    rw [← e2, ← hX]; unfold globalIx3; simp only; push_cast; nlinarith
  unfold OnEdge3 at h
  unfold Away3
  push_cast
  omega

/-- C35: diffusion flux, divergence and curl (overwriting, support 1, outermost cells zeroed): if the ranks hold the blocks of global fields
`F`, every inner cell of every rank gets what the kernel gives on the global fields — whatever the topology, the ghost size, the
contents of ghost cells and output array, and the order in which messages move. -/
theorem stencilZero3_global {gz gy gx pz py px : ℕ} {per : Bool} {T : Cart3} (hT : mkCart3 gz gy gx pz py px per = .ok T)
    {g : ℕ} (hg : 1 ≤ g) (hz : g ≤ T.nz) (hy : g ≤ T.ny) (hx : g ≤ T.nx) (full : Bool) {comps : List ι} (hcs : ∀ i, i ∈ comps)
    (isCurl : Bool) {w : World C3 (ι × C3) K} {F : ι → C3 → K} {f : (ι → C3 → K) → β} (hf : CrossLocal3 1 f) (z : β)
    (hw : ∀ i c p, Valid3 T c → Inner3 T g p → w c (i, p) = F i (globalIx3 T g c p))
    (s1 : C3 → List Ev) {s : List Ev} (hs : Complete (multiMsgs3 T g full comps) s) (out : C3 → C3 → β)
    {c p : C3} (hc : Valid3 T c) (hp : Inner3 T g p) :
    stencilZero3 T g full comps 1 isCurl z f w s1 s out c p = serialZero3 gz gy gx per z f F (globalIx3 T g c p) := by
  unfold stencilZero3 serialZero3
  rw [zeroSides3_inner hT hg z _ hc hp]
  by_cases h : per = false ∧ OnEdge3 gz gy gx (globalIx3 T g c p)
  · rw [if_pos h, if_pos h]
  · rw [if_neg h, if_neg h]
    refine stencil3_over_global hT le_rfl hg hz hy hx full hcs isCurl hf hw s1 hs out hc hp ?_
    cases per with
    | true => exact Or.inl rfl
    | false => exact Or.inr (away_of_not_edge3 hT hc hp fun h' => h ⟨rfl, h'⟩)

/-- C35: two decompositions of the same domain give the same values at the same global cell. -/
theorem stencilZero3_decomposition_independent {gz gy gx pz py px pz' py' px' : ℕ} {per : Bool} {T T' : Cart3}
    (hT : mkCart3 gz gy gx pz py px per = .ok T) (hT' : mkCart3 gz gy gx pz' py' px' per = .ok T')
    {g g' : ℕ} (hg : 1 ≤ g) (hz : g ≤ T.nz) (hy : g ≤ T.ny) (hx : g ≤ T.nx)
    (hg' : 1 ≤ g') (hz' : g' ≤ T'.nz) (hy' : g' ≤ T'.ny) (hx' : g' ≤ T'.nx)
    (full full' : Bool) {comps : List ι} (hcs : ∀ i, i ∈ comps) (isCurl : Bool)
    {w w' : World C3 (ι × C3) K} {F : ι → C3 → K} {f : (ι → C3 → K) → β} (hf : CrossLocal3 1 f) (z : β)
    (hw : ∀ i c p, Valid3 T c → Inner3 T g p → w c (i, p) = F i (globalIx3 T g c p))
    (hw' : ∀ i c p, Valid3 T' c → Inner3 T' g' p → w' c (i, p) = F i (globalIx3 T' g' c p))
    (s1 s1' : C3 → List Ev) {s s' : List Ev} (hs : Complete (multiMsgs3 T g full comps) s)
    (hs' : Complete (multiMsgs3 T' g' full' comps) s') (out out' : C3 → C3 → β)
    {c p c' p' : C3} (hc : Valid3 T c) (hp : Inner3 T g p) (hc' : Valid3 T' c') (hp' : Inner3 T' g' p')
    (hG : globalIx3 T g c p = globalIx3 T' g' c' p') :
    stencilZero3 T g full comps 1 isCurl z f w s1 s out c p = stencilZero3 T' g' full' comps 1 isCurl z f w' s1' s' out' c' p' := by
  rw [stencilZero3_global hT hg hz hy hx full hcs isCurl hf z hw s1 hs out hc hp,
    stencilZero3_global hT' hg' hz' hy' hx' full' hcs isCurl hf z hw' s1' hs' out' hc' hp', hG]

/-- The curl as a kernel on three inputs: component x = ∂y u_z - ∂z u_y and cyclic, central differences without prefactor. -/
def curl3 (u : Fin 3 → C3 → ℤ) : ℤ × ℤ × ℤ :=
  ((u 2 (0, 1, 0) - u 2 (0, -1, 0)) - (u 1 (1, 0, 0) - u 1 (-1, 0, 0)),
   (u 0 (1, 0, 0) - u 0 (-1, 0, 0)) - (u 2 (0, 0, 1) - u 2 (0, 0, -1)),
   (u 1 (0, 0, 1) - u 1 (0, 0, -1)) - (u 0 (0, 1, 0) - u 0 (0, -1, 0)))

theorem curl3_local : CrossLocal3 1 curl3 := by
  intro u v h
  have hz : ∀ i, u i (1, 0, 0) = v i (1, 0, 0) := fun i => h i _ (by simp [Cross3])
  have hz' : ∀ i, u i (-1, 0, 0) = v i (-1, 0, 0) := fun i => h i _ (by simp [Cross3])
  have hy : ∀ i, u i (0, 1, 0) = v i (0, 1, 0) := fun i => h i _ (by simp [Cross3])
  have hy' : ∀ i, u i (0, -1, 0) = v i (0, -1, 0) := fun i => h i _ (by simp [Cross3])
  have hx : ∀ i, u i (0, 0, 1) = v i (0, 0, 1) := fun i => h i _ (by simp [Cross3])
  have hx' : ∀ i, u i (0, 0, -1) = v i (0, 0, -1) := fun i => h i _ (by simp [Cross3])
  unfold curl3
  simp only [hz, hz', hy, hy', hx, hx']

/-- non-vacuity of C35: 4 × 4 × 4 domain on 2 × 1 × 1 ranks; curl of a rotation in a cell at the inter-rank boundary, and zero in an outermost
cell. -/
example : mkCart3 4 4 4 2 1 1 false = .ok ⟨4, 4, 4, 2, 1, 1, 2, 4, 4, false⟩ ∧
    serialZero3 4 4 4 false (0, 0, 0) curl3 (fun i G => if i = 1 then G.2.2 else if i = 0 then -G.2.1 else 0)
      (globalIx3 ⟨4, 4, 4, 2, 1, 1, 2, 4, 4, false⟩ 1 (0, 0, 0) (2, 2, 2)) = (0, 0, 4) ∧
    serialZero3 4 4 4 false (0, 0, 0) curl3 (fun i G => if i = 1 then G.2.2 else if i = 0 then -G.2.1 else 0)
      (globalIx3 ⟨4, 4, 4, 2, 1, 1, 2, 4, 4, false⟩ 1 (0, 0, 0) (1, 2, 2)) = (0, 0, 0) := by
  refine ⟨rfl, by decide, by decide⟩

end

/-! ## C38: diffusion time stepping -/

section Time
variable {K : Type} [AddGroup K]

/-- One diffusion step on the global field: add the flux, which is zero in the outermost cells of a non-periodic domain. -/
def serialDiffusion3 (gz gy gx : ℕ) (per : Bool) (f : (Unit → C3 → K) → K) (F : C3 → K) : C3 → K :=
  fun G => F G + serialZero3 gz gy gx per 0 f (fun _ => F) G

/-- One diffusion step of the distributed code gives in every inner cell the step on the global field. -/
theorem diffusionStep3_global {gz gy gx pz py px : ℕ} {per : Bool} {T : Cart3} (hT : mkCart3 gz gy gx pz py px per = .ok T)
    {g : ℕ} (hg : 1 ≤ g) (hz : g ≤ T.nz) (hy : g ≤ T.ny) (hx : g ≤ T.nx) (full : Bool) {F : C3 → K} {f : (Unit → C3 → K) → K}
    (hf : CrossLocal3 1 f) (st : StepState C3 C3 K)
    (hw : ∀ c p, Valid3 T c → Inner3 T g p → st.field c p = F (globalIx3 T g c p))
    (s1 : C3 → List Ev) {s : List Ev} (hs : Complete (multiMsgs3 T g full [()]) s) {c p : C3} (hc : Valid3 T c) (hp : Inner3 T g p) :
    (diffusionStep3 T g full f s1 s st).field c p = serialDiffusion3 gz gy gx per f F (globalIx3 T g c p) := by
  unfold diffusionStep3 addFlux3 serialDiffusion3
  simp only
  have hcs : ∀ i : Unit, i ∈ [()] := by simp
  rw [multiExchange3_inner hz hy hx full hcs _ s () hp]
  simp only
  rw [hw c p hc hp, stencilZero3_global hT hg hz hy hx full hcs false hf 0 (F := fun _ => F) (fun _ c p hc hp => hw c p hc hp) s1 hs _ hc hp]

/-- Run of several diffusion steps: each has its own flux function (prefactor `nu dt / dx²`) and its own message schedule. -/
def diffusionRun3 (T : Cart3) (g : ℕ) (full : Bool) (steps : List (((Unit → C3 → K) → K) × (C3 → List Ev) × List Ev))
    (st : StepState C3 C3 K) : StepState C3 C3 K :=
  steps.foldl (fun st x => diffusionStep3 T g full x.1 x.2.1 x.2.2 st) st

/-- C38 (3D, scalar): after any number of diffusion steps the inner cells of all ranks are the blocks of the field obtained by the
same steps on the global field. -/
theorem diffusionRun3_global {gz gy gx pz py px : ℕ} {per : Bool} {T : Cart3} (hT : mkCart3 gz gy gx pz py px per = .ok T)
    {g : ℕ} (hg : 1 ≤ g) (hz : g ≤ T.nz) (hy : g ≤ T.ny) (hx : g ≤ T.nx) (full : Bool)
    (steps : List (((Unit → C3 → K) → K) × (C3 → List Ev) × List Ev))
    (hst : ∀ x ∈ steps, CrossLocal3 1 x.1 ∧ Complete (multiMsgs3 T g full [()]) x.2.2)
    (F : C3 → K) (st : StepState C3 C3 K)
    (hw : ∀ c p, Valid3 T c → Inner3 T g p → st.field c p = F (globalIx3 T g c p))
    {c p : C3} (hc : Valid3 T c) (hp : Inner3 T g p) :
    (diffusionRun3 T g full steps st).field c p =
      (steps.foldl (fun F x => serialDiffusion3 gz gy gx per x.1 F) F) (globalIx3 T g c p) := by
  unfold diffusionRun3
  induction steps generalizing F st with
  | nil => exact hw c p hc hp
  | cons x xs ih =>
    rw [List.foldl_cons, List.foldl_cons]
    refine ih (fun y hy => hst y (List.mem_cons_of_mem _ hy)) _ _ ?_
    intro c p hc hp
    exact diffusionStep3_global hT hg hz hy hx full (hst x (List.mem_cons_self)).1 st hw x.2.1 (hst x (List.mem_cons_self)).2 hc hp

/-- one vector diffusion step: every component is stepped, although the three share one flux buffer -/
theorem diffusionVecStep3_global {gz gy gx pz py px : ℕ} {per : Bool} {T : Cart3} (hT : mkCart3 gz gy gx pz py px per = .ok T)
    {g : ℕ} (hg : 1 ≤ g) (hz : g ≤ T.nz) (hy : g ≤ T.ny) (hx : g ≤ T.nx) (full : Bool) {F : Fin 3 → C3 → K} {f : (Unit → C3 → K) → K}
    (hf : CrossLocal3 1 f) (st : VecStepState K)
    (hw : ∀ i c p, Valid3 T c → Inner3 T g p → st.field i c p = F i (globalIx3 T g c p))
    (sch : Fin 3 → (C3 → List Ev) × List Ev) (hs : ∀ i, Complete (multiMsgs3 T g full [()]) (sch i).2)
    (i : Fin 3) {c p : C3} (hc : Valid3 T c) (hp : Inner3 T g p) :
    (diffusionVecStep3 T g full f sch st).field i c p = serialDiffusion3 gz gy gx per f (F i) (globalIx3 T g c p) := by
  have key : ∀ (j : Fin 3) (fl : C3 → C3 → K),
      (diffusionStep3 T g full f (sch j).1 (sch j).2 ⟨st.field j, fl⟩).field c p = serialDiffusion3 gz gy gx per f (F j) (globalIx3 T g c p) :=
    fun j fl => diffusionStep3_global hT hg hz hy hx full hf ⟨st.field j, fl⟩ (hw j) _ (hs j) hc hp
  unfold diffusionVecStep3
  simp only [List.foldl_cons, List.foldl_nil]
  fin_cases i <;> simp [Function.update, key]

/-- C38 (3D, vector): any number of vector diffusion steps. -/
theorem diffusionVecRun3_global {gz gy gx pz py px : ℕ} {per : Bool} {T : Cart3} (hT : mkCart3 gz gy gx pz py px per = .ok T)
    {g : ℕ} (hg : 1 ≤ g) (hz : g ≤ T.nz) (hy : g ≤ T.ny) (hx : g ≤ T.nx) (full : Bool)
    (steps : List (((Unit → C3 → K) → K) × (Fin 3 → (C3 → List Ev) × List Ev)))
    (hst : ∀ x ∈ steps, CrossLocal3 1 x.1 ∧ ∀ i, Complete (multiMsgs3 T g full [()]) (x.2 i).2)
    (F : Fin 3 → C3 → K) (st : VecStepState K)
    (hw : ∀ i c p, Valid3 T c → Inner3 T g p → st.field i c p = F i (globalIx3 T g c p))
    (i : Fin 3) {c p : C3} (hc : Valid3 T c) (hp : Inner3 T g p) :
    (steps.foldl (fun st x => diffusionVecStep3 T g full x.1 x.2 st) st).field i c p =
      (steps.foldl (fun F x => serialDiffusion3 gz gy gx per x.1 F) (F i)) (globalIx3 T g c p) := by
  induction steps generalizing F st with
  | nil => exact hw i c p hc hp
  | cons x xs ih =>
    rw [List.foldl_cons, List.foldl_cons]
    refine ih (fun y hy => hst y (List.mem_cons_of_mem _ hy)) (fun i => serialDiffusion3 gz gy gx per x.1 (F i)) _ ?_
    intro i c p hc hp
    exact diffusionVecStep3_global hT hg hz hy hx full (hst x (List.mem_cons_self)).1 st hw x.2 (hst x (List.mem_cons_self)).2 i hc hp

/-! ## C39: advection time step -/

/-- C39 (3D): the advection step resets the flux buffer. -/
theorem advectionStep3_buffer_irrelevant (T : Cart3) (g : ℕ) (full : Bool) (f : K → (Option (Fin 3) → C3 → K) → K) (dtByDx : K)
    (s1 : C3 → List Ev) (s : List Ev) (vel : World C3 (Fin 3 × C3) K) (fld : World C3 C3 K) (flux flux' : C3 → C3 → K) :
    advectionStep3 T g full f dtByDx s1 s vel ⟨fld, flux⟩ = advectionStep3 T g full f dtByDx s1 s vel ⟨fld, flux'⟩ := rfl

/-- The inputs of the advection flux as one family: the field and the velocity components. -/
def advIn3 (F : C3 → K) (V : Fin 3 → C3 → K) : Option (Fin 3) → C3 → K
  | none => F
  | some j => V j

theorem mem_advComps3 : ∀ i : Option (Fin 3), i ∈ ([none, some 0, some 1, some 2] : List (Option (Fin 3))) := by
  intro i
  match i with
  | none => simp
  | some 0 => simp
  | some 1 => simp
  | some 2 => simp

/-- C39 (3D): the advection step adds, in every inner cell away from the boundary (or anywhere on a periodic domain, or if the physical ghost
cells hold the continuation `F`, `V` of the fields), exactly the flux of this step, with factor `-dt/dx`. -/
theorem advectionStep3_global {gz gy gx pz py px : ℕ} {per : Bool} {T : Cart3} (hT : mkCart3 gz gy gx pz py px per = .ok T)
    {g : ℕ} (hg : 2 ≤ g) (hz : g ≤ T.nz) (hy : g ≤ T.ny) (hx : g ≤ T.nx) (hz2 : 4 ≤ T.nz) (hy2 : 4 ≤ T.ny) (hx2 : 4 ≤ T.nx) (full : Bool)
    {F : C3 → K} {V : Fin 3 → C3 → K} {f : K → (Option (Fin 3) → C3 → K) → K} (dtByDx : K)
    (hf : CrossLocal3 2 (f (-dtByDx))) (vel : World C3 (Fin 3 × C3) K) (st : StepState C3 C3 K)
    (hw : ∀ c p, Valid3 T c → Inner3 T g p → st.field c p = F (globalIx3 T g c p))
    (hv : ∀ c p, Valid3 T c → Inner3 T g p → ∀ j, vel c (j, p) = V j (globalIx3 T g c p))
    (s1 : C3 → List Ev) {s : List Ev} (hs : Complete (multiMsgs3 T g full [none, some (0 : Fin 3), some 1, some 2]) s)
    {c p : C3} (hc : Valid3 T c) (hp : Inner3 T g p)
    (hG : per = true ∨ Away3 gz gy gx 2 (globalIx3 T g c p) ∨
      ∀ q, InArr3 T g q → dirRank (zone g T.nz q.1, zone g T.ny q.2.1, zone g T.nx q.2.2) ≤ 1 → ¬ InDomain3 T (globalIx3 T g c q) →
        st.field c q = F (globalIx3 T g c q) ∧ ∀ j, vel c (j, q) = V j (globalIx3 T g c q)) :
    (advectionStep3 T g full f dtByDx s1 s vel st).2.field c p =
      F (globalIx3 T g c p) + serialAt3 gz gy gx per (f (-dtByDx)) (advIn3 F V) (globalIx3 T g c p) := by
  unfold advectionStep3 addFlux3
  simp only
  rw [multiExchange3_inner hz hy hx full mem_advComps3 _ s none hp,
    stencilAdd3_global (F := advIn3 F V) hT (by omega) hg hz hy hx hz2 hy2 hx2 full mem_advComps3 hf ?_ s1 hs _ hc hp ?_]
  · simp only [zero_add]
    rw [hw c p hc hp]
  · intro i c p hc hp
    cases i with
    | none => exact hw c p hc hp
    | some j => exact hv c p hc hp j
  · rcases hG with h | h | h
    · exact Or.inl h
    · exact Or.inr (Or.inl h)
    · refine Or.inr (Or.inr ?_)
      intro i q h1 h2 h3
      cases i with
      | none => exact (h q h1 h2 h3).1
      | some j => exact (h q h1 h2 h3).2 j

/-- C39 (3D): the step leaves the velocity in inner cells unchanged. -/
theorem advectionStep3_velocity (T : Cart3) {g : ℕ} (hz : g ≤ T.nz) (hy : g ≤ T.ny) (hx : g ≤ T.nx) (full : Bool)
    (f : K → (Option (Fin 3) → C3 → K) → K) (dtByDx : K) (vel : World C3 (Fin 3 × C3) K) (st : StepState C3 C3 K)
    (s1 : C3 → List Ev) (s : List Ev) (c : C3) {p : C3} (hp : Inner3 T g p) (j : Fin 3) :
    (advectionStep3 T g full f dtByDx s1 s vel st).1 c (j, p) = vel c (j, p) := by
  unfold advectionStep3
  simp only
  rw [multiExchange3_inner hz hy hx full mem_advComps3 _ s (some j) hp]

/-- C39 (3D, vector): each component gets its own flux, computed with the same velocity, although the three share one flux buffer and the
exchanges of the velocity are repeated (inner cells away from the boundary, or any on a periodic domain). -/
theorem advectionVecStep3_global {gz gy gx pz py px : ℕ} {per : Bool} {T : Cart3} (hT : mkCart3 gz gy gx pz py px per = .ok T)
    {g : ℕ} (hg : 2 ≤ g) (hz : g ≤ T.nz) (hy : g ≤ T.ny) (hx : g ≤ T.nx) (hz2 : 4 ≤ T.nz) (hy2 : 4 ≤ T.ny) (hx2 : 4 ≤ T.nx) (full : Bool)
    {F V : Fin 3 → C3 → K} {f : K → (Option (Fin 3) → C3 → K) → K} (dtByDx : K)
    (hf : CrossLocal3 2 (f (-dtByDx))) (vs : World C3 (Fin 3 × C3) K × VecStepState K)
    (hw : ∀ i c p, Valid3 T c → Inner3 T g p → vs.2.field i c p = F i (globalIx3 T g c p))
    (hv : ∀ c p, Valid3 T c → Inner3 T g p → ∀ j, vs.1 c (j, p) = V j (globalIx3 T g c p))
    (sch : Fin 3 → (C3 → List Ev) × List Ev)
    (hs : ∀ i, Complete (multiMsgs3 T g full [none, some (0 : Fin 3), some 1, some 2]) (sch i).2)
    (i : Fin 3) {c p : C3} (hc : Valid3 T c) (hp : Inner3 T g p)
    (hG : per = true ∨ Away3 gz gy gx 2 (globalIx3 T g c p)) :
    (advectionVecStep3 T g full f dtByDx sch vs).2.field i c p =
      F i (globalIx3 T g c p) + serialAt3 gz gy gx per (f (-dtByDx)) (advIn3 (F i) V) (globalIx3 T g c p) := by
  have key : ∀ (j : Fin 3) (vel : World C3 (Fin 3 × C3) K) (fl : C3 → C3 → K),
      (∀ c p, Valid3 T c → Inner3 T g p → ∀ j, vel c (j, p) = V j (globalIx3 T g c p)) →
      (advectionStep3 T g full f dtByDx (sch j).1 (sch j).2 vel ⟨vs.2.field j, fl⟩).2.field c p =
        F j (globalIx3 T g c p) + serialAt3 gz gy gx per (f (-dtByDx)) (advIn3 (F j) V) (globalIx3 T g c p) :=
    fun j vel fl hvel => advectionStep3_global hT hg hz hy hx hz2 hy2 hx2 full dtByDx hf vel ⟨vs.2.field j, fl⟩ (hw j) hvel _ (hs j) hc hp
      (hG.elim Or.inl fun h => Or.inr (Or.inl h))
  have hvel : ∀ (j : Fin 3) (vel : World C3 (Fin 3 × C3) K) (st : StepState C3 C3 K),
      (∀ c p, Valid3 T c → Inner3 T g p → ∀ j, vel c (j, p) = V j (globalIx3 T g c p)) →
      (∀ c p, Valid3 T c → Inner3 T g p → ∀ k, (advectionStep3 T g full f dtByDx (sch j).1 (sch j).2 vel st).1 c (k, p)
        = V k (globalIx3 T g c p)) := by
    intro j vel st h c p hc hp k
    rw [advectionStep3_velocity T hz hy hx full f dtByDx vel st _ _ c hp k]
    exact h c p hc hp k
  unfold advectionVecStep3
  simp only [List.foldl_cons, List.foldl_nil]
  have h0 := hvel 0 vs.1 ⟨vs.2.field 0, vs.2.flux⟩ hv
  fin_cases i
  · simpa [Function.update] using key 0 vs.1 _ hv
  · simpa [Function.update] using key 1 _ _ h0
  · simpa [Function.update] using key 2 _ _ (hvel 1 _ _ h0)

end Time

end Sopht
