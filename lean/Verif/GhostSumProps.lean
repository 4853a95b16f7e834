import Verif.GhostSumLemmas
import Verif.BlockingProps
import Verif.LagrangianProps
import Verif.CartProps
import Mathlib.Tactic.IntervalCases
import Mathlib.Algebra.BigOperators.Pi

/-!
# Ghost sum: C24, C25, C26
-/

namespace Sopht

open Finset

set_option linter.unusedSimpArgs false

/-! ## Specification -/

section Spec
variable {α : Type} [AddCommMonoid α]

/-- Sum over the three directions -1, 0, 1 of an axis. -/
def dirSum (f : ℤ → α) : α := f (-1) + f 0 + f 1

/-- What the block in direction `s` of rank `c` contributes to cell `p` of `c`: its own value at the local index which denotes the
same cell of the grid (`p - s * local_grid_size`), if the block exists and its array (with ghosts) contains that index. -/
def share2 (T : Cart2) (g : ℕ) (A : C2 → C2 → α) (c p s : C2) : α :=
  match nbr2 T c s with
  | some b =>
    if (0 ≤ p.1 - s.1 * T.ny ∧ p.1 - s.1 * T.ny < T.ny + 2 * g) ∧ (0 ≤ p.2 - s.2 * T.nx ∧ p.2 - s.2 * T.nx < T.nx + 2 * g) then
      A b (p.1 - s.1 * T.ny, p.2 - s.2 * T.nx)
    else 0
  | none => 0

/-- 3D version of `share2`. -/
def share3 (T : Cart3) (g : ℕ) (A : C3 → C3 → α) (c p s : C3) : α :=
  match nbr3 T c s with
  | some b =>
    if (0 ≤ p.1 - s.1 * T.nz ∧ p.1 - s.1 * T.nz < T.nz + 2 * g) ∧
        (0 ≤ p.2.1 - s.2.1 * T.ny ∧ p.2.1 - s.2.1 * T.ny < T.ny + 2 * g) ∧
        (0 ≤ p.2.2 - s.2.2 * T.nx ∧ p.2.2 - s.2.2 * T.nx < T.nx + 2 * g) then
      A b (p.1 - s.1 * T.nz, p.2.1 - s.2.1 * T.ny, p.2.2 - s.2.2 * T.nx)
    else 0
  | none => 0

/-- Local index on rank `b` of the global cell `G`. -/
def localIx2 (T : Cart2) (g : ℤ) (b G : C2) : C2 := (G.1 - b.1 * T.ny + g, G.2 - b.2 * T.nx + g)
/-- Local index on rank `b` of the global cell `G`. -/
def localIx3 (T : Cart3) (g : ℤ) (b G : C3) : C3 :=
  (G.1 - b.1 * T.nz + g, G.2.1 - b.2.1 * T.ny + g, G.2.2 - b.2.2 * T.nx + g)

instance (T : Cart2) (g : ℤ) (p : C2) : Decidable (InArr2 T g p) := by unfold InArr2; infer_instance
instance (T : Cart3) (g : ℤ) (p : C3) : Decidable (InArr3 T g p) := by unfold InArr3; infer_instance
instance (T : Cart2) (G : C2) : Decidable (InDomain2 T G) := by unfold InDomain2; infer_instance
instance (T : Cart3) (G : C3) : Decidable (InDomain3 T G) := by unfold InDomain3; infer_instance

end Spec

/-- The communicator's receive buffers hold zeros: true after construction and after every call. -/
def Clean2 {α : Type} [Semiring α] (T : Cart2) (w : C2 → GS2 α) : Prop :=
  ∀ c, Valid2 T c → (w c).row = (fun _ => 0) ∧ (w c).col = fun _ => 0
/-- 3D version of `Clean2`. -/
def Clean3 {α : Type} [Semiring α] (T : Cart3) (w : C3 → GS3 α) : Prop :=
  ∀ c, Valid3 T c → (w c).bz = (fun _ => 0) ∧ (w c).by' = (fun _ => 0) ∧ (w c).bx = fun _ => 0

section Helpers
variable {M : Type} [AddCommMonoid M]

theorem dirSum_comm (f : ℤ → ℤ → M) : (dirSum fun a => dirSum fun b => f a b) = dirSum fun b => dirSum fun a => f a b := by
  simp only [dirSum]; ac_rfl

theorem contrib_dirSum (P : ℕ) (per : Bool) (n g : ℕ) (F : ℤ → ℤ → ℤ → M) (c i d : ℤ) :
    contrib P per n g (dirSum F) c i d = dirSum fun e => contrib P per n g (F e) c i d := by
  unfold contrib dirSum
  cases axisNbr P per c d with
  | none => simp
  | some b =>
    simp only [Pi.add_apply]
    split
    · rfl
    · simp

theorem opB_eq {P : ℕ} {per : Bool} {n g : ℕ} (hg : g ≤ n) (h : ℤ → ℤ → M) {c i : ℤ} (hc : 0 ≤ c ∧ c < P)
    (hi : (g : ℤ) ≤ i ∧ i < g + n) : opB P per n g h c i = dirSum fun d => contrib P per n g h c i d :=
  axis_sum hg h hc hi

theorem dirSum_apply {A : Type} (F : ℤ → A → M) (x : A) : dirSum F x = dirSum fun d => F d x := rfl

end Helpers

section C24
variable {α : Type} [Semiring α]

theorem nested2 {T : Cart2} {g : ℕ} (hgy : g ≤ T.ny) (hgx : g ≤ T.nx) (w : C2 → GS2 α) {c p : C2} (hc : Valid2 T c)
    (hp : Inner2 T g p) :
    opB T.px T.per T.nx g (opB T.py T.per T.ny g (fn2 w) c.1 p.1) c.2 p.2 =
      dirSum fun dy => dirSum fun dx => share2 T g (fun c => (w c).A) c p (dy, dx) := by
  obtain ⟨c0, c1, c2, c3⟩ := hc
  obtain ⟨p0, p1, p2, p3⟩ := hp
  rw [opB_eq hgx _ ⟨c2, c3⟩ ⟨p2, by omega⟩]
  rw [opB_eq hgy (fn2 w) ⟨c0, c1⟩ ⟨p0, by omega⟩]
  rw [dirSum_comm]
  congr 1
  funext dx
  rw [contrib_dirSum]
  congr 1
  funext dy
  unfold contrib share2 nbr2
  cases axisNbr T.px T.per c.2 dx with
  | none =>
    cases axisNbr T.py T.per c.1 dy <;> rfl
  | some bx =>
    cases axisNbr T.py T.per c.1 dy with
    | none => simp
    | some bb =>
      simp only
      by_cases h1 : 0 ≤ p.2 - dx * T.nx ∧ p.2 - dx * T.nx < T.nx + 2 * g
      · by_cases h2 : 0 ≤ p.1 - dy * T.ny ∧ p.1 - dy * T.ny < T.ny + 2 * g
        · rw [if_pos h1, if_pos h2, if_pos ⟨h2, h1⟩]; rfl
        · rw [if_pos h1, if_neg h2, if_neg (fun h => h2 h.1)]; rfl
      · rw [if_neg h1, if_neg (fun h => h1 h.2)]

/-- **C24 (2D)** After `ghost_sum`, an inner cell holds the sum, over the nine blocks around (and including) its own, of what their
arrays hold for that cell: every ghost value is added exactly once to the cell it stands for, and nothing else is added.
Ghost cells are zero and the communicator is ready for the next call. -/
theorem ghostSum2_correct {T : Cart2} {g : ℕ} (hgy : g ≤ T.ny) (hgx : g ≤ T.nx) {w : C2 → GS2 α} (hw : Clean2 T w) :
    (∀ c p, Valid2 T c → Inner2 T g p → (ghostSum2 T g w c).A p =
      dirSum fun dy => dirSum fun dx => share2 T g (fun c => (w c).A) c p (dy, dx)) ∧
    (∀ c p, ¬ Inner2 T g p → (ghostSum2 T g w c).A p = 0) ∧
    Clean2 T (ghostSum2 T g w) := by
  have hr := run2_agree (agree2_init T g w hw)
  refine ⟨?_, ?_, ?_⟩
  · intro c p hc hp
    unfold ghostSum2
    simp only
    rw [clear2_inner hp, hr.A c p hc (by unfold InArr2; unfold Inner2 at hp; omega)]
    exact nested2 hgy hgx w hc hp
  · intro c p hp
    exact clear2_ghost hp
  · intro c hc
    exact ⟨hr.row c hc, hr.col c hc⟩

theorem nested3 {T : Cart3} {g : ℕ} (hgz : g ≤ T.nz) (hgy : g ≤ T.ny) (hgx : g ≤ T.nx) (w : C3 → GS3 α) {c p : C3}
    (hc : Valid3 T c) (hp : Inner3 T g p) :
    opB T.px T.per T.nx g (opB T.py T.per T.ny g (opB T.pz T.per T.nz g (fn3 w) c.1 p.1) c.2.1 p.2.1) c.2.2 p.2.2 =
      dirSum fun dz => dirSum fun dy => dirSum fun dx => share3 T g (fun c => (w c).A) c p (dz, dy, dx) := by
  obtain ⟨c0, c1, c2, c3, c4, c5⟩ := hc
  obtain ⟨p0, p1, p2, p3, p4, p5⟩ := hp
  rw [opB_eq hgx _ ⟨c4, c5⟩ ⟨p4, by omega⟩, opB_eq hgy _ ⟨c2, c3⟩ ⟨p2, by omega⟩,
    opB_eq hgz (fn3 w) ⟨c0, c1⟩ ⟨p0, by omega⟩]
  have hcomm : ∀ f : ℤ → ℤ → ℤ → α, (dirSum fun dz => dirSum fun dy => dirSum fun dx => f dz dy dx) =
      dirSum fun dx => dirSum fun dy => dirSum fun dz => f dz dy dx := by
    intro f; simp only [dirSum]; ac_rfl
  rw [hcomm]
  congr 1
  funext dx
  rw [contrib_dirSum]
  congr 1
  funext dy
  rw [show (contrib T.py T.per T.ny g (dirSum fun d => contrib T.pz T.per T.nz g (fn3 w) c.1 p.1 d) c.2.1 p.2.1 dy) =
    dirSum fun e => contrib T.py T.per T.ny g (contrib T.pz T.per T.nz g (fn3 w) c.1 p.1 e) c.2.1 p.2.1 dy from
      contrib_dirSum _ _ _ _ _ _ _ _]
  rw [contrib_dirSum]
  congr 1
  funext dz
  unfold contrib share3 nbr3
  cases axisNbr T.px T.per c.2.2 dx with
  | none =>
    cases axisNbr T.py T.per c.2.1 dy <;> cases axisNbr T.pz T.per c.1 dz <;> rfl
  | some bx =>
    cases axisNbr T.py T.per c.2.1 dy with
    | none => cases axisNbr T.pz T.per c.1 dz <;> simp
    | some bb =>
      cases axisNbr T.pz T.per c.1 dz with
      | none => simp
      | some bz =>
        simp only
        by_cases h1 : 0 ≤ p.2.2 - dx * T.nx ∧ p.2.2 - dx * T.nx < T.nx + 2 * g
        · by_cases h2 : 0 ≤ p.2.1 - dy * T.ny ∧ p.2.1 - dy * T.ny < T.ny + 2 * g
          · by_cases h3 : 0 ≤ p.1 - dz * T.nz ∧ p.1 - dz * T.nz < T.nz + 2 * g
            · rw [if_pos h1, if_pos h2, if_pos h3, if_pos ⟨h3, h2, h1⟩]; rfl
            · rw [if_pos h1, if_pos h2, if_neg h3, if_neg (fun h => h3 h.1)]; rfl
          · rw [if_pos h1, if_neg h2, if_neg (fun h => h2 h.2.1)]; rfl
        · rw [if_neg h1, if_neg (fun h => h1 h.2.2)]

/-- **C24 (3D)** -/
theorem ghostSum3_correct {T : Cart3} {g : ℕ} (hgz : g ≤ T.nz) (hgy : g ≤ T.ny) (hgx : g ≤ T.nx) {w : C3 → GS3 α}
    (hw : Clean3 T w) :
    (∀ c p, Valid3 T c → Inner3 T g p → (ghostSum3 T g w c).A p =
      dirSum fun dz => dirSum fun dy => dirSum fun dx => share3 T g (fun c => (w c).A) c p (dz, dy, dx)) ∧
    (∀ c p, ¬ Inner3 T g p → (ghostSum3 T g w c).A p = 0) ∧
    Clean3 T (ghostSum3 T g w) := by
  have hr := run3_agree (agree3_init T g w hw)
  refine ⟨?_, ?_, ?_⟩
  · intro c p hc hp
    unfold ghostSum3
    simp only
    rw [clear3_inner hp, hr.A c p hc (by unfold InArr3; unfold Inner3 at hp; omega)]
    exact nested3 hgz hgy hgx w hc hp
  · intro c p hp
    exact clear3_ghost hp
  · intro c hc
    exact ⟨hr.bz c hc, hr.by' c hc, hr.bx c hc⟩

/-- **C24 (2D, non-periodic)** The inner cell holds the sum over all ranks whose array contains the cell. -/
theorem ghostSum2_global {T : Cart2} {g : ℕ} (hper : T.per = false) (hgy : g ≤ T.ny) (hgx : g ≤ T.nx) {w : C2 → GS2 α}
    (hw : Clean2 T w) {c p : C2} (hc : Valid2 T c) (hp : Inner2 T g p) :
    (ghostSum2 T g w c).A p = ∑ b ∈ Ico (0 : ℤ) T.py ×ˢ Ico (0 : ℤ) T.px,
      if InArr2 T g (localIx2 T g b (globalIx2 T g c p)) then (w b).A (localIx2 T g b (globalIx2 T g c p)) else 0 := by
  have hr := run2_agree (agree2_init T g w hw)
  have hp' := hp
  obtain ⟨c0, c1, c2, c3⟩ := hc
  obtain ⟨p0, p1, p2, p3⟩ := hp
  unfold ghostSum2
  simp only
  rw [clear2_inner hp', hr.A c p ⟨c0, c1, c2, c3⟩ (by unfold InArr2; omega)]
  unfold opB
  rw [axis_sum hgx _ ⟨c2, c3⟩ ⟨p2, by omega⟩, axis_sum hgy (fn2 w) ⟨c0, c1⟩ ⟨p0, by omega⟩, hper,
    axis_sum_global hgx _ ⟨c2, c3⟩ ⟨p2, by omega⟩, axis_sum_global hgy _ ⟨c0, c1⟩ ⟨p0, by omega⟩, sum_product_right]
  apply sum_congr rfl
  intro bx hbx
  simp only [Finset.sum_apply]
  by_cases hx : 0 ≤ (c.2 - bx) * T.nx + p.2 ∧ (c.2 - bx) * T.nx + p.2 < T.nx + 2 * g
  · rw [if_pos hx]
    apply sum_congr rfl
    intro bb hbb
    have e : localIx2 T g (bb, bx) (globalIx2 T g c p) = ((c.1 - bb) * T.ny + p.1, (c.2 - bx) * T.nx + p.2) := by
      unfold localIx2 globalIx2; ext <;> simp only <;> ring
    rw [e]
    by_cases hy : 0 ≤ (c.1 - bb) * T.ny + p.1 ∧ (c.1 - bb) * T.ny + p.1 < T.ny + 2 * g
    · rw [if_pos hy, if_pos (show InArr2 T g _ from ⟨hy.1, hy.2, hx.1, hx.2⟩)]; rfl
    · rw [if_neg hy, if_neg (fun h : InArr2 T g _ => hy ⟨h.1, h.2.1⟩)]; rfl
  · rw [if_neg hx]
    symm
    apply sum_eq_zero
    intro bb hbb
    have e : localIx2 T g (bb, bx) (globalIx2 T g c p) = ((c.1 - bb) * T.ny + p.1, (c.2 - bx) * T.nx + p.2) := by
      unfold localIx2 globalIx2; ext <;> simp only <;> ring
    rw [e, if_neg]
    unfold InArr2
    exact fun h => hx ⟨h.2.2.1, h.2.2.2⟩

/-- **C24 (3D, non-periodic)** -/
theorem ghostSum3_global {T : Cart3} {g : ℕ} (hper : T.per = false) (hgz : g ≤ T.nz) (hgy : g ≤ T.ny) (hgx : g ≤ T.nx)
    {w : C3 → GS3 α} (hw : Clean3 T w) {c p : C3} (hc : Valid3 T c) (hp : Inner3 T g p) :
    (ghostSum3 T g w c).A p = ∑ b ∈ Ico (0 : ℤ) T.pz ×ˢ Ico (0 : ℤ) T.py ×ˢ Ico (0 : ℤ) T.px,
      if InArr3 T g (localIx3 T g b (globalIx3 T g c p)) then (w b).A (localIx3 T g b (globalIx3 T g c p)) else 0 := by
  have hr := run3_agree (agree3_init T g w hw)
  have hp' := hp
  obtain ⟨c0, c1, c2, c3, c4, c5⟩ := hc
  obtain ⟨p0, p1, p2, p3, p4, p5⟩ := hp
  unfold ghostSum3
  simp only
  rw [clear3_inner hp', hr.A c p ⟨c0, c1, c2, c3, c4, c5⟩ (by unfold InArr3; omega)]
  unfold opB
  rw [axis_sum hgx _ ⟨c4, c5⟩ ⟨p4, by omega⟩, axis_sum hgy _ ⟨c2, c3⟩ ⟨p2, by omega⟩,
    axis_sum hgz (fn3 w) ⟨c0, c1⟩ ⟨p0, by omega⟩, hper,
    axis_sum_global hgx _ ⟨c4, c5⟩ ⟨p4, by omega⟩, axis_sum_global hgy _ ⟨c2, c3⟩ ⟨p2, by omega⟩,
    axis_sum_global hgz _ ⟨c0, c1⟩ ⟨p0, by omega⟩]
  -- expand both sides to a triple sum with the conditions collected
  have key : ∀ (bz bb bx : ℤ),
      (if InArr3 T g (localIx3 T g (bz, bb, bx) (globalIx3 T g c p)) then
        (w (bz, bb, bx)).A (localIx3 T g (bz, bb, bx) (globalIx3 T g c p)) else 0) =
      (if 0 ≤ (c.2.2 - bx) * T.nx + p.2.2 ∧ (c.2.2 - bx) * T.nx + p.2.2 < T.nx + 2 * g then
        (if 0 ≤ (c.2.1 - bb) * T.ny + p.2.1 ∧ (c.2.1 - bb) * T.ny + p.2.1 < T.ny + 2 * g then
          (if 0 ≤ (c.1 - bz) * T.nz + p.1 ∧ (c.1 - bz) * T.nz + p.1 < T.nz + 2 * g then
            fn3 w bz ((c.1 - bz) * T.nz + p.1) bb ((c.2.1 - bb) * T.ny + p.2.1) bx ((c.2.2 - bx) * T.nx + p.2.2)
          else 0) else 0) else 0) := by
    intro bz bb bx
    have e : localIx3 T g (bz, bb, bx) (globalIx3 T g c p) =
        ((c.1 - bz) * T.nz + p.1, (c.2.1 - bb) * T.ny + p.2.1, (c.2.2 - bx) * T.nx + p.2.2) := by
      unfold localIx3 globalIx3; ext <;> simp only <;> ring
    rw [e]
    by_cases hx : 0 ≤ (c.2.2 - bx) * T.nx + p.2.2 ∧ (c.2.2 - bx) * T.nx + p.2.2 < T.nx + 2 * g
    · by_cases hy : 0 ≤ (c.2.1 - bb) * T.ny + p.2.1 ∧ (c.2.1 - bb) * T.ny + p.2.1 < T.ny + 2 * g
      · by_cases hz : 0 ≤ (c.1 - bz) * T.nz + p.1 ∧ (c.1 - bz) * T.nz + p.1 < T.nz + 2 * g
        · rw [if_pos hx, if_pos hy, if_pos hz, if_pos (show InArr3 T g _ from ⟨hz.1, hz.2, hy.1, hy.2, hx.1, hx.2⟩)]; rfl
        · rw [if_pos hx, if_pos hy, if_neg hz, if_neg (fun h : InArr3 T g _ => hz ⟨h.1, h.2.1⟩)]
      · rw [if_pos hx, if_neg hy, if_neg (fun h : InArr3 T g _ => hy ⟨h.2.2.1, h.2.2.2.1⟩)]
    · rw [if_neg hx, if_neg (fun h : InArr3 T g _ => hx ⟨h.2.2.2.2.1, h.2.2.2.2.2⟩)]
  rw [sum_product_right]
  simp only [sum_product_right, key]
  apply sum_congr rfl
  intro bx _
  simp only [Finset.sum_apply]
  by_cases hx : 0 ≤ (c.2.2 - bx) * T.nx + p.2.2 ∧ (c.2.2 - bx) * T.nx + p.2.2 < T.nx + 2 * g
  · simp only [if_pos hx]
    apply sum_congr rfl
    intro bb _
    split
    · simp only [Finset.sum_apply]
      apply sum_congr rfl
      intro bz _
      split <;> rfl
    · simp
  · simp only [if_neg hx, sum_const_zero]

end C24

/-! ## C25: totals -/

section C25
variable {α : Type} [Semiring α]

/-- Ranks of a 2D topology, as a finite set. -/
def rankSet2 (T : Cart2) : Finset C2 := Ico (0 : ℤ) T.py ×ˢ Ico (0 : ℤ) T.px
/-- Inner cells of a local array. -/
def innerSet2 (T : Cart2) (g : ℕ) : Finset C2 := Ico (g : ℤ) (g + T.ny) ×ˢ Ico (g : ℤ) (g + T.nx)
/-- All cells of a local array, ghosts included. -/
def arrSet2 (T : Cart2) (g : ℕ) : Finset C2 := Ico (0 : ℤ) (T.ny + 2 * g) ×ˢ Ico (0 : ℤ) (T.nx + 2 * g)
/-- Ranks of a 3D topology, as a finite set. -/
def rankSet3 (T : Cart3) : Finset C3 := Ico (0 : ℤ) T.pz ×ˢ Ico (0 : ℤ) T.py ×ˢ Ico (0 : ℤ) T.px
/-- Inner cells of a local array. -/
def innerSet3 (T : Cart3) (g : ℕ) : Finset C3 :=
  Ico (g : ℤ) (g + T.nz) ×ˢ Ico (g : ℤ) (g + T.ny) ×ˢ Ico (g : ℤ) (g + T.nx)
/-- All cells of a local array, ghosts included. -/
def arrSet3 (T : Cart3) (g : ℕ) : Finset C3 :=
  Ico (0 : ℤ) (T.nz + 2 * g) ×ˢ Ico (0 : ℤ) (T.ny + 2 * g) ×ˢ Ico (0 : ℤ) (T.nx + 2 * g)

theorem mem_rankSet2 {T : Cart2} {c : C2} : c ∈ rankSet2 T ↔ Valid2 T c := by
  unfold rankSet2 Valid2; simp only [mem_product, mem_Ico]; tauto
theorem mem_innerSet2 {T : Cart2} {g : ℕ} {c : C2} : c ∈ innerSet2 T g ↔ Inner2 T g c := by
  unfold innerSet2 Inner2; simp only [mem_product, mem_Ico]; tauto
theorem mem_arrSet2 {T : Cart2} {g : ℕ} {c : C2} : c ∈ arrSet2 T g ↔ InArr2 T g c := by
  unfold arrSet2 InArr2; simp only [mem_product, mem_Ico]; tauto
theorem mem_rankSet3 {T : Cart3} {c : C3} : c ∈ rankSet3 T ↔ Valid3 T c := by
  unfold rankSet3 Valid3; simp only [mem_product, mem_Ico]; tauto
theorem mem_innerSet3 {T : Cart3} {g : ℕ} {c : C3} : c ∈ innerSet3 T g ↔ Inner3 T g c := by
  unfold innerSet3 Inner3; simp only [mem_product, mem_Ico]; tauto
theorem mem_arrSet3 {T : Cart3} {g : ℕ} {c : C3} : c ∈ arrSet3 T g ↔ InArr3 T g c := by
  unfold arrSet3 InArr3; simp only [mem_product, mem_Ico]; tauto

theorem ite_and_zero {M : Type} [Zero M] (p q : Prop) [Decidable p] [Decidable q] (x : M) :
    (if p then (if q then x else 0) else 0) = if q ∧ p then x else 0 := by
  by_cases hp : p <;> by_cases hq : q <;> simp [hp, hq]

theorem ite_apply2 {A B M : Type} [Zero M] (p : Prop) [Decidable p] (f : A → B → M) (a : A) (b : B) :
    (if p then f else 0) a b = if p then f a b else 0 := by split <;> rfl

theorem sum_comm_quad {M ι κ : Type} [AddCommMonoid M] (A : Finset ι) (B : ι → Finset κ) (C : Finset ι) (D : ι → Finset κ)
    (f : ι → κ → ι → κ → M) :
    (∑ a ∈ A, ∑ b ∈ B a, ∑ c ∈ C, ∑ d ∈ D c, f a b c d) = ∑ c ∈ C, ∑ d ∈ D c, ∑ a ∈ A, ∑ b ∈ B a, f a b c d := by
  have e1 : ∀ a ∈ A, (∑ b ∈ B a, ∑ c ∈ C, ∑ d ∈ D c, f a b c d) = ∑ c ∈ C, ∑ d ∈ D c, ∑ b ∈ B a, f a b c d := by
    intro a _
    rw [sum_comm]
    apply sum_congr rfl; intro c _
    rw [sum_comm]
  rw [sum_congr rfl e1, sum_comm]
  apply sum_congr rfl; intro c _
  rw [sum_comm]

theorem sum_comm_quad' {M ι κ μ ν : Type} [AddCommMonoid M] (A : Finset ι) (B : Finset κ) (C : Finset μ) (D : Finset ν)
    (f : ι → κ → μ → ν → M) :
    (∑ a ∈ A, ∑ b ∈ B, ∑ c ∈ C, ∑ d ∈ D, f a b c d) = ∑ c ∈ C, ∑ d ∈ D, ∑ a ∈ A, ∑ b ∈ B, f a b c d := by
  have e1 : ∀ a ∈ A, (∑ b ∈ B, ∑ c ∈ C, ∑ d ∈ D, f a b c d) = ∑ c ∈ C, ∑ d ∈ D, ∑ b ∈ B, f a b c d := by
    intro a _
    rw [sum_comm]
    apply sum_congr rfl; intro c _
    rw [sum_comm]
  rw [sum_congr rfl e1, sum_comm]
  apply sum_congr rfl; intro c _
  rw [sum_comm]

theorem total2_aux {T : Cart2} {g : ℕ} (hgy : g ≤ T.ny) (hgx : g ≤ T.nx) (h : ℤ → ℤ → ℤ → ℤ → α) :
    (∑ c ∈ rankSet2 T, ∑ p ∈ innerSet2 T g,
      opB T.px T.per T.nx g (opB T.py T.per T.ny g h c.1 p.1) c.2 p.2) =
    ∑ c ∈ rankSet2 T, ∑ p ∈ arrSet2 T g,
      if (T.per = true ∨ (0 ≤ c.1 * T.ny + p.1 - g ∧ c.1 * T.ny + p.1 - g < T.py * T.ny)) ∧
        (T.per = true ∨ (0 ≤ c.2 * T.nx + p.2 - g ∧ c.2 * T.nx + p.2 - g < T.px * T.nx)) then h c.1 p.1 c.2 p.2 else 0 := by
  unfold rankSet2 innerSet2 arrSet2
  simp only [sum_product]
  have hx : ∀ cy iy, (∑ cx ∈ Ico (0 : ℤ) T.px, ∑ ix ∈ Ico (g : ℤ) (g + T.nx),
      opB T.px T.per T.nx g (opB T.py T.per T.ny g h cy iy) cx ix) =
      ∑ cx ∈ Ico (0 : ℤ) T.px, ∑ ix ∈ Ico (0 : ℤ) (T.nx + 2 * g),
        if T.per = true ∨ (0 ≤ cx * T.nx + ix - g ∧ cx * T.nx + ix - g < T.px * T.nx) then
          opB T.py T.per T.ny g h cy iy cx ix else 0 := by
    intro cy iy
    rw [← axis_total hgx (opB T.py T.per T.ny g h cy iy)]
    apply sum_congr rfl; intro cx hcx
    apply sum_congr rfl; intro ix hix
    rw [mem_Ico] at hcx hix
    exact axis_sum hgx _ hcx hix
  have hy : ∀ cx ix, (∑ cy ∈ Ico (0 : ℤ) T.py, ∑ iy ∈ Ico (g : ℤ) (g + T.ny),
      opB T.py T.per T.ny g h cy iy cx ix) =
      ∑ cy ∈ Ico (0 : ℤ) T.py, ∑ iy ∈ Ico (0 : ℤ) (T.ny + 2 * g),
        if T.per = true ∨ (0 ≤ cy * T.ny + iy - g ∧ cy * T.ny + iy - g < T.py * T.ny) then h cy iy cx ix else 0 := by
    intro cx ix
    have := congrFun (congrFun (axis_total (P := T.py) (per := T.per) hgy h) cx) ix
    simp only [Finset.sum_apply, ite_apply2] at this
    rw [← this]
    apply sum_congr rfl; intro cy hcy
    apply sum_congr rfl; intro iy hiy
    rw [mem_Ico] at hcy hiy
    rw [show opB T.py T.per T.ny g h cy iy = _ from axis_sum hgy h hcy hiy]
  calc _ = ∑ cy ∈ Ico (0 : ℤ) T.py, ∑ iy ∈ Ico (g : ℤ) (g + T.ny), ∑ cx ∈ Ico (0 : ℤ) T.px, ∑ ix ∈ Ico (g : ℤ) (g + T.nx),
      opB T.px T.per T.nx g (opB T.py T.per T.ny g h cy iy) cx ix := by
        apply sum_congr rfl; intro cy _; rw [sum_comm]
    _ = ∑ cy ∈ Ico (0 : ℤ) T.py, ∑ iy ∈ Ico (g : ℤ) (g + T.ny), ∑ cx ∈ Ico (0 : ℤ) T.px, ∑ ix ∈ Ico (0 : ℤ) (T.nx + 2 * g),
        if T.per = true ∨ (0 ≤ cx * T.nx + ix - g ∧ cx * T.nx + ix - g < T.px * T.nx) then
          opB T.py T.per T.ny g h cy iy cx ix else 0 := by simp only [hx]
    _ = ∑ cx ∈ Ico (0 : ℤ) T.px, ∑ ix ∈ Ico (0 : ℤ) (T.nx + 2 * g), ∑ cy ∈ Ico (0 : ℤ) T.py, ∑ iy ∈ Ico (g : ℤ) (g + T.ny),
        if T.per = true ∨ (0 ≤ cx * T.nx + ix - g ∧ cx * T.nx + ix - g < T.px * T.nx) then
          opB T.py T.per T.ny g h cy iy cx ix else 0 := by
        rw [sum_comm_quad]
    _ = ∑ cx ∈ Ico (0 : ℤ) T.px, ∑ ix ∈ Ico (0 : ℤ) (T.nx + 2 * g), 
        if T.per = true ∨ (0 ≤ cx * T.nx + ix - g ∧ cx * T.nx + ix - g < T.px * T.nx) then
          (∑ cy ∈ Ico (0 : ℤ) T.py, ∑ iy ∈ Ico (0 : ℤ) (T.ny + 2 * g),
        if T.per = true ∨ (0 ≤ cy * T.ny + iy - g ∧ cy * T.ny + iy - g < T.py * T.ny) then h cy iy cx ix else 0) else 0 := by
        apply sum_congr rfl; intro cx _
        apply sum_congr rfl; intro ix _
        rw [← hy]
        split
        · rfl
        · simp
    _ = ∑ cx ∈ Ico (0 : ℤ) T.px, ∑ ix ∈ Ico (0 : ℤ) (T.nx + 2 * g), ∑ cy ∈ Ico (0 : ℤ) T.py, ∑ iy ∈ Ico (0 : ℤ) (T.ny + 2 * g),
        if (T.per = true ∨ (0 ≤ cy * T.ny + iy - g ∧ cy * T.ny + iy - g < T.py * T.ny)) ∧
          (T.per = true ∨ (0 ≤ cx * T.nx + ix - g ∧ cx * T.nx + ix - g < T.px * T.nx)) then h cy iy cx ix else 0 := by
        apply sum_congr rfl; intro cx _
        apply sum_congr rfl; intro ix _
        simp only [← ite_and_zero]
        split
        · rfl
        · simp
    _ = _ := by
        rw [sum_comm_quad]
        apply sum_congr rfl; intro cy _; rw [sum_comm]

/-- the (y, x) part of a 3D topology -/
def planeOf (T : Cart3) : Cart2 := { gy := T.gy, gx := T.gx, py := T.py, px := T.px, ny := T.ny, nx := T.nx, per := T.per }

theorem total3_aux {T : Cart3} {g : ℕ} (hgz : g ≤ T.nz) (hgy : g ≤ T.ny) (hgx : g ≤ T.nx) (h : ℤ → ℤ → ℤ → ℤ → ℤ → ℤ → α) :
    (∑ c ∈ rankSet3 T, ∑ p ∈ innerSet3 T g,
      opB T.px T.per T.nx g (opB T.py T.per T.ny g (opB T.pz T.per T.nz g h c.1 p.1) c.2.1 p.2.1) c.2.2 p.2.2) =
    ∑ c ∈ rankSet3 T, ∑ p ∈ arrSet3 T g,
      if (T.per = true ∨ (0 ≤ c.1 * T.nz + p.1 - g ∧ c.1 * T.nz + p.1 - g < T.pz * T.nz)) ∧
        (T.per = true ∨ (0 ≤ c.2.1 * T.ny + p.2.1 - g ∧ c.2.1 * T.ny + p.2.1 - g < T.py * T.ny)) ∧
        (T.per = true ∨ (0 ≤ c.2.2 * T.nx + p.2.2 - g ∧ c.2.2 * T.nx + p.2.2 - g < T.px * T.nx)) then
        h c.1 p.1 c.2.1 p.2.1 c.2.2 p.2.2 else 0 := by
  have hyx : ∀ cz iz, (∑ c ∈ rankSet2 (planeOf T), ∑ p ∈ innerSet2 (planeOf T) g,
      opB T.px T.per T.nx g (opB T.py T.per T.ny g (opB T.pz T.per T.nz g h cz iz) c.1 p.1) c.2 p.2) =
      ∑ c ∈ rankSet2 (planeOf T), ∑ p ∈ arrSet2 (planeOf T) g,
      if (T.per = true ∨ (0 ≤ c.1 * T.ny + p.1 - g ∧ c.1 * T.ny + p.1 - g < T.py * T.ny)) ∧
        (T.per = true ∨ (0 ≤ c.2 * T.nx + p.2 - g ∧ c.2 * T.nx + p.2 - g < T.px * T.nx)) then
        opB T.pz T.per T.nz g h cz iz c.1 p.1 c.2 p.2 else 0 := by
    intro cz iz
    exact total2_aux (T := planeOf T) hgy hgx (opB T.pz T.per T.nz g h cz iz)
  have hz : ∀ a b c d, (∑ cz ∈ Ico (0 : ℤ) T.pz, ∑ iz ∈ Ico (g : ℤ) (g + T.nz),
      opB T.pz T.per T.nz g h cz iz a b c d) =
      ∑ cz ∈ Ico (0 : ℤ) T.pz, ∑ iz ∈ Ico (0 : ℤ) (T.nz + 2 * g),
        if T.per = true ∨ (0 ≤ cz * T.nz + iz - g ∧ cz * T.nz + iz - g < T.pz * T.nz) then h cz iz a b c d else 0 := by
    intro a b c d
    have := congrFun (congrFun (congrFun (congrFun (axis_total (P := T.pz) (per := T.per) hgz h) a) b) c) d
    simp only [Finset.sum_apply, ite_apply2] at this
    rw [← this]
    apply sum_congr rfl; intro cz hcz
    apply sum_congr rfl; intro iz hiz
    rw [mem_Ico] at hcz hiz
    rw [show opB T.pz T.per T.nz g h cz iz = _ from axis_sum hgz h hcz hiz]
  have hr : rankSet3 T = Ico (0 : ℤ) T.pz ×ˢ rankSet2 (planeOf T) := rfl
  have hi : innerSet3 T g = Ico (g : ℤ) (g + T.nz) ×ˢ innerSet2 (planeOf T) g := rfl
  have ha : arrSet3 T g = Ico (0 : ℤ) (T.nz + 2 * g) ×ˢ arrSet2 (planeOf T) g := rfl
  rw [hr, hi, ha]
  simp only [sum_product (s := Ico (0 : ℤ) T.pz), sum_product (s := Ico (g : ℤ) (g + T.nz)),
    sum_product (s := Ico (0 : ℤ) (T.nz + 2 * g))]
  generalize rankSet2 (planeOf T) = R2 at *
  generalize innerSet2 (planeOf T) g = I2 at *
  generalize arrSet2 (planeOf T) g = A2 at *
  calc _ = ∑ cz ∈ Ico (0 : ℤ) T.pz, ∑ iz ∈ Ico (g : ℤ) (g + T.nz), ∑ c ∈ R2, ∑ p ∈ I2,
      opB T.px T.per T.nx g (opB T.py T.per T.ny g (opB T.pz T.per T.nz g h cz iz) c.1 p.1) c.2 p.2 := by
        apply sum_congr rfl; intro cz _; rw [sum_comm]
    _ = ∑ cz ∈ Ico (0 : ℤ) T.pz, ∑ iz ∈ Ico (g : ℤ) (g + T.nz), ∑ c ∈ R2, ∑ p ∈ A2,
      if (T.per = true ∨ (0 ≤ c.1 * T.ny + p.1 - g ∧ c.1 * T.ny + p.1 - g < T.py * T.ny)) ∧
        (T.per = true ∨ (0 ≤ c.2 * T.nx + p.2 - g ∧ c.2 * T.nx + p.2 - g < T.px * T.nx)) then
        opB T.pz T.per T.nz g h cz iz c.1 p.1 c.2 p.2 else 0 := by simp only [hyx]
    _ = ∑ c ∈ R2, ∑ p ∈ A2, ∑ cz ∈ Ico (0 : ℤ) T.pz, ∑ iz ∈ Ico (g : ℤ) (g + T.nz),
      if (T.per = true ∨ (0 ≤ c.1 * T.ny + p.1 - g ∧ c.1 * T.ny + p.1 - g < T.py * T.ny)) ∧
        (T.per = true ∨ (0 ≤ c.2 * T.nx + p.2 - g ∧ c.2 * T.nx + p.2 - g < T.px * T.nx)) then
        opB T.pz T.per T.nz g h cz iz c.1 p.1 c.2 p.2 else 0 := sum_comm_quad' _ _ _ _ _
    _ = ∑ c ∈ R2, ∑ p ∈ A2, ∑ cz ∈ Ico (0 : ℤ) T.pz, ∑ iz ∈ Ico (0 : ℤ) (T.nz + 2 * g),
      if (T.per = true ∨ (0 ≤ cz * T.nz + iz - g ∧ cz * T.nz + iz - g < T.pz * T.nz)) ∧
        (T.per = true ∨ (0 ≤ c.1 * T.ny + p.1 - g ∧ c.1 * T.ny + p.1 - g < T.py * T.ny)) ∧
        (T.per = true ∨ (0 ≤ c.2 * T.nx + p.2 - g ∧ c.2 * T.nx + p.2 - g < T.px * T.nx)) then
        h cz iz c.1 p.1 c.2 p.2 else 0 := by
        apply sum_congr rfl; intro c _
        apply sum_congr rfl; intro p _
        simp only [← ite_and_zero (_ ∧ _)]
        by_cases hh : (T.per = true ∨ (0 ≤ c.1 * T.ny + p.1 - g ∧ c.1 * T.ny + p.1 - g < T.py * T.ny)) ∧
          (T.per = true ∨ (0 ≤ c.2 * T.nx + p.2 - g ∧ c.2 * T.nx + p.2 - g < T.px * T.nx))
        · simp only [if_pos hh]; exact hz _ _ _ _
        · simp only [if_neg hh, sum_const_zero]
    _ = _ := by
        rw [sum_comm_quad' R2]
        apply sum_congr rfl; intro cz _; rw [sum_comm]

/-- Total of the inner cells of all ranks. -/
def innerTotal2 (T : Cart2) (g : ℕ) (A : C2 → C2 → α) : α := ∑ c ∈ rankSet2 T, ∑ p ∈ innerSet2 T g, A c p
/-- Total of the inner cells of all ranks. -/
def innerTotal3 (T : Cart3) (g : ℕ) (A : C3 → C3 → α) : α := ∑ c ∈ rankSet3 T, ∑ p ∈ innerSet3 T g, A c p

/-- **C25 (2D)** The total of the inner cells after `ghost_sum` is the total, over all ranks and all cells of their arrays
including ghosts, of the values before, without those that stand for a cell outside a non-periodic domain. -/
theorem ghostSum2_total {gy gx py px : ℕ} {per : Bool} {T : Cart2} (hT : mkCart2 gy gx py px per = .ok T) {g : ℕ}
    (hgy : g ≤ T.ny) (hgx : g ≤ T.nx) {w : C2 → GS2 α} (hw : Clean2 T w) :
    innerTotal2 T g (fun c => (ghostSum2 T g w c).A) =
      ∑ c ∈ rankSet2 T, ∑ p ∈ arrSet2 T g, if per = true ∨ InDomain2 T (globalIx2 T g c p) then (w c).A p else 0 := by
  obtain ⟨-, -, -, -, hper, e1, e2⟩ := construct2_ok hT
  have hr := run2_agree (agree2_init T g w hw)
  have h1 : innerTotal2 T g (fun c => (ghostSum2 T g w c).A) = ∑ c ∈ rankSet2 T, ∑ p ∈ innerSet2 T g,
      opB T.px T.per T.nx g (opB T.py T.per T.ny g (fn2 w) c.1 p.1) c.2 p.2 := by
    unfold innerTotal2
    apply sum_congr rfl; intro c hc
    apply sum_congr rfl; intro p hp
    rw [mem_rankSet2] at hc
    rw [mem_innerSet2] at hp
    unfold ghostSum2
    simp only
    rw [clear2_inner hp, hr.A c p hc (by unfold InArr2; unfold Inner2 at hp; omega)]
  rw [h1, total2_aux hgy hgx]
  apply sum_congr rfl; intro c _
  apply sum_congr rfl; intro p _
  have hiff : ((T.per = true ∨ (0 ≤ c.1 * T.ny + p.1 - g ∧ c.1 * T.ny + p.1 - g < T.py * T.ny)) ∧
        (T.per = true ∨ (0 ≤ c.2 * T.nx + p.2 - g ∧ c.2 * T.nx + p.2 - g < T.px * T.nx))) ↔
      (per = true ∨ InDomain2 T (globalIx2 T g c p)) := by
    unfold InDomain2 globalIx2
    simp only
    rw [← e1, ← e2, hper]
    push_cast
    tauto
  by_cases hh : per = true ∨ InDomain2 T (globalIx2 T g c p)
  · rw [if_pos hh, if_pos (hiff.2 hh)]; rfl
  · rw [if_neg hh, if_neg (fun x => hh (hiff.1 x))]

/-- **C25 (2D)** Nothing is lost or created: periodic domains always, other domains when the cells beyond the boundary are zero. -/
theorem ghostSum2_conserves {gy gx py px : ℕ} {per : Bool} {T : Cart2} (hT : mkCart2 gy gx py px per = .ok T) {g : ℕ}
    (hgy : g ≤ T.ny) (hgx : g ≤ T.nx) {w : C2 → GS2 α} (hw : Clean2 T w)
    (hb : per = true ∨ ∀ c p, Valid2 T c → InArr2 T g p → ¬ InDomain2 T (globalIx2 T g c p) → (w c).A p = 0) :
    innerTotal2 T g (fun c => (ghostSum2 T g w c).A) = ∑ c ∈ rankSet2 T, ∑ p ∈ arrSet2 T g, (w c).A p := by
  rw [ghostSum2_total hT hgy hgx hw]
  apply sum_congr rfl; intro c hc
  apply sum_congr rfl; intro p hp
  rw [mem_rankSet2] at hc
  rw [mem_arrSet2] at hp
  split
  · rfl
  · rename_i hn
    rcases hb with hb | hb
    · exact absurd (Or.inl hb) hn
    · exact (hb c p hc hp (fun h => hn (Or.inr h))).symm

/-- **C25 (3D)** -/
theorem ghostSum3_total {gz gy gx pz py px : ℕ} {per : Bool} {T : Cart3} (hT : mkCart3 gz gy gx pz py px per = .ok T) {g : ℕ}
    (hgz : g ≤ T.nz) (hgy : g ≤ T.ny) (hgx : g ≤ T.nx) {w : C3 → GS3 α} (hw : Clean3 T w) :
    innerTotal3 T g (fun c => (ghostSum3 T g w c).A) =
      ∑ c ∈ rankSet3 T, ∑ p ∈ arrSet3 T g, if per = true ∨ InDomain3 T (globalIx3 T g c p) then (w c).A p else 0 := by
  obtain ⟨-, -, -, -, -, -, hper, e0, e1, e2⟩ := construct3_ok hT
  have hr := run3_agree (agree3_init T g w hw)
  have h1 : innerTotal3 T g (fun c => (ghostSum3 T g w c).A) = ∑ c ∈ rankSet3 T, ∑ p ∈ innerSet3 T g,
      opB T.px T.per T.nx g (opB T.py T.per T.ny g (opB T.pz T.per T.nz g (fn3 w) c.1 p.1) c.2.1 p.2.1) c.2.2 p.2.2 := by
    unfold innerTotal3
    apply sum_congr rfl; intro c hc
    apply sum_congr rfl; intro p hp
    rw [mem_rankSet3] at hc
    rw [mem_innerSet3] at hp
    unfold ghostSum3
    simp only
    rw [clear3_inner hp, hr.A c p hc (by unfold InArr3; unfold Inner3 at hp; omega)]
  rw [h1, total3_aux hgz hgy hgx]
  apply sum_congr rfl; intro c _
  apply sum_congr rfl; intro p _
  have hiff : ((T.per = true ∨ (0 ≤ c.1 * T.nz + p.1 - g ∧ c.1 * T.nz + p.1 - g < T.pz * T.nz)) ∧
        (T.per = true ∨ (0 ≤ c.2.1 * T.ny + p.2.1 - g ∧ c.2.1 * T.ny + p.2.1 - g < T.py * T.ny)) ∧
        (T.per = true ∨ (0 ≤ c.2.2 * T.nx + p.2.2 - g ∧ c.2.2 * T.nx + p.2.2 - g < T.px * T.nx))) ↔
      (per = true ∨ InDomain3 T (globalIx3 T g c p)) := by
    unfold InDomain3 globalIx3
    simp only
    rw [← e0, ← e1, ← e2, hper]
    push_cast
    tauto
  by_cases hh : per = true ∨ InDomain3 T (globalIx3 T g c p)
  · rw [if_pos hh, if_pos (hiff.2 hh)]; rfl
  · rw [if_neg hh, if_neg (fun x => hh (hiff.1 x))]

/-- **C25 (3D)** -/
theorem ghostSum3_conserves {gz gy gx pz py px : ℕ} {per : Bool} {T : Cart3} (hT : mkCart3 gz gy gx pz py px per = .ok T)
    {g : ℕ} (hgz : g ≤ T.nz) (hgy : g ≤ T.ny) (hgx : g ≤ T.nx) {w : C3 → GS3 α} (hw : Clean3 T w)
    (hb : per = true ∨ ∀ c p, Valid3 T c → InArr3 T g p → ¬ InDomain3 T (globalIx3 T g c p) → (w c).A p = 0) :
    innerTotal3 T g (fun c => (ghostSum3 T g w c).A) = ∑ c ∈ rankSet3 T, ∑ p ∈ arrSet3 T g, (w c).A p := by
  rw [ghostSum3_total hT hgz hgy hgx hw]
  apply sum_congr rfl; intro c hc
  apply sum_congr rfl; intro p hp
  rw [mem_rankSet3] at hc
  rw [mem_arrSet3] at hp
  split
  · rfl
  · rename_i hn
    rcases hb with hb | hb
    · exact absurd (Or.inl hb) hn
    · exact (hb c p hc hp (fun h => hn (Or.inr h))).symm

/-- C25 non-vacuity: on a periodic 2 x 1 topology with 2 x 2 blocks and one ghost layer, the value 5 placed in a corner ghost cell of
one rank is found again in the total of the inner cells. -/
example : ∃ T : Cart2, mkCart2 4 2 2 1 true = .ok T ∧ (1 ≤ T.ny ∧ 1 ≤ T.nx) ∧
    innerTotal2 T 1 (fun c => (ghostSum2 T 1
      (fun c => gsInit2 fun p => if c = (0, 0) ∧ p = (0, 0) then (5 : ℤ) else 0) c).A) = 5 := by
  refine ⟨⟨4, 2, 2, 1, 2, 2, true⟩, rfl, by decide, by decide⟩

end C25

/-! ## C26: scheduling -/

section C26
variable {α : Type} [Semiring α]

theorem axisPair_map {R : Type} {P : ℕ} {per : Bool} {s t : ℤ} (hst : t = -s) {ca cb : ℤ} (ha : 0 ≤ ca ∧ ca < P)
    (hb : 0 ≤ cb ∧ cb < P) : axisNbr P per ca s = some cb ↔ axisNbr P per cb t = some ca := by
  subst hst; exact axisNbr_symm ha hb

/-- In every phase of the 2D `ghost_sum` rank `a` sends to `b` iff `b` receives from `a`. -/
theorem gs2_paired (T : Cart2) (g : ℕ) : Paired (ranks2 T) 4 (gsPhase2 (α := α) T g) := by
  refine ⟨?_, ?_, ?_⟩
  · intro k hk a ha b hb
    rw [mem_ranks2] at ha hb
    obtain ⟨hy, hx⟩ := ha.pos
    interval_cases k <;> simp only [gsPhase2]
    · rw [nextY2_eq ha, prevY2_eq hb]; exact nbr2_symm ha hb
    · rw [nextX2_eq ha, prevX2_eq hb]; exact nbr2_symm ha hb
    · rw [prevY2_eq ha, nextY2_eq hb]; exact nbr2_symm ha hb
    · rw [prevX2_eq ha, nextX2_eq hb]; exact nbr2_symm ha hb
  · intro k hk a ha b h
    rw [mem_ranks2] at ha ⊢
    obtain ⟨hy, hx⟩ := ha.pos
    interval_cases k <;> simp only [gsPhase2] at h
    · rw [nextY2_eq ha] at h; exact nbr2_valid hy hx h
    · rw [nextX2_eq ha] at h; exact nbr2_valid hy hx h
    · rw [prevY2_eq ha] at h; exact nbr2_valid hy hx h
    · rw [prevX2_eq ha] at h; exact nbr2_valid hy hx h
  · intro k hk a ha b h
    rw [mem_ranks2] at ha ⊢
    obtain ⟨hy, hx⟩ := ha.pos
    interval_cases k <;> simp only [gsPhase2] at h
    · rw [prevY2_eq ha] at h; exact nbr2_valid hy hx h
    · rw [prevX2_eq ha] at h; exact nbr2_valid hy hx h
    · rw [nextY2_eq ha] at h; exact nbr2_valid hy hx h
    · rw [nextX2_eq ha] at h; exact nbr2_valid hy hx h

/-- In every phase of the 3D `ghost_sum` rank `a` sends to `b` iff `b` receives from `a`. -/
theorem gs3_paired (T : Cart3) (g : ℕ) : Paired (ranks3 T) 6 (gsPhase3 (α := α) T g) := by
  refine ⟨?_, ?_, ?_⟩
  · intro k hk a ha b hb
    rw [mem_ranks3] at ha hb
    obtain ⟨hz, hy, hx⟩ := ha.pos
    interval_cases k <;> simp only [gsPhase3]
    · rw [nextZ3_eq ha, prevZ3_eq hb]; exact nbr3_symm ha hb
    · rw [nextY3_eq ha, prevY3_eq hb]; exact nbr3_symm ha hb
    · rw [nextX3_eq ha, prevX3_eq hb]; exact nbr3_symm ha hb
    · rw [prevZ3_eq ha, nextZ3_eq hb]; exact nbr3_symm ha hb
    · rw [prevY3_eq ha, nextY3_eq hb]; exact nbr3_symm ha hb
    · rw [prevX3_eq ha, nextX3_eq hb]; exact nbr3_symm ha hb
  · intro k hk a ha b h
    rw [mem_ranks3] at ha ⊢
    obtain ⟨hz, hy, hx⟩ := ha.pos
    interval_cases k <;> simp only [gsPhase3] at h
    · rw [nextZ3_eq ha] at h; exact nbr3_valid hz hy hx h
    · rw [nextY3_eq ha] at h; exact nbr3_valid hz hy hx h
    · rw [nextX3_eq ha] at h; exact nbr3_valid hz hy hx h
    · rw [prevZ3_eq ha] at h; exact nbr3_valid hz hy hx h
    · rw [prevY3_eq ha] at h; exact nbr3_valid hz hy hx h
    · rw [prevX3_eq ha] at h; exact nbr3_valid hz hy hx h
  · intro k hk a ha b h
    rw [mem_ranks3] at ha ⊢
    obtain ⟨hz, hy, hx⟩ := ha.pos
    interval_cases k <;> simp only [gsPhase3] at h
    · rw [prevZ3_eq ha] at h; exact nbr3_valid hz hy hx h
    · rw [prevY3_eq ha] at h; exact nbr3_valid hz hy hx h
    · rw [prevX3_eq ha] at h; exact nbr3_valid hz hy hx h
    · rw [nextZ3_eq ha] at h; exact nbr3_valid hz hy hx h
    · rw [nextY3_eq ha] at h; exact nbr3_valid hz hy hx h
    · rw [nextX3_eq ha] at h; exact nbr3_valid hz hy hx h

/-- **C26 (2D)** Every execution of `ghost_sum`, under every interleaving and whether or not sends are buffered: it stops after at
most 8 steps per rank, and a rank that has returned holds the result described by C24. -/
theorem ghostSum2_schedule (T : Cart2) (g : ℕ) (buffered : Bool) (w : C2 → GS2 α) {n : ℕ} {C : Conf C2 (GS2 α) (C2 → α)}
    (r : BRun buffered (ranks2 T) 4 (gsPhase2 T g) n (Conf.start w) C) :
    n ≤ 8 * (ranks2 T).length ∧
    (∀ c, C.doneAt 4 c → ({ C.loc c with A := clearGhosts2 T g (C.loc c).A } : GS2 α) = ghostSum2 T g w c) := by
  refine ⟨blocking_terminates (ranks2_nodup T) (gs2_paired T g) r, ?_⟩
  intro c hc
  rw [blocking_deterministic (gs2_paired T g) r hc]
  rfl

/-- **C26 (3D)** -/
theorem ghostSum3_schedule (T : Cart3) (g : ℕ) (buffered : Bool) (w : C3 → GS3 α) {n : ℕ} {C : Conf C3 (GS3 α) (C3 → α)}
    (r : BRun buffered (ranks3 T) 6 (gsPhase3 T g) n (Conf.start w) C) :
    n ≤ 12 * (ranks3 T).length ∧
    (∀ c, C.doneAt 6 c → ({ C.loc c with A := clearGhosts3 T g (C.loc c).A } : GS3 α) = ghostSum3 T g w c) := by
  refine ⟨blocking_terminates (ranks3_nodup T) (gs3_paired T g) r, ?_⟩
  intro c hc
  rw [blocking_deterministic (gs3_paired T g) r hc]
  rfl

theorem axisNbr_np {P : ℕ} {c s d : ℤ} (h : axisNbr P false c s = some d) : d = c + s := by
  rw [axisNbr_eq] at h
  simp only [Bool.false_eq_true, if_false] at h
  split at h
  · simpa using h.symm
  · cases h

/-- **C26 (2D)** On a non-periodic topology no execution gets stuck, even when no send is ever buffered: as long as some rank has not
returned, some rank can go on. -/
theorem ghostSum2_no_deadlock {T : Cart2} (hper : T.per = false) (g : ℕ) (buffered : Bool) (w : C2 → GS2 α) {n : ℕ}
    {C : Conf C2 (GS2 α) (C2 → α)} (r : BRun buffered (ranks2 T) 4 (gsPhase2 T g) n (Conf.start w) C)
    (hnot : ∃ c ∈ ranks2 T, ¬ C.doneAt 4 c) : ∃ C', BStep buffered (ranks2 T) 4 (gsPhase2 T g) C C' := by
  refine blocking_progress (gs2_paired T g)
    (fun k c => match k with
      | 0 => (T.py - c.1).toNat
      | 1 => (T.px - c.2).toNat
      | 2 => c.1.toNat
      | _ => c.2.toNat) ?_ r hnot
  intro k hk a ha b h
  rw [mem_ranks2] at ha
  obtain ⟨h0, h1, h2, h3⟩ := id ha
  interval_cases k <;> simp only [gsPhase2] at h ⊢
  · rw [nextY2_eq ha, nbr2_eq_some, hper] at h
    have := axisNbr_np h.1
    simp only at this; omega
  · rw [nextX2_eq ha, nbr2_eq_some, hper] at h
    have := axisNbr_np h.2
    simp only at this; omega
  · rw [prevY2_eq ha, nbr2_eq_some, hper] at h
    have := axisNbr_np h.1
    have := axisNbr_range (by omega) h.1
    simp only at *; omega
  · rw [prevX2_eq ha, nbr2_eq_some, hper] at h
    have := axisNbr_np h.2
    have := axisNbr_range (by omega) h.2
    simp only at *; omega

/-- **C26 (3D)** -/
theorem ghostSum3_no_deadlock {T : Cart3} (hper : T.per = false) (g : ℕ) (buffered : Bool) (w : C3 → GS3 α) {n : ℕ}
    {C : Conf C3 (GS3 α) (C3 → α)} (r : BRun buffered (ranks3 T) 6 (gsPhase3 T g) n (Conf.start w) C)
    (hnot : ∃ c ∈ ranks3 T, ¬ C.doneAt 6 c) : ∃ C', BStep buffered (ranks3 T) 6 (gsPhase3 T g) C C' := by
  refine blocking_progress (gs3_paired T g)
    (fun k c => match k with
      | 0 => (T.pz - c.1).toNat
      | 1 => (T.py - c.2.1).toNat
      | 2 => (T.px - c.2.2).toNat
      | 3 => c.1.toNat
      | 4 => c.2.1.toNat
      | _ => c.2.2.toNat) ?_ r hnot
  intro k hk a ha b h
  rw [mem_ranks3] at ha
  obtain ⟨h0, h1, h2, h3, h4, h5⟩ := id ha
  interval_cases k <;> simp only [gsPhase3] at h ⊢
  · rw [nextZ3_eq ha, nbr3_eq_some, hper] at h
    have := axisNbr_np h.1
    simp only at this; omega
  · rw [nextY3_eq ha, nbr3_eq_some, hper] at h
    have := axisNbr_np h.2.1
    simp only at this; omega
  · rw [nextX3_eq ha, nbr3_eq_some, hper] at h
    have := axisNbr_np h.2.2
    simp only at this; omega
  · rw [prevZ3_eq ha, nbr3_eq_some, hper] at h
    have := axisNbr_np h.1
    have := axisNbr_range (by omega) h.1
    simp only at *; omega
  · rw [prevY3_eq ha, nbr3_eq_some, hper] at h
    have := axisNbr_np h.2.1
    have := axisNbr_range (by omega) h.2.1
    simp only at *; omega
  · rw [prevX3_eq ha, nbr3_eq_some, hper] at h
    have := axisNbr_np h.2.2
    have := axisNbr_range (by omega) h.2.2
    simp only at *; omega

/-- **C26 (periodic)** With buffering, `ghost_sum` never gets stuck on a periodic topology either. -/
theorem ghostSum_no_deadlock_buffered :
    (∀ (T : Cart2) (g : ℕ) (w : C2 → GS2 α) (n : ℕ) (C : Conf C2 (GS2 α) (C2 → α)),
      BRun true (ranks2 T) 4 (gsPhase2 T g) n (Conf.start w) C → (∃ c ∈ ranks2 T, ¬ C.doneAt 4 c) →
      ∃ C', BStep true (ranks2 T) 4 (gsPhase2 T g) C C') ∧
    (∀ (T : Cart3) (g : ℕ) (w : C3 → GS3 α) (n : ℕ) (C : Conf C3 (GS3 α) (C3 → α)),
      BRun true (ranks3 T) 6 (gsPhase3 T g) n (Conf.start w) C → (∃ c ∈ ranks3 T, ¬ C.doneAt 6 c) →
      ∃ C', BStep true (ranks3 T) 6 (gsPhase3 T g) C C') :=
  ⟨fun T g _ _ _ r h => blocking_progress_buffered (gs2_paired T g) r h,
   fun T g _ _ _ r h => blocking_progress_buffered (gs3_paired T g) r h⟩

/-- **C26 (periodic)** Without buffering, on every periodic topology the first `Send` of every rank blocks forever:
no rank can make a single step. -/
theorem ghostSum_periodic_deadlock :
    (∀ (T : Cart2) (g : ℕ) (w : C2 → GS2 α), T.per = true →
      ¬ ∃ C', BStep false (ranks2 T) 4 (gsPhase2 T g) (Conf.start w) C') ∧
    (∀ (T : Cart3) (g : ℕ) (w : C3 → GS3 α), T.per = true →
      ¬ ∃ C', BStep false (ranks3 T) 6 (gsPhase3 T g) (Conf.start w) C') := by
  have hsome : ∀ (P : ℕ) (c s : ℤ), ∃ d, axisNbr P true c s = some d := by
    intro P c s; rw [axisNbr_eq]; exact ⟨_, rfl⟩
  refine ⟨?_, ?_⟩
  · intro T g w hper
    apply blocking_deadlock
    intro a ha
    simp only [gsPhase2, nextY2, hper]
    obtain ⟨d, hd⟩ := hsome T.py a.1 1
    exact ⟨_, by rw [hd]; rfl⟩
  · intro T g w hper
    apply blocking_deadlock
    intro a ha
    simp only [gsPhase3, nextZ3, hper]
    obtain ⟨d, hd⟩ := hsome T.pz a.1 1
    exact ⟨_, by rw [hd]; rfl⟩

/-- C26 non-vacuity: a 3 x 1 topology has three ranks, and its last rank can start without waiting. -/
example : ∃ T : Cart2, mkCart2 6 2 3 1 false = .ok T ∧ (ranks2 T).length = 3 ∧ T.per = false ∧
    ∃ C', BStep false (ranks2 T) 4 (gsPhase2 (α := ℤ) T 1) (Conf.start fun _ => gsInit2 fun _ => 1) C' := by
  refine ⟨⟨6, 2, 3, 1, 2, 2, false⟩, rfl, by decide, rfl, _, BStep.sendNull _ (2, 0) 0 (by decide) (by decide) rfl (by decide)⟩

end C26

/-! ## C24: boundary of the hypotheses -/

/-- C24 hypotheses are needed: when the ghost layer is thicker than the block, values that left the neighbouring block are not forwarded
and are lost (here: three blocks of one cell, two ghost layers, the value 1 that rank 2 holds for the cell of rank 0). -/
theorem ghostSum2_thin_block_wrong : ∃ T : Cart2, mkCart2 3 2 3 1 false = .ok T ∧
    (ghostSum2 T 2 (fun c => gsInit2 fun p => if c = (2, 0) ∧ p = (0, 2) then (1 : ℤ) else 0) (0, 0)).A (2, 2) ≠
      ∑ b ∈ rankSet2 T, if InArr2 T 2 (localIx2 T 2 b (globalIx2 T 2 (0, 0) (2, 2))) then
        (gsInit2 fun p => if b = (2, 0) ∧ p = (0, 2) then (1 : ℤ) else 0).A (localIx2 T 2 b (globalIx2 T 2 (0, 0) (2, 2))) else 0 := by
  refine ⟨⟨3, 2, 3, 1, 1, 2, false⟩, rfl, by decide⟩

/-- C24 non-vacuity: four ranks, each array filled with ones: every inner cell next to a block edge gets the neighbours' ghosts. -/
example : ∃ T : Cart2, mkCart2 4 4 2 2 false = .ok T ∧ (1 ≤ T.ny ∧ 1 ≤ T.nx) ∧ Clean2 T (fun _ => gsInit2 fun _ => (1 : ℤ)) ∧
    (ghostSum2 T 1 (fun _ => gsInit2 fun _ => (1 : ℤ)) (0, 0)).A (2, 2) = 4 ∧
    (ghostSum2 T 1 (fun _ => gsInit2 fun _ => (1 : ℤ)) (0, 0)).A (1, 1) = 1 := by
  refine ⟨⟨4, 4, 2, 2, 2, 2, false⟩, rfl, by decide, fun _ _ => ⟨rfl, rfl⟩, by decide, by decide⟩

example : ∃ T : Cart3, mkCart3 2 2 4 1 1 2 true = .ok T ∧ (1 ≤ T.nz ∧ 1 ≤ T.ny ∧ 1 ≤ T.nx) ∧
    Clean3 T (fun _ => gsInit3 fun _ => (1 : ℤ)) ∧
    (ghostSum3 T 1 (fun _ => gsInit3 fun _ => (1 : ℤ)) (0, 0, 0)).A (1, 1, 1) = 8 := by
  refine ⟨⟨2, 2, 4, 1, 1, 2, 2, 2, 2, true⟩, rfl, by decide, fun _ _ => ⟨rfl, rfl, rfl⟩, by decide⟩

end Sopht
