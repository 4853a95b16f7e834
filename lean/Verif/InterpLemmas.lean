import Verif.Interp
import Verif.GhostSumProps
import Mathlib.Algebra.BigOperators.Ring.Finset

/-! Specification of interpolation and spreading in terms of global cells, and helpers. -/

namespace Sopht

open Finset

set_option linter.unusedSimpArgs false

/-! ## Specification -/

section Spec
variable {K : Type} [Field K] [LinearOrder K] [FloorRing K]

/-- Number of the last grid cell whose coordinate `G * dx + shift` is not above `x`. -/
def cellOf (dx shift x : K) : ℤ := ⌊(x - shift) / dx⌋

/-- The `2 w` grid cells around `x` along one axis. -/
def winCells (dx shift : K) (w : ℕ) (x : K) : Finset ℤ := Ioc (cellOf dx shift x - w) (cellOf dx shift x + w)

/-- Weight of global cell `G` for a node at `x`: the weight function of the distances (cell coordinate minus node coordinate). -/
def cellWeight2 (dx shift : K) (W : K → K → K) (x : K × K) (G : C2) : K :=
  W ((G.2 : K) * dx + shift - x.1) ((G.1 : K) * dx + shift - x.2)
/-- 3D version of `cellWeight2`. -/
def cellWeight3 (dx shift : K) (W : K → K → K → K) (x : K × K × K) (G : C3) : K :=
  W ((G.2.2 : K) * dx + shift - x.1) ((G.2.1 : K) * dx + shift - x.2.1) ((G.1 : K) * dx + shift - x.2.2)

/-- Cells around a node. -/
def window2 (dx shift : K) (w : ℕ) (x : K × K) : Finset C2 := winCells dx shift w x.2 ×ˢ winCells dx shift w x.1
/-- Cells around a node. -/
def window3 (dx shift : K) (w : ℕ) (x : K × K × K) : Finset C3 :=
  winCells dx shift w x.2.2 ×ˢ winCells dx shift w x.2.1 ×ˢ winCells dx shift w x.1

/-- Interpolation of a global field `F` at `x`. -/
def interp2 (dx shift : K) (w : ℕ) (W : K → K → K) (F : C2 → K) (x : K × K) : K :=
  ∑ G ∈ window2 dx shift w x, F G * cellWeight2 dx shift W x G * dx ^ 2
/-- Interpolation of a global field `F` at `x`. -/
def interp3 (dx shift : K) (w : ℕ) (W : K → K → K → K) (F : C3 → K) (x : K × K × K) : K :=
  ∑ G ∈ window3 dx shift w x, F G * cellWeight3 dx shift W x G * dx ^ 3

/-- What one node (position, value) adds to global cell `G`. -/
def share2n (dx shift : K) (w : ℕ) (W : K → K → K) (G : C2) (nd : (K × K) × K) : K :=
  if G ∈ window2 dx shift w nd.1 then nd.2 * cellWeight2 dx shift W nd.1 G else 0
/-- What one node (position, value) adds to global cell `G`. -/
def share3n (dx shift : K) (w : ℕ) (W : K → K → K → K) (G : C3) (nd : (K × K × K) × K) : K :=
  if G ∈ window3 dx shift w nd.1 then nd.2 * cellWeight3 dx shift W nd.1 G else 0

end Spec

section Helpers
variable {K : Type} [Field K] [LinearOrder K] [FloorRing K]

theorem suppDist_eq (dx shift : K) (sub : ℤ) (w : ℕ) (x : K) (i : ℤ) :
    suppDist dx shift sub w x i = ((cellOf dx shift x - w + 1 + i : ℤ) : K) * dx + shift - x := by
  unfold suppDist nearestIx offset cellOf
  congr 4
  ring

theorem sum_window {M : Type} [AddCommMonoid M] (k : ℤ) (w : ℕ) (f : ℤ → M) :
    (∑ i ∈ range (2 * w), f (k - w + 1 + i)) = ∑ G ∈ Ioc (k - w) (k + w), f G := by
  apply Finset.sum_bij' (fun (i : ℕ) _ => k - w + 1 + (i : ℤ)) (fun (G : ℤ) _ => (G - (k - w + 1)).toNat)
  · intro i hi; rw [mem_range] at hi; rw [mem_Ioc]; omega
  · intro G hG; rw [mem_Ioc] at hG; rw [mem_range]; omega
  · intro i _; omega
  · intro G hG; rw [mem_Ioc] at hG; omega
  · intro i _; rfl

variable [IsStrictOrderedRing K]

/-- a node in the physical block of a rank lies in one of its cells -/
theorem cellOf_block {dx shift : K} (hdx : 0 < dx) {n : ℕ} {c : ℤ} {x : K} (h : InPhys dx shift n c x) :
    c * n ≤ cellOf dx shift x ∧ cellOf dx shift x < c * n + n := by
  unfold InPhys at h
  unfold cellOf
  constructor
  · rw [Int.le_floor, le_div_iff₀ hdx]; push_cast; nlinarith [h.1]
  · rw [Int.floor_lt, div_lt_iff₀ hdx]; push_cast; nlinarith [h.2]

theorem nodes_sum {R N M : Type} [DecidableEq R] [AddCommMonoid M] (S : Finset R) (f : N → M) :
    ∀ (addr : List R) (nodes : List N), addr.length = nodes.length → (∀ a ∈ addr, a ∈ S) →
      (∑ b ∈ S, ((nodesOf addr nodes b).map f).sum) = (nodes.map f).sum := by
  intro addr
  induction addr with
  | nil => intro nodes hl _; cases nodes with
    | nil => simp [nodesOf]
    | cons _ _ => simp at hl
  | cons a t ih =>
    intro nodes hl hS
    cases nodes with
    | nil => simp at hl
    | cons nd ns =>
      have hl' : t.length = ns.length := by simpa using hl
      have := ih ns hl' (fun b hb => hS b (List.mem_cons_of_mem _ hb))
      have step : ∀ b, ((nodesOf (a :: t) (nd :: ns) b).map f).sum =
          (if b = a then f nd else 0) + ((nodesOf t ns b).map f).sum := by
        intro b
        unfold nodesOf
        rw [List.zip_cons_cons, List.filter_cons]
        by_cases hb : b = a
        · subst hb; simp
        · rw [if_neg (by simpa using fun h : a = b => hb h.symm), if_neg hb, zero_add]
      simp only [step, sum_add_distrib, this, List.map_cons, List.sum_cons]
      rw [sum_ite_eq' S a (fun _ => f nd), if_pos (hS a (by simp))]

theorem mem_nodesOf {R N : Type} [DecidableEq R] {addr : List R} {nodes : List N} {c : R} {nd : N}
    (h : nd ∈ nodesOf addr nodes c) : ∃ i : ℕ, addr[i]? = some c ∧ nodes[i]? = some nd := by
  unfold nodesOf at h
  obtain ⟨q, hq, rfl⟩ := List.mem_map.1 h
  rw [List.mem_filter] at hq
  obtain ⟨hm, hc⟩ := hq
  obtain ⟨i, hi⟩ := List.mem_iff_getElem?.1 hm
  rw [List.getElem?_zip_eq_some] at hi
  refine ⟨i, ?_, hi.2⟩
  rw [hi.1]; simpa using hc

end Helpers

/-! ## 2D -/

section D2
variable {K : Type} [Field K] [LinearOrder K] [FloorRing K]

theorem weight2_eq (T : Cart2) (g w : ℕ) (dx shift : K) (W : K → K → K) (c : C2) (x : K × K) (j i : ℤ) :
    weight2 T g w dx shift W c x j i =
      cellWeight2 dx shift W x (cellOf dx shift x.2 - w + 1 + j, cellOf dx shift x.1 - w + 1 + i) := by
  unfold weight2 cellWeight2
  rw [suppDist_eq, suppDist_eq]

theorem winStart2_eq (T : Cart2) (g w : ℕ) (dx shift : K) (c : C2) (x : K × K) :
    winStart2 T g w dx shift c x =
      (cellOf dx shift x.2 - (c.1 * T.ny - g) - w + 1, cellOf dx shift x.1 - (c.2 * T.nx - g) - w + 1) := by
  unfold winStart2 nearestIx cellOf substart; rfl

theorem eulToLag2_eq (T : Cart2) (g w : ℕ) (dx shift : K) (W : K → K → K) (c : C2) (A : C2 → K) (x : K × K) :
    eulToLag2 T g w dx shift W c A x =
      ∑ G ∈ window2 dx shift w x, A (localIx2 T g c G) * cellWeight2 dx shift W x G * dx ^ 2 := by
  unfold eulToLag2 window2
  simp only [winStart2_eq, weight2_eq]
  rw [sum_product, sum_mul]
  unfold winCells
  rw [← sum_window (cellOf dx shift x.2) w]
  apply sum_congr rfl; intro j _
  rw [← sum_window (cellOf dx shift x.1) w, sum_mul]
  apply sum_congr rfl; intro i _
  have e : localIx2 T g c (cellOf dx shift x.2 - w + 1 + j, cellOf dx shift x.1 - w + 1 + i) =
      (cellOf dx shift x.2 - (c.1 * T.ny - g) - w + 1 + j, cellOf dx shift x.1 - (c.2 * T.nx - g) - w + 1 + i) := by
    unfold localIx2; refine Prod.ext ?_ ?_ <;> simp only <;> ring
  rw [e]

theorem lagToEul2_eq (T : Cart2) (g w : ℕ) (dx shift : K) (W : K → K → K) (c : C2) (A : C2 → K) (nd : (K × K) × K) (p : C2) :
    lagToEul2 T g w dx shift W c A nd p = A p + share2n dx shift w W (globalIx2 T g c p) nd := by
  unfold lagToEul2 share2n
  simp only [winStart2_eq, weight2_eq]
  have hiff : ((cellOf dx shift nd.1.2 - (c.1 * T.ny - g) - w + 1 ≤ p.1 ∧
        p.1 < cellOf dx shift nd.1.2 - (c.1 * T.ny - g) - w + 1 + 2 * w) ∧
      (cellOf dx shift nd.1.1 - (c.2 * T.nx - g) - w + 1 ≤ p.2 ∧
        p.2 < cellOf dx shift nd.1.1 - (c.2 * T.nx - g) - w + 1 + 2 * w)) ↔
      globalIx2 T g c p ∈ window2 dx shift w nd.1 := by
    unfold globalIx2 window2 winCells
    simp only [mem_product, mem_Ioc]
    omega
  by_cases hh : globalIx2 T g c p ∈ window2 dx shift w nd.1
  · rw [if_pos hh, if_pos (hiff.2 hh)]
    congr 3
    unfold globalIx2; refine Prod.ext ?_ ?_ <;> simp only <;> ring
  · rw [if_neg hh, if_neg (fun h => hh (hiff.1 h)), add_zero]

theorem spread2_eq (T : Cart2) (g w : ℕ) (dx shift : K) (W : K → K → K) (c : C2) (nodes : List ((K × K) × K)) (p : C2) :
    ∀ A : C2 → K, spread2 T g w dx shift W c A nodes p =
      A p + (nodes.map (share2n dx shift w W (globalIx2 T g c p))).sum := by
  unfold spread2
  induction nodes with
  | nil => intro A; simp
  | cons nd ns ih =>
    intro A
    rw [List.foldl_cons, ih, lagToEul2_eq, List.map_cons, List.sum_cons, add_assoc]

theorem global_local2 (T : Cart2) (g : ℤ) (b G : C2) : globalIx2 T g b (localIx2 T g b G) = G := by
  unfold globalIx2 localIx2; refine Prod.ext ?_ ?_ <;> simp only <;> ring
theorem local_global2 (T : Cart2) (g : ℤ) (b p : C2) : localIx2 T g b (globalIx2 T g b p) = p := by
  unfold globalIx2 localIx2; refine Prod.ext ?_ ?_ <;> simp only <;> ring

/-- an inner cell of one rank is a ghost cell of every other -/
theorem inner_unique2 {T : Cart2} {g : ℤ} {b c p : C2} (hp : Inner2 T g p)
    (hb : Inner2 T g (localIx2 T g b (globalIx2 T g c p))) : b = c := by
  obtain ⟨p0, p1, p2, p3⟩ := hp
  unfold Inner2 localIx2 globalIx2 at hb
  simp only at hb
  obtain ⟨h0, h1, h2, h3⟩ := hb
  refine Prod.ext ?_ ?_
  · rcases lt_trichotomy b.1 c.1 with h | h | h
    · have : b.1 + 1 ≤ c.1 := h
      nlinarith
    · exact h
    · have : c.1 + 1 ≤ b.1 := h
      nlinarith
  · rcases lt_trichotomy b.2 c.2 with h | h | h
    · have : b.2 + 1 ≤ c.2 := h
      nlinarith
    · exact h
    · have : c.2 + 1 ≤ b.2 := h
      nlinarith

variable [IsStrictOrderedRing K]

theorem window_inArr2 {T : Cart2} {g w : ℕ} (hw : w ≤ g) {dx shift : K} (hdx : 0 < dx) {c : C2} {x : K × K}
    (h : InPhysBlock2 T dx shift c x) {G : C2} (hG : G ∈ window2 dx shift w x) : InArr2 T g (localIx2 T g c G) := by
  have hy := cellOf_block hdx h.1
  have hx := cellOf_block hdx h.2
  unfold window2 winCells at hG
  simp only [mem_product, mem_Ioc] at hG
  unfold InArr2 localIx2
  simp only
  omega

end D2

/-! ## 3D -/

section D3
variable {K : Type} [Field K] [LinearOrder K] [FloorRing K]

theorem weight3_eq (T : Cart3) (g w : ℕ) (dx shift : K) (W : K → K → K → K) (c : C3) (x : K × K × K) (k j i : ℤ) :
    weight3 T g w dx shift W c x k j i =
      cellWeight3 dx shift W x
        (cellOf dx shift x.2.2 - w + 1 + k, cellOf dx shift x.2.1 - w + 1 + j, cellOf dx shift x.1 - w + 1 + i) := by
  unfold weight3 cellWeight3
  rw [suppDist_eq, suppDist_eq, suppDist_eq]

theorem winStart3_eq (T : Cart3) (g w : ℕ) (dx shift : K) (c : C3) (x : K × K × K) :
    winStart3 T g w dx shift c x =
      (cellOf dx shift x.2.2 - (c.1 * T.nz - g) - w + 1, cellOf dx shift x.2.1 - (c.2.1 * T.ny - g) - w + 1,
        cellOf dx shift x.1 - (c.2.2 * T.nx - g) - w + 1) := by
  unfold winStart3 nearestIx cellOf substart; rfl

theorem eulToLag3_eq (T : Cart3) (g w : ℕ) (dx shift : K) (W : K → K → K → K) (c : C3) (A : C3 → K) (x : K × K × K) :
    eulToLag3 T g w dx shift W c A x =
      ∑ G ∈ window3 dx shift w x, A (localIx3 T g c G) * cellWeight3 dx shift W x G * dx ^ 3 := by
  unfold eulToLag3 window3
  simp only [winStart3_eq, weight3_eq]
  rw [sum_product, sum_mul]
  unfold winCells
  rw [← sum_window (cellOf dx shift x.2.2) w]
  apply sum_congr rfl; intro k _
  rw [sum_product, ← sum_window (cellOf dx shift x.2.1) w, sum_mul]
  apply sum_congr rfl; intro j _
  rw [← sum_window (cellOf dx shift x.1) w, sum_mul]
  apply sum_congr rfl; intro i _
  have e : localIx3 T g c (cellOf dx shift x.2.2 - w + 1 + k, cellOf dx shift x.2.1 - w + 1 + j,
      cellOf dx shift x.1 - w + 1 + i) =
      (cellOf dx shift x.2.2 - (c.1 * T.nz - g) - w + 1 + k, cellOf dx shift x.2.1 - (c.2.1 * T.ny - g) - w + 1 + j,
        cellOf dx shift x.1 - (c.2.2 * T.nx - g) - w + 1 + i) := by
    unfold localIx3; refine Prod.ext ?_ (Prod.ext ?_ ?_) <;> simp only <;> ring
  rw [e]

theorem lagToEul3_eq (T : Cart3) (g w : ℕ) (dx shift : K) (W : K → K → K → K) (c : C3) (A : C3 → K) (nd : (K × K × K) × K)
    (p : C3) : lagToEul3 T g w dx shift W c A nd p = A p + share3n dx shift w W (globalIx3 T g c p) nd := by
  unfold lagToEul3 share3n
  simp only [winStart3_eq, weight3_eq]
  have hiff : ((cellOf dx shift nd.1.2.2 - (c.1 * T.nz - g) - w + 1 ≤ p.1 ∧
        p.1 < cellOf dx shift nd.1.2.2 - (c.1 * T.nz - g) - w + 1 + 2 * w) ∧
      (cellOf dx shift nd.1.2.1 - (c.2.1 * T.ny - g) - w + 1 ≤ p.2.1 ∧
        p.2.1 < cellOf dx shift nd.1.2.1 - (c.2.1 * T.ny - g) - w + 1 + 2 * w) ∧
      (cellOf dx shift nd.1.1 - (c.2.2 * T.nx - g) - w + 1 ≤ p.2.2 ∧
        p.2.2 < cellOf dx shift nd.1.1 - (c.2.2 * T.nx - g) - w + 1 + 2 * w)) ↔
      globalIx3 T g c p ∈ window3 dx shift w nd.1 := by
    unfold globalIx3 window3 winCells
    simp only [mem_product, mem_Ioc]
    omega
  by_cases hh : globalIx3 T g c p ∈ window3 dx shift w nd.1
  · rw [if_pos hh, if_pos (hiff.2 hh)]
    congr 3
    unfold globalIx3; refine Prod.ext ?_ (Prod.ext ?_ ?_) <;> simp only <;> ring
  · rw [if_neg hh, if_neg (fun h => hh (hiff.1 h)), add_zero]

theorem spread3_eq (T : Cart3) (g w : ℕ) (dx shift : K) (W : K → K → K → K) (c : C3) (nodes : List ((K × K × K) × K)) (p : C3) :
    ∀ A : C3 → K, spread3 T g w dx shift W c A nodes p =
      A p + (nodes.map (share3n dx shift w W (globalIx3 T g c p))).sum := by
  unfold spread3
  induction nodes with
  | nil => intro A; simp
  | cons nd ns ih =>
    intro A
    rw [List.foldl_cons, ih, lagToEul3_eq, List.map_cons, List.sum_cons, add_assoc]

theorem global_local3 (T : Cart3) (g : ℤ) (b G : C3) : globalIx3 T g b (localIx3 T g b G) = G := by
  unfold globalIx3 localIx3; refine Prod.ext ?_ (Prod.ext ?_ ?_) <;> simp only <;> ring
theorem local_global3 (T : Cart3) (g : ℤ) (b p : C3) : localIx3 T g b (globalIx3 T g b p) = p := by
  unfold globalIx3 localIx3; refine Prod.ext ?_ (Prod.ext ?_ ?_) <;> simp only <;> ring

theorem block_unique {n g b c p : ℤ} (hn : g ≤ p ∧ p < g + n) (hb : g ≤ c * n + p - g - b * n + g ∧
    c * n + p - g - b * n + g < g + n) : b = c := by
  rcases lt_trichotomy b c with h | h | h
  · have : b + 1 ≤ c := h
    nlinarith
  · exact h
  · have : c + 1 ≤ b := h
    nlinarith

theorem inner_unique3 {T : Cart3} {g : ℤ} {b c p : C3} (hp : Inner3 T g p)
    (hb : Inner3 T g (localIx3 T g b (globalIx3 T g c p))) : b = c := by
  obtain ⟨p0, p1, p2, p3, p4, p5⟩ := hp
  unfold Inner3 localIx3 globalIx3 at hb
  simp only at hb
  obtain ⟨h0, h1, h2, h3, h4, h5⟩ := hb
  exact Prod.ext (block_unique ⟨p0, p1⟩ ⟨h0, h1⟩)
    (Prod.ext (block_unique ⟨p2, p3⟩ ⟨h2, h3⟩) (block_unique ⟨p4, p5⟩ ⟨h4, h5⟩))

variable [IsStrictOrderedRing K]

theorem window_inArr3 {T : Cart3} {g w : ℕ} (hw : w ≤ g) {dx shift : K} (hdx : 0 < dx) {c : C3} {x : K × K × K}
    (h : InPhysBlock3 T dx shift c x) {G : C3} (hG : G ∈ window3 dx shift w x) : InArr3 T g (localIx3 T g c G) := by
  have hz := cellOf_block hdx h.1
  have hy := cellOf_block hdx h.2.1
  have hx := cellOf_block hdx h.2.2
  unfold window3 winCells at hG
  simp only [mem_product, mem_Ioc] at hG
  unfold InArr3 localIx3
  simp only
  omega

end D3
end Sopht
