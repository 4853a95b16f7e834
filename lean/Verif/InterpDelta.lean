import Verif.Interactor2DProps
import Verif.Interactor3DProps

/-!
# With default arguments an interactor uses the regularised delta function on the simulator's grid (C68, C70)

The distances in the weights are distances to the cell centres in the simulator's `position_field`, and the weights vanish from distance `2 dx` on.
-/

namespace Sopht

open Finset

/-- The cosine delta function with support `2 dx`. -/
noncomputable def cosDelta (dx r : ℝ) : ℝ := if |r| < 2 * dx then (1 + Real.cos (Real.pi * r / (2 * dx))) / (4 * dx) else 0

/-- One axis: windows of width 2 cut the cosine where it vanishes. -/
theorem cosDelta_window {dx : ℝ} (hdx : 0 < dx) (s x : ℝ) (G : ℤ) :
    (if G ∈ winCells dx s 2 x then 0.25 / dx * cosFactor (((G : ℝ) * dx + s - x) / dx) else 0) = cosDelta dx ((G : ℝ) * dx + s - x) := by
  have e : ((G : ℝ) * dx + s - x) / dx = G - (x - s) / dx := by field_simp; ring
  have e2 : |(G : ℝ) * dx + s - x| < 2 * dx ↔ |G - (x - s) / dx| < 2 := by
    rw [← e, abs_div, abs_of_pos hdx, div_lt_iff₀ hdx]
  have e3 : Real.pi * ((G : ℝ) * dx + s - x) / (2 * dx) = 0.5 * Real.pi * (G - (x - s) / dx) := by
    rw [← e]; field_simp; norm_num; ring
  unfold cosDelta winCells cellOf cosFactor
  rw [e, e3]
  simp only [e2, mem_Ioc, abs_lt]
  have f1 := Int.floor_le ((x - s) / dx)
  have f2 := Int.lt_floor_add_one ((x - s) / dx)
  generalize (x - s) / dx = t at *
  by_cases h : -2 < (G : ℝ) - t ∧ (G : ℝ) - t < 2
  · have hG : ⌊t⌋ - ((2 : ℕ) : ℤ) < G ∧ G ≤ ⌊t⌋ + ((2 : ℕ) : ℤ) := by
      constructor
      · have : ((⌊t⌋ - 2 : ℤ) : ℝ) < G := by push_cast; linarith
        exact_mod_cast this
      · have : (G : ℝ) < ((⌊t⌋ + 3 : ℤ) : ℝ) := by push_cast; linarith
        have : G < ⌊t⌋ + 3 := by exact_mod_cast this
        omega
    rw [if_pos h, if_pos hG]
    field_simp
    ring
  · rw [if_neg h]
    split
    · rename_i hG
      have a1 : ((⌊t⌋ - 1 : ℤ) : ℝ) ≤ G := by have : ⌊t⌋ - 1 ≤ G := by omega
                                              exact_mod_cast this
      have a2 : (G : ℝ) ≤ ((⌊t⌋ + 2 : ℤ) : ℝ) := by have : G ≤ ⌊t⌋ + 2 := by omega
                                                    exact_mod_cast this
      push_cast at a1 a2
      have : (G : ℝ) - t = 2 := by
        by_contra hne
        apply h
        refine ⟨by linarith, lt_of_le_of_ne (by linarith) hne⟩
      rw [this, show (0.5 : ℝ) * Real.pi * 2 = Real.pi by ring, Real.cos_pi]
      ring
    · rfl

/-! ## 2D -/

/-- Indices of a local array with ghost cells. -/
noncomputable def arrCells2 (T : Cart2) (g : ℕ) : Finset C2 := Ico 0 ((T.ny : ℤ) + 2 * g) ×ˢ Ico 0 ((T.nx : ℤ) + 2 * g)

theorem mem_arrCells2 {T : Cart2} {g : ℕ} {p : C2} : p ∈ arrCells2 T g ↔ InArr2 T g p := by
  unfold arrCells2 InArr2
  simp only [mem_product, mem_Ico]
  tauto

theorem cosW2_window {dx : ℝ} (hdx : 0 < dx) (s : ℝ) (x : ℝ × ℝ) (G : C2) :
    (if G ∈ window2 dx s 2 x then cellWeight2 dx s (cosW2 dx) x G else 0) =
      cosDelta dx ((G.2 : ℝ) * dx + s - x.1) * cosDelta dx ((G.1 : ℝ) * dx + s - x.2) := by
  rw [← cosDelta_window hdx, ← cosDelta_window hdx]
  unfold window2 cellWeight2 cosW2
  simp only [mem_product]
  by_cases h1 : G.1 ∈ winCells dx s 2 x.2 <;> by_cases h2 : G.2 ∈ winCells dx s 2 x.1 <;> simp only [h1, h2, and_self, and_true, and_false, if_true, if_false]
  all_goals ring

theorem default_distance2 {T : Cart2} {g : ℕ} {xr : ℝ} {a : Ib2} (ha : a.shift = none) (c : C2) {p : C2} (hp : InArr2 T g p) :
    (((globalIx2 T g c p).2 : ℤ) : ℝ) * simDx2 T xr + a.sh (simDx2 T xr) = position2 T g xr c 0 p ∧
    (((globalIx2 T g c p).1 : ℤ) : ℝ) * simDx2 T xr + a.sh (simDx2 T xr) = position2 T g xr c 1 p := by
  obtain ⟨h0, h1⟩ := position2_cells T g xr c hp
  rw [h0, h1]
  unfold Ib2.sh simDx2
  rw [ha, Option.getD_none]
  constructor <;> ring

/-- With default arguments, the flow velocity an interactor computes at a node in the block of rank `c` is the sum over the rank's cells of velocity times the delta
functions of the distances between the cell centre (`position_field` of the simulator) and the node. -/
theorem flowVel2_default {T : Cart2} {g : ℕ} (hg : 2 ≤ g) {xr : ℝ} (hdx : 0 < simDx2 T xr) {a : Ib2} (hs : a.shift = none) (hw : a.width = none)
    (vel : Fin 2 → World C2 C2 ℝ) {c : C2} {x : ℕ → ℝ} (hx : InPhysBlock2 T (simDx2 T xr) (simDx2 T xr / 2) c (x 0, x 1)) (k : ℕ) :
    flowVel2 T g (simDx2 T xr) a vel c x k =
      ∑ p ∈ arrCells2 T g, vel (comp2 k) c p * (cosDelta (simDx2 T xr) (position2 T g xr c 0 p - x 0) * cosDelta (simDx2 T xr) (position2 T g xr c 1 p - x 1)) *
        simDx2 T xr ^ 2 := by
  have hx' : InPhysBlock2 T (simDx2 T xr) (a.sh (simDx2 T xr)) c (x 0, x 1) := by unfold Ib2.sh; rw [hs]; exact hx
  unfold flowVel2
  rw [show a.w = 2 by unfold Ib2.w; rw [hw]; rfl, eulToLag2_eq]
  have : ∀ p ∈ arrCells2 T g, vel (comp2 k) c p * (cosDelta (simDx2 T xr) (position2 T g xr c 0 p - x 0) * cosDelta (simDx2 T xr) (position2 T g xr c 1 p - x 1)) *
        simDx2 T xr ^ 2 = if globalIx2 T g c p ∈ window2 (simDx2 T xr) (a.sh (simDx2 T xr)) 2 (x 0, x 1) then
          vel (comp2 k) c p * cellWeight2 (simDx2 T xr) (a.sh (simDx2 T xr)) (cosW2 (simDx2 T xr)) (x 0, x 1) (globalIx2 T g c p) * simDx2 T xr ^ 2 else 0 := by
    intro p hp
    obtain ⟨h0, h1⟩ := default_distance2 (xr := xr) hs c (mem_arrCells2.1 hp)
    rw [← h0, ← h1]
    have := cosW2_window hdx (a.sh (simDx2 T xr)) (x 0, x 1) (globalIx2 T g c p)
    simp only at this
    rw [← this]
    split <;> simp
  rw [sum_congr rfl this, ← sum_filter]
  refine (sum_nbij' (fun G => localIx2 T g c G) (fun p => globalIx2 T g c p) ?_ ?_ ?_ ?_ ?_)
  · intro G hG
    rw [mem_filter, mem_arrCells2, global_local2]
    exact ⟨window_inArr2 hg hdx hx' hG, hG⟩
  · intro p hp; exact (mem_filter.1 hp).2
  · intro G _; exact global_local2 _ _ _ _
  · intro p _; exact local_global2 _ _ _ _
  · intro G _; rw [global_local2]

/-- With default arguments, every node adds to every cell of the rank's array its force times the delta functions of the distances. -/
theorem spread2_default {T : Cart2} {g : ℕ} {xr : ℝ} (hdx : 0 < simDx2 T xr) {a : Ib2} (hs : a.shift = none) (hw : a.width = none) (A : C2 → ℝ) (c : C2)
    (nodes : List ((ℝ × ℝ) × ℝ)) {p : C2} (hp : InArr2 T g p) :
    spread2 T g a.w (simDx2 T xr) (a.sh (simDx2 T xr)) (cosW2 (simDx2 T xr)) c A nodes p =
      A p + (nodes.map fun nd => nd.2 *
        (cosDelta (simDx2 T xr) (position2 T g xr c 0 p - nd.1.1) * cosDelta (simDx2 T xr) (position2 T g xr c 1 p - nd.1.2))).sum := by
  rw [show a.w = 2 by unfold Ib2.w; rw [hw]; rfl, spread2_eq]
  congr 2
  apply List.map_congr_left
  intro nd _
  obtain ⟨h0, h1⟩ := default_distance2 (xr := xr) hs c hp
  rw [← h0, ← h1, ← cosW2_window hdx]
  unfold share2n
  split <;> simp

/-! ## 3D -/

/-- Indices of a local array with ghost cells. -/
noncomputable def arrCells3 (T : Cart3) (g : ℕ) : Finset C3 := Ico 0 ((T.nz : ℤ) + 2 * g) ×ˢ Ico 0 ((T.ny : ℤ) + 2 * g) ×ˢ Ico 0 ((T.nx : ℤ) + 2 * g)

theorem mem_arrCells3 {T : Cart3} {g : ℕ} {p : C3} : p ∈ arrCells3 T g ↔ InArr3 T g p := by
  unfold arrCells3 InArr3
  simp only [mem_product, mem_Ico]
  tauto

theorem cosW3_window {dx : ℝ} (hdx : 0 < dx) (s : ℝ) (x : ℝ × ℝ × ℝ) (G : C3) :
    (if G ∈ window3 dx s 2 x then cellWeight3 dx s (cosW3 dx) x G else 0) =
      cosDelta dx ((G.2.2 : ℝ) * dx + s - x.1) * cosDelta dx ((G.2.1 : ℝ) * dx + s - x.2.1) * cosDelta dx ((G.1 : ℝ) * dx + s - x.2.2) := by
  rw [← cosDelta_window hdx, ← cosDelta_window hdx, ← cosDelta_window hdx]
  unfold window3 cellWeight3 cosW3
  simp only [mem_product]
  by_cases h1 : G.1 ∈ winCells dx s 2 x.2.2 <;> by_cases h2 : G.2.1 ∈ winCells dx s 2 x.2.1 <;> by_cases h3 : G.2.2 ∈ winCells dx s 2 x.1 <;>
    simp only [h1, h2, h3, and_self, and_true, and_false, if_true, if_false]
  all_goals ring

theorem default_distance3 {T : Cart3} {g : ℕ} {xr : ℝ} {a : Ib3} (ha : a.shift = none) (c : C3) {p : C3} (hp : InArr3 T g p) :
    (((globalIx3 T g c p).2.2 : ℤ) : ℝ) * simDx3 T xr + a.sh (simDx3 T xr) = position3 T g xr c 0 p ∧
    (((globalIx3 T g c p).2.1 : ℤ) : ℝ) * simDx3 T xr + a.sh (simDx3 T xr) = position3 T g xr c 1 p ∧
    (((globalIx3 T g c p).1 : ℤ) : ℝ) * simDx3 T xr + a.sh (simDx3 T xr) = position3 T g xr c 2 p := by
  obtain ⟨h0, h1, h2⟩ := position3_cells T g xr c hp
  rw [h0, h1, h2]
  unfold Ib3.sh simDx3
  rw [ha, Option.getD_none]
  refine ⟨?_, ?_, ?_⟩ <;> ring

/-- 3D version of `flowVel2_default`. -/
theorem flowVel3_default {T : Cart3} {g : ℕ} (hg : 2 ≤ g) {xr : ℝ} (hdx : 0 < simDx3 T xr) {a : Ib3} (hs : a.shift = none) (hw : a.width = none)
    (vel : Fin 3 → World C3 C3 ℝ) {c : C3} {x : ℕ → ℝ} (hx : InPhysBlock3 T (simDx3 T xr) (simDx3 T xr / 2) c (x 0, x 1, x 2)) (k : ℕ) :
    flowVel3 T g (simDx3 T xr) a vel c x k =
      ∑ p ∈ arrCells3 T g, vel (axis3 k) c p * (cosDelta (simDx3 T xr) (position3 T g xr c 0 p - x 0) *
        cosDelta (simDx3 T xr) (position3 T g xr c 1 p - x 1) * cosDelta (simDx3 T xr) (position3 T g xr c 2 p - x 2)) * simDx3 T xr ^ 3 := by
  have hx' : InPhysBlock3 T (simDx3 T xr) (a.sh (simDx3 T xr)) c (x 0, x 1, x 2) := by unfold Ib3.sh; rw [hs]; exact hx
  unfold flowVel3
  rw [show a.w = 2 by unfold Ib3.w; rw [hw]; rfl, eulToLag3_eq]
  have : ∀ p ∈ arrCells3 T g, vel (axis3 k) c p * (cosDelta (simDx3 T xr) (position3 T g xr c 0 p - x 0) *
        cosDelta (simDx3 T xr) (position3 T g xr c 1 p - x 1) * cosDelta (simDx3 T xr) (position3 T g xr c 2 p - x 2)) *
        simDx3 T xr ^ 3 = if globalIx3 T g c p ∈ window3 (simDx3 T xr) (a.sh (simDx3 T xr)) 2 (x 0, x 1, x 2) then
          vel (axis3 k) c p * cellWeight3 (simDx3 T xr) (a.sh (simDx3 T xr)) (cosW3 (simDx3 T xr)) (x 0, x 1, x 2) (globalIx3 T g c p) * simDx3 T xr ^ 3 else 0 := by
    intro p hp
    obtain ⟨h0, h1, h2⟩ := default_distance3 (xr := xr) hs c (mem_arrCells3.1 hp)
    rw [← h0, ← h1, ← h2]
    have := cosW3_window hdx (a.sh (simDx3 T xr)) (x 0, x 1, x 2) (globalIx3 T g c p)
    simp only at this
    rw [← this]
    split <;> simp
  rw [sum_congr rfl this, ← sum_filter]
  refine (sum_nbij' (fun G => localIx3 T g c G) (fun p => globalIx3 T g c p) ?_ ?_ ?_ ?_ ?_)
  · intro G hG
    rw [mem_filter, mem_arrCells3, global_local3]
    exact ⟨window_inArr3 hg hdx hx' hG, hG⟩
  · intro p hp; exact (mem_filter.1 hp).2
  · intro G _; exact global_local3 _ _ _ _
  · intro p _; exact local_global3 _ _ _ _
  · intro G _; rw [global_local3]

/-- 3D version of `spread2_default`. -/
theorem spread3_default {T : Cart3} {g : ℕ} {xr : ℝ} (hdx : 0 < simDx3 T xr) {a : Ib3} (hs : a.shift = none) (hw : a.width = none) (A : C3 → ℝ) (c : C3)
    (nodes : List ((ℝ × ℝ × ℝ) × ℝ)) {p : C3} (hp : InArr3 T g p) :
    spread3 T g a.w (simDx3 T xr) (a.sh (simDx3 T xr)) (cosW3 (simDx3 T xr)) c A nodes p =
      A p + (nodes.map fun nd => nd.2 *
        (cosDelta (simDx3 T xr) (position3 T g xr c 0 p - nd.1.1) * cosDelta (simDx3 T xr) (position3 T g xr c 1 p - nd.1.2.1) *
          cosDelta (simDx3 T xr) (position3 T g xr c 2 p - nd.1.2.2))).sum := by
  rw [show a.w = 2 by unfold Ib3.w; rw [hw]; rfl, spread3_eq]
  congr 2
  apply List.map_congr_left
  intro nd _
  obtain ⟨h0, h1, h2⟩ := default_distance3 (xr := xr) hs c hp
  rw [← h0, ← h1, ← h2, ← cosW3_window hdx]
  unfold share3n
  split <;> simp

/-- non-vacuity: a node in the first block of a 8 × 8 grid on 2 × 1 ranks, unit spacing -/
example : InPhysBlock2 (⟨8, 8, 2, 1, 4, 8, false⟩ : Cart2) (simDx2 ⟨8, 8, 2, 1, 4, 8, false⟩ 8) (simDx2 ⟨8, 8, 2, 1, 4, 8, false⟩ 8 / 2) (0, 0) (3, 2) ∧
    0 < simDx2 ⟨8, 8, 2, 1, 4, 8, false⟩ 8 := by
  unfold InPhysBlock2 InPhys simDx2
  norm_num

end Sopht
