import Verif.Stencil3DProps
import Verif.Doubling3DProps
import Verif.Poisson3DProps

/-!
# Complements: 3D versions and symmetry

C61 in 3D (which ghost cells the 3D kernels compute), C44 on periodic domains, C63 in 3D, reciprocity of the unbounded Poisson solve.
-/

namespace Sopht

open Finset

set_option linter.unusedSimpArgs false

/-! ## C61 in 3D -/

/-- C61 (3D): with a ghost layer as thick as the stencil a kernel changes no ghost cell, the curl kernel included. -/
theorem kernel3_ghost_kept {ι K β : Type} {T : Cart3} {k : ℕ} (hk1 : 1 ≤ k) (hnz : k ≤ T.nz) (hny : k ≤ T.ny) (hnx : k ≤ T.nx) (isCurl : Bool)
    (op : β → β → β) (f : (ι → C3 → K) → β) (A1 A2 : ι → C3 → K) (out : C3 → β) {p : C3} (hp : ¬ Inner3 T k p) :
    kernel3 T k k isCurl op f A1 A2 out p = out p := by
  have key : ∀ V ∈ interiorView3 T k isCurl :: boundaryViews3 T k k, ¬ writes3 k V p := by
    intro V hV hw
    apply hp
    unfold boundaryViews3 interiorView3 at hV
    simp only [List.mem_cons, List.not_mem_nil, or_false] at hV
    unfold Inner3
    cases isCurl <;> simp only [if_true, if_false, Bool.false_eq_true] at hV <;>
    rcases hV with rfl | rfl | rfl | rfl | rfl | rfl | rfl <;> unfold writes3 at hw <;>
      simp only [inPass_inner hk1, inPass_lo le_rfl hny, inPass_lo le_rfl hnx, inPass_lo le_rfl hnz, inPass_hi hk1 le_rfl hny,
        inPass_hi hk1 le_rfl hnx, inPass_hi hk1 le_rfl hnz, inPass_full] at hw <;> omega
  unfold kernel3
  unfold boundaryViews3 at *
  simp only [List.foldl_cons, List.foldl_nil]
  simp only [List.mem_cons, List.not_mem_nil, or_false, forall_eq_or_imp, forall_eq] at key
  obtain ⟨k0, k1, k2, k3, k4, k5, k6⟩ := key
  have neg : ∀ (flds : ι → C3 → K) (o : C3 → β) (V : View3), ¬ writes3 k V p → pass3 k op f flds o V p = o p := by
    intro flds o V h
    unfold pass3; rw [if_neg h]
  rw [neg _ _ _ k6, neg _ _ _ k5, neg _ _ _ k4, neg _ _ _ k3, neg _ _ _ k2, neg _ _ _ k1, neg _ _ _ k0]

/-- C61 (3D): with a thicker ghost layer the kernels compute exactly these ghost cells: in the outermost inner columns along x all ghost rows and planes
(up to the outermost `k`), in the outermost inner rows along y (away from the sides along x) the ghost planes, and, for the curl, the ghost
columns next to the interior. -/
theorem ghost_cells_written3_iff {T : Cart3} {g k : ℕ} (hk1 : 1 ≤ k) (hkg : k ≤ g) (hnz : k ≤ T.nz) (hny : k ≤ T.ny) (hnx : k ≤ T.nx)
    (isCurl : Bool) {p : C3} (hp : ¬ Inner3 T g p) :
    1 ≤ timesWritten3 T g k isCurl p ↔
      ((k ≤ p.1 ∧ p.1 < T.nz + 2 * g - k) ∧ (k ≤ p.2.1 ∧ p.2.1 < T.ny + 2 * g - k) ∧
        ((g ≤ p.2.2 ∧ p.2.2 < g + k) ∨ (g + T.nx - k ≤ p.2.2 ∧ p.2.2 < g + T.nx))) ∨
      ((k ≤ p.1 ∧ p.1 < T.nz + 2 * g - k) ∧ ((g ≤ p.2.1 ∧ p.2.1 < g + k) ∨ (g + T.ny - k ≤ p.2.1 ∧ p.2.1 < g + T.ny)) ∧
        (g + k ≤ p.2.2 ∧ p.2.2 < g + T.nx - k)) ∨
      (isCurl = true ∧ (g + k ≤ p.1 ∧ p.1 < g + T.nz - k) ∧ (g + k ≤ p.2.1 ∧ p.2.1 < g + T.ny - k) ∧
        (k ≤ p.2.2 ∧ p.2.2 < T.nx + 2 * g - k)) := by
  have hg : 1 ≤ g := by omega
  unfold timesWritten3 boundaryViews3 interiorView3
  rw [Nat.one_le_iff_ne_zero, Ne, List.countP_eq_zero]
  cases isCurl <;>
  simp only [List.mem_cons, List.not_mem_nil, or_false, forall_eq_or_imp, forall_eq, decide_eq_true_eq, writes3, if_true, if_false,
    Bool.false_eq_true, false_and, true_and] <;>
  simp only [inPass_inner hg, inPass_lo hkg hny, inPass_lo hkg hnx, inPass_lo hkg hnz, inPass_hi hg hkg hny, inPass_hi hg hkg hnx,
    inPass_hi hg hkg hnz, inPass_full, decide_eq_true_eq] <;>
  unfold Inner3 at hp <;>
  omega

/-- non-vacuity: ghost size 2, support 1 on a 4 × 4 × 4 block: the ghost cells (1, 2, 2) and (1, 2, 3) are computed, (1, 3, 3) is not -/
example : let T : Cart3 := ⟨4, 4, 4, 1, 1, 1, 4, 4, 4, false⟩
    timesWritten3 T 2 1 false (1, 2, 2) = 1 ∧ timesWritten3 T 2 1 false (1, 2, 3) = 1 ∧ timesWritten3 T 2 1 false (1, 3, 3) = 0 ∧
    timesWritten3 T 2 1 true (3, 3, 1) = 1 := by decide

/-! ## C44 on periodic domains -/

/-- C44 (periodic): with an odd number of ranks above one along an axis of a periodic domain no call raises, but a receive is posted for a
message nobody sends, so `Waitall` of `copy_to_doubled_domain` never returns. -/
theorem copyTo3_periodic_odd_unmatched {T : Cart3} (hper : T.per = true) (hz : 0 < T.pz) (hy : 0 < T.py) (hx : 0 < T.px)
    (hodd : (T.pz ≠ 1 ∧ T.pz % 2 = 1) ∨ (T.py ≠ 1 ∧ T.py % 2 = 1) ∨ (T.px ≠ 1 ∧ T.px % 2 = 1)) (g : ℕ) :
    (∀ c, ∃ l, toPosts3 T g (distDims3 T) c = .ok l) ∧
    ¬ AllMatched (ranks3 T) (fun c => okPosts (toPosts3 T g (distDims3 T) c)) := by
  have hrank : ∀ c, cartRank3 T c = .ok (c.1 % T.pz, c.2.1 % T.py, c.2.2 % T.px) := by
    intro c; unfold cartRank3; rw [if_pos hper]
  have hposts : ∀ c, toPosts3 T g (distDims3 T) c = .ok (⟨some ((c.1 / 2) % T.pz, (c.2.1 / 2) % T.py, (c.2.2 / 2) % T.px), actualBuf3 T g, none, []⟩ ::
      if lowerHalf3 T c then (offsets3 (distDims3 T)).map fun o =>
        ⟨none, [], some ((pairCoord3 (distDims3 T) c o).1 % T.pz, (pairCoord3 (distDims3 T) c o).2.1 % T.py,
          (pairCoord3 (distDims3 T) c o).2.2 % T.px), partBuf3 T o⟩ else []) := by
    intro c
    unfold toPosts3
    rw [hrank]
    by_cases hl : lowerHalf3 T c
    · simp only [hl, if_true]
      rw [mapM_ok (h := fun o => ⟨none, [], some ((pairCoord3 (distDims3 T) c o).1 % T.pz, (pairCoord3 (distDims3 T) c o).2.1 % T.py,
          (pairCoord3 (distDims3 T) c o).2.2 % T.px), partBuf3 T o⟩)]
      intro o _
      rw [hrank]; rfl
    · simp only [hl, if_false]
  refine ⟨fun c => ⟨_, hposts c⟩, ?_⟩
  intro hA
  obtain ⟨d0, d1, d2⟩ := mem_distDims3 T
  have main : ∀ c o : C3, Valid3 T c → c ≠ (0, 0, 0) → lowerHalf3 T c → o ∈ offsets3 (distDims3 T) →
      ((pairCoord3 (distDims3 T) c o).1 % T.pz, (pairCoord3 (distDims3 T) c o).2.1 % T.py, (pairCoord3 (distDims3 T) c o).2.2 % T.px) =
        ((0, 0, 0) : ℤ × ℤ × ℤ) → False := by
    intro c o hc hne hl ho he
    have h0 : Valid3 T (0, 0, 0) := by refine ⟨?_, ?_, ?_, ?_, ?_, ?_⟩ <;> simp only <;> omega
    have hm := hA.2 (0, 0, 0) (mem_ranks3.2 h0) c (mem_ranks3.2 hc)
    have hs : sendsTo (fun c => okPosts (toPosts3 T g (distDims3 T) c)) (0, 0, 0) c = [] := by
      unfold sendsTo
      simp only [hposts, okPosts]
      rw [List.filterMap_eq_nil_iff]
      intro a ha
      rw [if_neg]
      intro hdest
      rw [List.mem_cons] at ha
      rcases ha with rfl | ha
      · simp only [Int.zero_ediv, Int.zero_emod, Option.some.injEq] at hdest
        exact hne hdest.symm
      · split at ha
        · obtain ⟨o', -, rfl⟩ := List.mem_map.1 ha
          simp at hdest
        · simp at ha
    have hr : partBuf3 T o ∈ recvsOf (fun c => okPosts (toPosts3 T g (distDims3 T) c)) c (0, 0, 0) := by
      unfold recvsOf
      simp only [hposts, okPosts, if_pos hl]
      rw [List.mem_filterMap]
      refine ⟨⟨none, [], some ((pairCoord3 (distDims3 T) c o).1 % T.pz, (pairCoord3 (distDims3 T) c o).2.1 % T.py,
          (pairCoord3 (distDims3 T) c o).2.2 % T.px), partBuf3 T o⟩, ?_, ?_⟩
      · exact List.mem_cons_of_mem _ (List.mem_map.2 ⟨o, ho, rfl⟩)
      · simp only [he, if_true]
    rw [hs] at hm
    simp only [List.map_nil] at hm
    have := congrArg List.length hm
    rw [List.length_nil, List.length_map] at this
    have hnil := List.length_eq_zero_iff.1 this.symm
    rw [hnil] at hr
    simp at hr
  rcases hodd with ⟨h1, h2⟩ | ⟨h1, h2⟩ | ⟨h1, h2⟩
  · refine main (((T.pz / 2 : ℕ) : ℤ), 0, 0) (1, 0, 0) ?_ ?_ ?_ ?_ ?_
    · refine ⟨?_, ?_, ?_, ?_, ?_, ?_⟩ <;> simp only <;> omega
    · intro h; have := congrArg Prod.fst h; simp only at this; omega
    · unfold lowerHalf3; simp only; omega
    · rw [mem_offsets3]; simp [mem_axisOffs, d0, h1]
    · unfold pairCoord3
      simp only [d0, h1, ne_eq, not_false_eq_true, if_true, mul_zero, add_zero, ite_self, Int.zero_emod, Prod.mk.injEq, and_true]
      rw [show 2 * ((T.pz / 2 : ℕ) : ℤ) + 1 = T.pz by omega, Int.emod_self]
  · refine main (0, ((T.py / 2 : ℕ) : ℤ), 0) (0, 1, 0) ?_ ?_ ?_ ?_ ?_
    · refine ⟨?_, ?_, ?_, ?_, ?_, ?_⟩ <;> simp only <;> omega
    · intro h; have := congrArg (fun x : C3 => x.2.1) h; simp only at this; omega
    · unfold lowerHalf3; simp only; omega
    · rw [mem_offsets3]; simp [mem_axisOffs, d1, h1]
    · unfold pairCoord3
      simp only [d1, h1, ne_eq, not_false_eq_true, if_true, mul_zero, add_zero, ite_self, Int.zero_emod, Prod.mk.injEq, and_true, true_and]
      rw [show 2 * ((T.py / 2 : ℕ) : ℤ) + 1 = T.py by omega, Int.emod_self]
  · refine main (0, 0, ((T.px / 2 : ℕ) : ℤ)) (0, 0, 1) ?_ ?_ ?_ ?_ ?_
    · refine ⟨?_, ?_, ?_, ?_, ?_, ?_⟩ <;> simp only <;> omega
    · intro h; have := congrArg (fun x : C3 => x.2.2) h; simp only at this; omega
    · unfold lowerHalf3; simp only; omega
    · rw [mem_offsets3]; simp [mem_axisOffs, d2, h1]
    · unfold pairCoord3
      simp only [d2, h1, ne_eq, not_false_eq_true, if_true, mul_zero, add_zero, ite_self, Int.zero_emod, Prod.mk.injEq, and_true, true_and]
      rw [show 2 * ((T.px / 2 : ℕ) : ℤ) + 1 = T.px by omega, Int.emod_self]

/-- non-vacuity: three slabs along z of a periodic domain -/
example : mkCart3 6 2 2 3 1 1 true = .ok ⟨6, 2, 2, 3, 1, 1, 2, 2, 2, true⟩ ∧
    ¬ AllMatched (ranks3 ⟨6, 2, 2, 3, 1, 1, 2, 2, 2, true⟩)
      (fun c => okPosts (toPosts3 ⟨6, 2, 2, 3, 1, 1, 2, 2, 2, true⟩ 1 (distDims3 ⟨6, 2, 2, 3, 1, 1, 2, 2, 2, true⟩) c)) :=
  ⟨by decide, (copyTo3_periodic_odd_unmatched (T := ⟨6, 2, 2, 3, 1, 1, 2, 2, 2, true⟩) rfl (by decide) (by decide) (by decide)
    (Or.inl (by decide)) 1).2⟩

/-! ## C63 in 3D, reciprocity -/

/-- C63 (3D): the solve is linear in the source. -/
theorem freeSolution3_linear (gz gy gx : ℕ) (dx a b : ℝ) (F F' : C3 → ℝ) (G : C3) :
    freeSolution3 gz gy gx dx (fun p => a * F p + b * F' p) G =
      a * freeSolution3 gz gy gx dx F G + b * freeSolution3 gz gy gx dx F' G := by
  unfold freeSolution3
  simp only [mul_sum, ← sum_add_distrib]
  refine sum_congr rfl fun k _ => sum_congr rfl fun i _ => sum_congr rfl fun j _ => ?_
  ring

/-- C63 (3D): no periodic images: a unit source in cell `S` contributes to cell `G` only through their true distance. -/
theorem freeSolution3_point_source (gz gy gx : ℕ) (dx : ℝ) (S : C3) (h0 : 0 ≤ S.1 ∧ S.1 < gz) (h1 : 0 ≤ S.2.1 ∧ S.2.1 < gy)
    (h2 : 0 ≤ S.2.2 ∧ S.2.2 < gx) (G : C3) :
    freeSolution3 gz gy gx dx (fun p => if p = S then 1 else 0) G =
      greens3 dx |G.1 - S.1| |G.2.1 - S.2.1| |G.2.2 - S.2.2| * dx ^ 3 := by
  obtain ⟨S0, S1, S2⟩ := S
  simp only at h0 h1 h2 ⊢
  obtain ⟨a, rfl⟩ := Int.eq_ofNat_of_zero_le h0.1
  obtain ⟨b, rfl⟩ := Int.eq_ofNat_of_zero_le h1.1
  obtain ⟨c, rfl⟩ := Int.eq_ofNat_of_zero_le h2.1
  unfold freeSolution3
  simp only [Prod.mk.injEq, Nat.cast_inj]
  rw [Finset.sum_eq_single a]
  · rw [Finset.sum_eq_single b]
    · rw [Finset.sum_eq_single c]
      · simp
      · intro j _ hj; simp [hj]
      · intro hc; exact absurd (mem_range.2 (by exact_mod_cast h2.2)) hc
    · intro i _ hi; simp [hi]
    · intro hb; exact absurd (mem_range.2 (by exact_mod_cast h1.2)) hb
  · intro k _ hk; simp [hk]
  · intro ha; exact absurd (mem_range.2 (by exact_mod_cast h0.2)) ha

/-- C63 (2D), reciprocity: testing the solution for source `F` with `F'` is the same as testing the solution for `F'` with `F`. -/
theorem freeSolution2_reciprocal (gy gx : ℕ) (dx : ℝ) (F F' : C2 → ℝ) :
    (∑ i ∈ range gy, ∑ j ∈ range gx, F' (i, j) * freeSolution2 gy gx dx F (i, j)) =
      ∑ i ∈ range gy, ∑ j ∈ range gx, F (i, j) * freeSolution2 gy gx dx F' (i, j) := by
  unfold freeSolution2
  simp only [mul_sum]
  have sw : ∀ f : ℕ → ℕ → ℕ → ℕ → ℝ, (∑ i ∈ range gy, ∑ j ∈ range gx, ∑ i' ∈ range gy, ∑ j' ∈ range gx, f i j i' j') =
      ∑ i ∈ range gy, ∑ j ∈ range gx, ∑ i' ∈ range gy, ∑ j' ∈ range gx, f i' j' i j := by
    intro f
    simp only [← sum_product']
    exact Finset.sum_nbij' (fun x => (x.2.2.1, x.2.2.2, x.1, x.2.1)) (fun x => (x.2.2.1, x.2.2.2, x.1, x.2.1))
      (fun x hx => by simp only [mem_product] at hx ⊢; tauto) (fun x hx => by simp only [mem_product] at hx ⊢; tauto)
      (fun x _ => rfl) (fun x _ => rfl) (fun x _ => rfl)
  rw [sw]
  refine sum_congr rfl fun i _ => sum_congr rfl fun j _ => sum_congr rfl fun i' _ => sum_congr rfl fun j' _ => ?_
  rw [abs_sub_comm (i' : ℤ) i, abs_sub_comm (j' : ℤ) j]
  ring

/-- C63 (3D), reciprocity. -/
theorem freeSolution3_reciprocal (gz gy gx : ℕ) (dx : ℝ) (F F' : C3 → ℝ) :
    (∑ k ∈ range gz, ∑ i ∈ range gy, ∑ j ∈ range gx, F' (k, i, j) * freeSolution3 gz gy gx dx F (k, i, j)) =
      ∑ k ∈ range gz, ∑ i ∈ range gy, ∑ j ∈ range gx, F (k, i, j) * freeSolution3 gz gy gx dx F' (k, i, j) := by
  unfold freeSolution3
  simp only [mul_sum]
  have sw : ∀ f : ℕ → ℕ → ℕ → ℕ → ℕ → ℕ → ℝ,
      (∑ k ∈ range gz, ∑ i ∈ range gy, ∑ j ∈ range gx, ∑ k' ∈ range gz, ∑ i' ∈ range gy, ∑ j' ∈ range gx, f k i j k' i' j') =
      ∑ k ∈ range gz, ∑ i ∈ range gy, ∑ j ∈ range gx, ∑ k' ∈ range gz, ∑ i' ∈ range gy, ∑ j' ∈ range gx, f k' i' j' k i j := by
    intro f
    simp only [← sum_product']
    exact Finset.sum_nbij' (fun x => (x.2.2.2.1, x.2.2.2.2.1, x.2.2.2.2.2, x.1, x.2.1, x.2.2.1))
      (fun x => (x.2.2.2.1, x.2.2.2.2.1, x.2.2.2.2.2, x.1, x.2.1, x.2.2.1))
      (fun x hx => by simp only [mem_product] at hx ⊢; tauto) (fun x hx => by simp only [mem_product] at hx ⊢; tauto)
      (fun x _ => rfl) (fun x _ => rfl) (fun x _ => rfl)
  rw [sw]
  refine sum_congr rfl fun k _ => sum_congr rfl fun i _ => sum_congr rfl fun j _ => sum_congr rfl fun k' _ => sum_congr rfl fun i' _ =>
    sum_congr rfl fun j' _ => ?_
  rw [abs_sub_comm (k' : ℤ) k, abs_sub_comm (i' : ℤ) i, abs_sub_comm (j' : ℤ) j]
  ring

end Sopht
