import Verif.WeightsProps

/-!
# Spreading on periodic domains: C23, C29

`ghostSum2_wrapped`, `spread2_periodic`, `interp_spread_adjoint2_periodic` and their 3D versions.  Specification: `wrap2/3` (`Verif.Spec`),
`window2/3`, `cellWeight2/3` (`Verif.InterpLemmas`) and `share2w/share3w` below, which do not mention ranks, blocks or ghost cells.
-/

namespace Sopht

open Finset

section Axis
variable {M : Type} [AddCommMonoid M]

theorem axisNbr_periodic {P : ℕ} {c s : ℤ} : axisNbr P true c s = some ((c + s) % P) := by
  unfold axisNbr
  split
  · rename_i h
    rw [Int.emod_eq_of_lt h.1 h.2]
  · rfl

/-- Periodic axis: the three contributions are the sum over all cells of all arrays which stand for the cell. -/
theorem axis_sum_wrapped {P n g : ℕ} (hg : g ≤ n) (h : ℤ → ℤ → M) {c i : ℤ} (hc : 0 ≤ c ∧ c < P)
    (hi : (g : ℤ) ≤ i ∧ i < g + n) :
    contrib P true n g h c i (-1) + contrib P true n g h c i 0 + contrib P true n g h c i 1 =
      ∑ b ∈ Ico (0 : ℤ) P, ∑ q ∈ Ico (0 : ℤ) (n + 2 * g),
        if (b * n + q - g) % ((P * n : ℕ) : ℤ) = c * n + i - g then h b q else 0 := by
  have hn : (0 : ℤ) < n := by omega
  have hP : (0 : ℤ) < P := by omega
  have hPn : (0 : ℤ) < ((P * n : ℕ) : ℤ) := by push_cast; positivity
  have hcon : ∀ d : ℤ, contrib P true n g h c i d =
      if 0 ≤ i - d * n ∧ i - d * n < n + 2 * g then h ((c + d) % P) (i - d * n) else 0 := by
    intro d
    unfold contrib
    rw [axisNbr_periodic]
  have h3 : contrib P true n g h c i (-1) + contrib P true n g h c i 0 + contrib P true n g h c i 1 =
      ∑ d ∈ ({-1, 0, 1} : Finset ℤ), if 0 ≤ i - d * n ∧ i - d * n < n + 2 * g then h ((c + d) % P) (i - d * n) else 0 := by
    rw [sum_insert (by simp), sum_insert (by simp), sum_singleton, hcon, hcon, hcon, add_assoc]
  rw [h3, ← sum_product', ← sum_filter, ← sum_filter]
  have hrange : ∀ {b q : ℤ}, 0 ≤ b → b < P → 0 ≤ q → q < n + 2 * g → (b * n + q - g) % ((P * n : ℕ) : ℤ) = c * n + i - g →
      ∃ d : ℤ, (d = -1 ∨ d = 0 ∨ d = 1) ∧ q = i - d * n ∧ (c + d) % P = b := by
    intro b q b0 b1 q0 q1 he
    have hd := Int.mul_ediv_add_emod (b * n + q - g) ((P * n : ℕ) : ℤ)
    rw [he] at hd
    obtain ⟨k, hk⟩ : ∃ k : ℤ, k = (b * n + q - g) / ((P * n : ℕ) : ℤ) := ⟨_, rfl⟩
    rw [← hk] at hd
    push_cast at hd
    refine ⟨b - c - P * k, ?_, ?_, ?_⟩
    · have e : (b - c - P * k) * (n : ℤ) = i - q := by nlinarith
      have u1 : (b - c - P * k) * (n : ℤ) < 2 * n := by rw [e]; omega
      have u2 : (-2) * (n : ℤ) < (b - c - P * k) * n := by rw [e]; omega
      have v1 := lt_of_mul_lt_mul_right u1 hn.le
      have v2 := lt_of_mul_lt_mul_right u2 hn.le
      omega
    · nlinarith
    · rw [show c + (b - c - P * k) = b + P * (-k) by ring, Int.add_mul_emod_self_left, Int.emod_eq_of_lt b0 b1]
  symm
  apply Finset.sum_bij' (fun (x : ℤ × ℤ) _ => (i - x.2) / (n : ℤ)) (fun d _ => ((c + d) % (P : ℤ), i - d * n))
  · intro x hx
    rw [mem_filter, mem_product, mem_Ico, mem_Ico] at hx
    obtain ⟨⟨⟨b0, b1⟩, q0, q1⟩, he⟩ := hx
    obtain ⟨d, hd, hq, -⟩ := hrange b0 b1 q0 q1 he
    have e : (i - x.2) / (n : ℤ) = d := by
      rw [hq, show i - (i - d * (n : ℤ)) = d * n by ring, Int.mul_ediv_cancel _ hn.ne']
    rw [e, mem_filter]
    refine ⟨by simpa using hd, ?_⟩
    rw [← hq]; exact ⟨q0, q1⟩
  · intro d hd
    rw [mem_filter] at hd
    obtain ⟨-, r0, r1⟩ := hd
    rw [mem_filter, mem_product, mem_Ico, mem_Ico]
    refine ⟨⟨⟨Int.emod_nonneg _ hP.ne', Int.emod_lt_of_pos _ hP⟩, r0, r1⟩, ?_⟩
    simp only
    have hm := Int.mul_ediv_add_emod (c + d) P
    have e : ((c + d) % P) * (n : ℤ) + (i - d * n) - g = (c * n + i - g) + ((P * n : ℕ) : ℤ) * (-((c + d) / P)) := by
      have : (c + d) % P = c + d - P * ((c + d) / P) := by omega
      rw [this]; push_cast; ring
    rw [e, Int.add_mul_emod_self_left, Int.emod_eq_of_lt]
    · have : 0 ≤ c * (n : ℤ) := mul_nonneg hc.1 hn.le
      omega
    · push_cast
      have : (c + 1) * (n : ℤ) ≤ P * n := mul_le_mul_of_nonneg_right (by omega) hn.le
      nlinarith
  · intro x hx
    rw [mem_filter, mem_product, mem_Ico, mem_Ico] at hx
    obtain ⟨⟨⟨b0, b1⟩, q0, q1⟩, he⟩ := hx
    obtain ⟨d, hd, hq, hb⟩ := hrange b0 b1 q0 q1 he
    have e : (i - x.2) / (n : ℤ) = d := by
      rw [hq, show i - (i - d * (n : ℤ)) = d * n by ring, Int.mul_ediv_cancel _ hn.ne']
    simp only [e]
    exact Prod.ext hb hq.symm
  · intro d hd
    simp only
    rw [show i - (i - d * (n : ℤ)) = d * n by ring, Int.mul_ediv_cancel _ hn.ne']
  · intro x hx
    rw [mem_filter, mem_product, mem_Ico, mem_Ico] at hx
    obtain ⟨⟨⟨b0, b1⟩, q0, q1⟩, he⟩ := hx
    obtain ⟨d, hd, hq, hb⟩ := hrange b0 b1 q0 q1 he
    have e : (i - x.2) / (n : ℤ) = d := by
      rw [hq, show i - (i - d * (n : ℤ)) = d * n by ring, Int.mul_ediv_cancel _ hn.ne']
    simp only [e, hb, ← hq]

theorem ite_sum_zero {ι : Type} (s : Finset ι) (q : Prop) [Decidable q] (f : ι → M) :
    (if q then ∑ i ∈ s, f i else 0) = ∑ i ∈ s, if q then f i else 0 := by
  by_cases h : q
  · simp only [if_pos h]
  · simp only [if_neg h, sum_const_zero]

end Axis

/-- **C24 (2D, periodic)** After `ghost_sum` on a periodic domain the inner cell holds the sum over all array cells (ghost cells
included) of all ranks which stand for this cell. -/
theorem ghostSum2_wrapped {α : Type} [Semiring α] {gy gx py px : ℕ} {T : Cart2} (hT : mkCart2 gy gx py px true = .ok T) {g : ℕ}
    (hgy : g ≤ T.ny) (hgx : g ≤ T.nx) {w : C2 → GS2 α} (hw : Clean2 T w) {c p : C2} (hc : Valid2 T c) (hp : Inner2 T g p) :
    (ghostSum2 T g w c).A p = ∑ b ∈ rankSet2 T, ∑ q ∈ arrSet2 T g,
      if wrap2 T (globalIx2 T g b q) = globalIx2 T g c p then (w b).A q else 0 := by
  obtain ⟨e1, e2, e3, e4, hper, h1, h2⟩ := construct2_ok hT
  have hr := run2_agree (agree2_init T g w hw)
  have hp' := hp
  obtain ⟨c0, c1, c2, c3⟩ := hc
  obtain ⟨p0, p1, p2, p3⟩ := hp
  unfold ghostSum2
  simp only
  rw [clear2_inner hp', hr.A c p ⟨c0, c1, c2, c3⟩ (by unfold InArr2; omega)]
  unfold opB
  rw [axis_sum hgx _ ⟨c2, c3⟩ ⟨p2, by omega⟩, axis_sum hgy (fn2 w) ⟨c0, c1⟩ ⟨p0, by omega⟩, hper,
    axis_sum_wrapped hgx _ ⟨c2, c3⟩ ⟨p2, by omega⟩, axis_sum_wrapped hgy _ ⟨c0, c1⟩ ⟨p0, by omega⟩]
  have key : ∀ by' bx qy qx : ℤ, (if wrap2 T (globalIx2 T g (by', bx) (qy, qx)) = globalIx2 T g c p then (w (by', bx)).A (qy, qx) else 0) =
      if (bx * T.nx + qx - g) % ((T.px * T.nx : ℕ) : ℤ) = c.2 * T.nx + p.2 - g then
        if (by' * T.ny + qy - g) % ((T.py * T.ny : ℕ) : ℤ) = c.1 * T.ny + p.1 - g then fn2 w by' qy bx qx else 0 else 0 := by
    intro by' bx qy qx
    have k1 : T.py * T.ny = T.gy := by rw [h1]
    have k2 : T.px * T.nx = T.gx := by rw [h2]
    rw [k1, k2]
    unfold wrap2 globalIx2
    simp only [Prod.mk.injEq]
    by_cases hy : (by' * (T.ny : ℤ) + qy - g) % (T.gy : ℤ) = c.1 * T.ny + p.1 - g
    · by_cases hx : (bx * (T.nx : ℤ) + qx - g) % (T.gx : ℤ) = c.2 * T.nx + p.2 - g
      · rw [if_pos ⟨hy, hx⟩, if_pos hx, if_pos hy]; rfl
      · rw [if_neg (fun h => hx h.2), if_neg hx]
    · rw [if_neg (fun h => hy h.1), if_neg hy, ite_self]
  unfold rankSet2 arrSet2
  simp only [sum_product_right, key, Finset.sum_apply]
  apply sum_congr rfl
  intro bx _
  rw [sum_comm]
  apply sum_congr rfl
  intro qx _
  rw [ite_sum_zero]
  apply sum_congr rfl
  intro by' _
  rw [ite_sum_zero]
  apply sum_congr rfl
  intro qy _
  split
  · split <;> rfl
  · rfl

section D2
variable {K : Type} [Field K] [LinearOrder K] [IsStrictOrderedRing K] [FloorRing K]

/-- What one node (position, value) adds to global cell `G` of a periodic domain: the sum over the cells of its window which, wrapped around
the domain, are `G`. -/
def share2w (T : Cart2) (dx shift : K) (w : ℕ) (W : K → K → K) (G : C2) (nd : (K × K) × K) : K :=
  ∑ H ∈ window2 dx shift w nd.1, if wrap2 T H = G then nd.2 * cellWeight2 dx shift W nd.1 H else 0

omit [IsStrictOrderedRing K] in
/-- the array cells of a rank, summed over global indices -/
theorem sum_arr2 (T : Cart2) (g : ℕ) (b : C2) {M : Type} [AddCommMonoid M] (S : Finset C2) (f : C2 → M)
    (hS : ∀ H ∈ S, InArr2 T g (localIx2 T g b H)) :
    (∑ q ∈ arrSet2 T g, if globalIx2 T g b q ∈ S then f (globalIx2 T g b q) else 0) = ∑ H ∈ S, f H := by
  rw [← sum_filter]
  apply Finset.sum_bij' (fun q _ => globalIx2 T g b q) (fun H _ => localIx2 T g b H)
  · intro q hq; exact (mem_filter.1 hq).2
  · intro H hH
    rw [mem_filter, mem_arrSet2, global_local2]
    exact ⟨hS H hH, hH⟩
  · intro q _; exact local_global2 T g b q
  · intro H _; exact global_local2 T g b H
  · intro q _; rfl

/-- **C23 (2D, periodic)** On a periodic domain spreading followed by the ghost sum adds to every inner cell, on top of what it held, the
contributions of all nodes of all ranks to all images of that cell: the result does not depend on the decomposition. Ghost cells are zero
afterwards. -/
theorem spread2_periodic {gy gx py px : ℕ} {T : Cart2} (hT : mkCart2 gy gx py px true = .ok T) {g w : ℕ} (hw : w ≤ g)
    (hgy : g ≤ T.ny) (hgx : g ≤ T.nx) (hny : 0 < T.ny) (hnx : 0 < T.nx) {dx shift : K} (hdx : 0 < dx) (W : K → K → K)
    {nodes : List ((K × K) × K)} {addr : List C2} (h : Owned2 T dx shift nodes addr) (l : C2 → GS2 K) (hl : Clean2 T l)
    (hz : ∀ c p, Valid2 T c → ¬ Inner2 T g p → (l c).A p = 0) :
    (∀ c p, Valid2 T c → Inner2 T g p →
      (spreadSum2 T g w dx shift W (nodesOf addr nodes) l c).A p =
        (l c).A p + (nodes.map (share2w T dx shift w W (globalIx2 T g c p))).sum) ∧
    (∀ c p, ¬ Inner2 T g p → (spreadSum2 T g w dx shift W (nodesOf addr nodes) l c).A p = 0) ∧
    Clean2 T (spreadSum2 T g w dx shift W (nodesOf addr nodes) l) := by
  have hcl : Clean2 T fun c => { l c with A := spread2 T g w dx shift W c (l c).A (nodesOf addr nodes c) } := hl
  have hcor := ghostSum2_correct hgy hgx hcl
  refine ⟨?_, hcor.2.1, hcor.2.2⟩
  intro c p hc hp
  obtain ⟨hlen, haddr, hblk⟩ := h.len hdx hny hnx
  unfold spreadSum2
  rw [ghostSum2_wrapped hT hgy hgx hcl hc hp]
  simp only [spread2_eq]
  have hself : localIx2 T g c (globalIx2 T g c p) = p := local_global2 T g c p
  have hone : ∀ b ∈ rankSet2 T, (∑ q ∈ arrSet2 T g, if wrap2 T (globalIx2 T g b q) = globalIx2 T g c p then
        (l b).A q + ((nodesOf addr nodes b).map (share2n dx shift w W (globalIx2 T g b q))).sum else 0) =
      (if b = c then (l c).A p else 0) +
        ((nodesOf addr nodes b).map (share2w T dx shift w W (globalIx2 T g c p))).sum := by
    intro b hb
    rw [mem_rankSet2] at hb
    have hsplit : ∀ q ∈ arrSet2 T g, (if wrap2 T (globalIx2 T g b q) = globalIx2 T g c p then
        (l b).A q + ((nodesOf addr nodes b).map (share2n dx shift w W (globalIx2 T g b q))).sum else 0) =
        (if b = c ∧ q = p then (l c).A p else 0) +
          ((nodesOf addr nodes b).map fun nd => if wrap2 T (globalIx2 T g b q) = globalIx2 T g c p then
            share2n dx shift w W (globalIx2 T g b q) nd else 0).sum := by
      intro q hq
      by_cases hwr : wrap2 T (globalIx2 T g b q) = globalIx2 T g c p
      · simp only [if_pos hwr]
        congr 1
        by_cases hinn : Inner2 T g q
        · have hdom := inner_inDomain2 hT hb hinn
          have hid : wrap2 T (globalIx2 T g b q) = globalIx2 T g b q := by
            obtain ⟨a1, a2, a3, a4⟩ := hdom
            unfold wrap2
            exact Prod.ext (Int.emod_eq_of_lt a1 a2) (Int.emod_eq_of_lt a3 a4)
          rw [hid] at hwr
          have hbc : b = c := by
            apply inner_unique2 hp
            rw [← hwr, local_global2]; exact hinn
          subst hbc
          have hqp : q = p := by rw [← local_global2 T g b q, hwr, hself]
          rw [if_pos ⟨rfl, hqp⟩, hqp]
        · rw [if_neg, hz b q hb hinn]
          rintro ⟨-, rfl⟩
          exact hinn hp
      · simp only [if_neg hwr]
        rw [if_neg]
        · simp
        · rintro ⟨rfl, rfl⟩
          apply hwr
          obtain ⟨a1, a2, a3, a4⟩ := inner_inDomain2 hT hb hp
          unfold wrap2
          exact Prod.ext (Int.emod_eq_of_lt a1 a2) (Int.emod_eq_of_lt a3 a4)
    rw [sum_congr rfl hsplit, sum_add_distrib, list_sum_swap]
    congr 1
    · by_cases hbc : b = c
      · simp only [hbc, true_and]
        rw [sum_ite_eq', if_pos, if_pos trivial]
        rw [mem_arrSet2]
        unfold Inner2 at hp; unfold InArr2; omega
      · simp only [hbc, false_and, if_false, sum_const_zero]
    · congr 1
      apply List.map_congr_left
      intro nd hnd
      obtain ⟨i, hi1, hi2⟩ := mem_nodesOf hnd
      unfold share2w
      rw [← sum_arr2 T g b (window2 dx shift w nd.1)
        (fun H => if wrap2 T H = globalIx2 T g c p then nd.2 * cellWeight2 dx shift W nd.1 H else 0)
        (fun H hH => window_inArr2 hw hdx (hblk i nd b hi2 hi1).2 hH)]
      apply sum_congr rfl
      intro q _
      unfold share2n
      by_cases h1 : globalIx2 T g b q ∈ window2 dx shift w nd.1
      · rw [if_pos h1, if_pos h1]
      · rw [if_neg h1, if_neg h1, ite_self]
  rw [sum_congr rfl hone, sum_add_distrib, sum_ite_eq' _ c (fun _ => (l c).A p), if_pos (mem_rankSet2.2 hc)]
  congr 1
  exact nodes_sum (rankSet2 T) _ addr nodes hlen (fun a ha => mem_rankSet2.2 (haddr a ha))

/-- **C29 (2D, periodic)** On a periodic domain interpolation and spreading are adjoint for every node of the domain. -/
theorem interp_spread_adjoint2_periodic {gy gx py px : ℕ} {T : Cart2} (hT : mkCart2 gy gx py px true = .ok T)
    {g w : ℕ} (hw : w ≤ g) (hg : 1 ≤ g) (hy : g ≤ T.ny) (hx : g ≤ T.nx) {dx shift : K} (hdx : 0 < dx) (W : K → K → K)
    (F : C2 → K) (v : World C2 ℤ K) (hv : ∀ c p, Valid2 T c → Inner2 T g p → v c (flat2 T g p) = F (globalIx2 T g c p))
    {sched : List Ev} (hs : Finalised2 T g true sched) {nodes : List ((K × K) × K)} {addr : List C2}
    (h : Owned2 T dx shift nodes addr) (l : C2 → GS2 K) (hl : Clean2 T l) (hz : ∀ c p, Valid2 T c → (l c).A p = 0) :
    ((addr.zip nodes).map fun q =>
        q.2.2 * eulToLag2 T g w dx shift W q.1 (fun p => exchange2 T g true v sched q.1 (flat2 T g p)) q.2.1).sum =
      dx ^ 2 * innerTotal2 T g (fun c p =>
        v c (flat2 T g p) * (spreadSum2 T g w dx shift W (nodesOf addr nodes) l c).A p) := by
  have hny : 0 < T.ny := by omega
  have hnx : 0 < T.nx := by omega
  obtain ⟨e1, e2, e3, e4, hper, k1, k2⟩ := construct2_ok hT
  obtain ⟨hlen, haddr, hblk⟩ := h.len hdx hny hnx
  have hleft : ((addr.zip nodes).map fun q =>
        q.2.2 * eulToLag2 T g w dx shift W q.1 (fun p => exchange2 T g true v sched q.1 (flat2 T g p)) q.2.1) =
      (addr.zip nodes).map fun q => q.2.2 * interp2 dx shift w W (fun G => F (wrap2 T G)) q.2.1 := by
    apply List.map_congr_left
    intro q hq
    obtain ⟨i, hi⟩ := List.mem_iff_getElem?.1 hq
    rw [List.getElem?_zip_eq_some] at hi
    rw [interp2_decomposition_free_periodic hT hw hg hy hx hdx W F v hv hs h hi.2 hi.1]
  have hzip : ((addr.zip nodes).map fun q => q.2.2 * interp2 dx shift w W (fun G => F (wrap2 T G)) q.2.1) =
      nodes.map fun nd => nd.2 * interp2 dx shift w W (fun G => F (wrap2 T G)) nd.1 := by
    have : nodes = (addr.zip nodes).map Prod.snd := by rw [List.map_snd_zip (by omega)]
    conv_rhs => rw [this, List.map_map]
    rfl
  rw [hleft, hzip]
  have hright : innerTotal2 T g (fun c p =>
        v c (flat2 T g p) * (spreadSum2 T g w dx shift W (nodesOf addr nodes) l c).A p) =
      ∑ c ∈ rankSet2 T, ∑ p ∈ innerSet2 T g,
        F (globalIx2 T g c p) * (nodes.map (share2w T dx shift w W (globalIx2 T g c p))).sum := by
    unfold innerTotal2
    apply sum_congr rfl; intro c hc
    apply sum_congr rfl; intro p hp
    rw [mem_rankSet2] at hc
    rw [mem_innerSet2] at hp
    simp only
    rw [hv c p hc hp, (spread2_periodic hT hw hy hx hny hnx hdx W h l hl (fun c p hc _ => hz c p hc)).1 c p hc hp,
      hz c p hc, zero_add]
  rw [hright, sum_blocks2 hT g (fun G => F G * (nodes.map (share2w T dx shift w W G)).sum)]
  simp only [← List.sum_map_mul_left]
  rw [list_sum_swap (Ico (0 : ℤ) gy ×ˢ Ico (0 : ℤ) gx) nodes (fun nd G => F G * share2w T dx shift w W G nd),
    ← List.sum_map_mul_left]
  congr 1
  apply List.map_congr_left
  intro nd hnd
  unfold interp2 share2w
  simp only [mul_sum]
  rw [sum_comm]
  apply sum_congr rfl
  intro H hH
  have hgy0 : (0 : ℤ) < T.gy := by
    obtain ⟨i, hi⟩ := List.mem_iff_getElem?.1 hnd
    have hlt : i < addr.length := by rw [hlen]; exact (List.getElem?_eq_some_iff.1 hi).1
    have hv := haddr _ (List.getElem_mem hlt)
    unfold Valid2 at hv
    have : 0 < T.py := by omega
    rw [← k1]; exact_mod_cast Nat.mul_pos this hny
  have hgx0 : (0 : ℤ) < T.gx := by
    obtain ⟨i, hi⟩ := List.mem_iff_getElem?.1 hnd
    have hlt : i < addr.length := by rw [hlen]; exact (List.getElem?_eq_some_iff.1 hi).1
    have hv := haddr _ (List.getElem_mem hlt)
    unfold Valid2 at hv
    have : 0 < T.px := by omega
    rw [← k2]; exact_mod_cast Nat.mul_pos this hnx
  have hmem : wrap2 T H ∈ Ico (0 : ℤ) gy ×ˢ Ico (0 : ℤ) gx := by
    unfold wrap2
    rw [mem_product, mem_Ico, mem_Ico, ← e1, ← e2]
    exact ⟨⟨Int.emod_nonneg _ hgy0.ne', Int.emod_lt_of_pos _ hgy0⟩, Int.emod_nonneg _ hgx0.ne', Int.emod_lt_of_pos _ hgx0⟩
  rw [sum_eq_single (wrap2 T H)]
  · rw [if_pos rfl]; ring
  · intro G _ hG
    rw [if_neg (Ne.symm hG)]; ring
  · intro hno; exact absurd hmem hno

end D2

/-- **C24 (3D, periodic)** After `ghost_sum` on a periodic domain the inner cell holds the sum over all array cells (ghost cells
included) of all ranks which stand for this cell. -/
theorem ghostSum3_wrapped {α : Type} [Semiring α] {gz gy gx pz py px : ℕ} {T : Cart3} (hT : mkCart3 gz gy gx pz py px true = .ok T)
    {g : ℕ} (hgz : g ≤ T.nz) (hgy : g ≤ T.ny) (hgx : g ≤ T.nx) {w : C3 → GS3 α} (hw : Clean3 T w) {c p : C3} (hc : Valid3 T c)
    (hp : Inner3 T g p) :
    (ghostSum3 T g w c).A p = ∑ b ∈ rankSet3 T, ∑ q ∈ arrSet3 T g,
      if wrap3 T (globalIx3 T g b q) = globalIx3 T g c p then (w b).A q else 0 := by
  obtain ⟨e0, e1, e2, e3, e4, e5, hper, h0, h1, h2⟩ := construct3_ok hT
  have hr := run3_agree (agree3_init T g w hw)
  have hp' := hp
  obtain ⟨c0, c1, c2, c3, c4, c5⟩ := hc
  obtain ⟨p0, p1, p2, p3, p4, p5⟩ := hp
  unfold ghostSum3
  simp only
  rw [clear3_inner hp', hr.A c p ⟨c0, c1, c2, c3, c4, c5⟩ (by unfold InArr3; omega)]
  unfold opB
  rw [axis_sum hgx _ ⟨c4, c5⟩ ⟨p4, by omega⟩, axis_sum hgy _ ⟨c2, c3⟩ ⟨p2, by omega⟩,
    axis_sum hgz (fn3 w) ⟨c0, c1⟩ ⟨p0, by omega⟩, hper,
    axis_sum_wrapped hgx _ ⟨c4, c5⟩ ⟨p4, by omega⟩, axis_sum_wrapped hgy _ ⟨c2, c3⟩ ⟨p2, by omega⟩,
    axis_sum_wrapped hgz _ ⟨c0, c1⟩ ⟨p0, by omega⟩]
  have key : ∀ bz by' bx qz qy qx : ℤ,
      (if wrap3 T (globalIx3 T g (bz, by', bx) (qz, qy, qx)) = globalIx3 T g c p then (w (bz, by', bx)).A (qz, qy, qx) else 0) =
      if (bx * T.nx + qx - g) % ((T.px * T.nx : ℕ) : ℤ) = c.2.2 * T.nx + p.2.2 - g then
        if (by' * T.ny + qy - g) % ((T.py * T.ny : ℕ) : ℤ) = c.2.1 * T.ny + p.2.1 - g then
          if (bz * T.nz + qz - g) % ((T.pz * T.nz : ℕ) : ℤ) = c.1 * T.nz + p.1 - g then fn3 w bz qz by' qy bx qx else 0 else 0 else 0 := by
    intro bz by' bx qz qy qx
    have k0 : T.pz * T.nz = T.gz := by rw [h0]
    have k1 : T.py * T.ny = T.gy := by rw [h1]
    have k2 : T.px * T.nx = T.gx := by rw [h2]
    rw [k0, k1, k2]
    unfold wrap3 globalIx3
    simp only [Prod.mk.injEq]
    by_cases hz : (bz * (T.nz : ℤ) + qz - g) % (T.gz : ℤ) = c.1 * T.nz + p.1 - g
    · by_cases hy : (by' * (T.ny : ℤ) + qy - g) % (T.gy : ℤ) = c.2.1 * T.ny + p.2.1 - g
      · by_cases hx : (bx * (T.nx : ℤ) + qx - g) % (T.gx : ℤ) = c.2.2 * T.nx + p.2.2 - g
        · rw [if_pos ⟨hz, hy, hx⟩, if_pos hx, if_pos hy, if_pos hz]; rfl
        · rw [if_neg (fun h => hx h.2.2), if_neg hx]
      · rw [if_neg (fun h => hy h.2.1), if_neg hy, ite_self]
    · rw [if_neg (fun h => hz h.1), if_neg hz, ite_self, ite_self]
  unfold rankSet3 arrSet3
  simp only [sum_product_right, key, Finset.sum_apply]
  apply sum_congr rfl
  intro bx _
  have hsw : ∀ by' : ℤ, ∀ f : ℤ → ℤ → ℤ → ℤ → α,
      (∑ bz ∈ Ico (0 : ℤ) T.pz, ∑ qx ∈ Ico (0 : ℤ) (T.nx + 2 * g), ∑ qy ∈ Ico (0 : ℤ) (T.ny + 2 * g), ∑ qz ∈ Ico (0 : ℤ) (T.nz + 2 * g),
        f bz qz qy qx) =
      ∑ qx ∈ Ico (0 : ℤ) (T.nx + 2 * g), ∑ qy ∈ Ico (0 : ℤ) (T.ny + 2 * g), ∑ bz ∈ Ico (0 : ℤ) T.pz, ∑ qz ∈ Ico (0 : ℤ) (T.nz + 2 * g),
        f bz qz qy qx := by
    intro by' f
    rw [sum_comm]
    apply sum_congr rfl; intro qx _
    rw [sum_comm]
  rw [sum_congr rfl fun by' _ => hsw by' _, sum_comm]
  apply sum_congr rfl
  intro qx _
  rw [ite_sum_zero]
  apply sum_congr rfl
  intro by' _
  rw [ite_sum_zero]
  apply sum_congr rfl
  intro qy _
  by_cases hx : (bx * (T.nx : ℤ) + qx - g) % ((T.px * T.nx : ℕ) : ℤ) = c.2.2 * T.nx + p.2.2 - g
  · simp only [if_pos hx]
    by_cases hy : (by' * (T.ny : ℤ) + qy - g) % ((T.py * T.ny : ℕ) : ℤ) = c.2.1 * T.ny + p.2.1 - g
    · simp only [if_pos hy, Finset.sum_apply]
      apply sum_congr rfl; intro bz _
      apply sum_congr rfl; intro qz _
      split <;> rfl
    · simp only [if_neg hy, sum_const_zero]; rfl
  · simp only [if_neg hx, sum_const_zero]

section D3
variable {K : Type} [Field K] [LinearOrder K] [IsStrictOrderedRing K] [FloorRing K]

/-- What one node (position, value) adds to global cell `G` of a periodic domain: the sum over the cells of its window which, wrapped around
the domain, are `G`. -/
def share3w (T : Cart3) (dx shift : K) (w : ℕ) (W : K → K → K → K) (G : C3) (nd : (K × K × K) × K) : K :=
  ∑ H ∈ window3 dx shift w nd.1, if wrap3 T H = G then nd.2 * cellWeight3 dx shift W nd.1 H else 0

omit [IsStrictOrderedRing K] in
/-- the array cells of a rank, summed over global indices -/
theorem sum_arr3 (T : Cart3) (g : ℕ) (b : C3) {M : Type} [AddCommMonoid M] (S : Finset C3) (f : C3 → M)
    (hS : ∀ H ∈ S, InArr3 T g (localIx3 T g b H)) :
    (∑ q ∈ arrSet3 T g, if globalIx3 T g b q ∈ S then f (globalIx3 T g b q) else 0) = ∑ H ∈ S, f H := by
  rw [← sum_filter]
  apply Finset.sum_bij' (fun q _ => globalIx3 T g b q) (fun H _ => localIx3 T g b H)
  · intro q hq; exact (mem_filter.1 hq).2
  · intro H hH
    rw [mem_filter, mem_arrSet3, global_local3]
    exact ⟨hS H hH, hH⟩
  · intro q _; exact local_global3 T g b q
  · intro H _; exact global_local3 T g b H
  · intro q _; rfl

/-- **C33 (3D, periodic)** On a periodic domain spreading followed by the ghost sum adds to every inner cell, on top of what it held, the
contributions of all nodes of all ranks to all images of that cell: the result does not depend on the decomposition. Ghost cells are zero
afterwards. -/
theorem spread3_periodic {gz gy gx pz py px : ℕ} {T : Cart3} (hT : mkCart3 gz gy gx pz py px true = .ok T) {g w : ℕ} (hw : w ≤ g)
    (hgz : g ≤ T.nz) (hgy : g ≤ T.ny) (hgx : g ≤ T.nx) (hnz : 0 < T.nz) (hny : 0 < T.ny) (hnx : 0 < T.nx) {dx shift : K} (hdx : 0 < dx) (W : K → K → K → K)
    {nodes : List ((K × K × K) × K)} {addr : List C3} (h : Owned3 T dx shift nodes addr) (l : C3 → GS3 K) (hl : Clean3 T l)
    (hz : ∀ c p, Valid3 T c → ¬ Inner3 T g p → (l c).A p = 0) :
    (∀ c p, Valid3 T c → Inner3 T g p →
      (spreadSum3 T g w dx shift W (nodesOf addr nodes) l c).A p =
        (l c).A p + (nodes.map (share3w T dx shift w W (globalIx3 T g c p))).sum) ∧
    (∀ c p, ¬ Inner3 T g p → (spreadSum3 T g w dx shift W (nodesOf addr nodes) l c).A p = 0) ∧
    Clean3 T (spreadSum3 T g w dx shift W (nodesOf addr nodes) l) := by
  have hcl : Clean3 T fun c => { l c with A := spread3 T g w dx shift W c (l c).A (nodesOf addr nodes c) } := hl
  have hcor := ghostSum3_correct hgz hgy hgx hcl
  refine ⟨?_, hcor.2.1, hcor.2.2⟩
  intro c p hc hp
  obtain ⟨hlen, haddr, hblk⟩ := h.len hdx hnz hny hnx
  unfold spreadSum3
  rw [ghostSum3_wrapped hT hgz hgy hgx hcl hc hp]
  simp only [spread3_eq]
  have hself : localIx3 T g c (globalIx3 T g c p) = p := local_global3 T g c p
  have hone : ∀ b ∈ rankSet3 T, (∑ q ∈ arrSet3 T g, if wrap3 T (globalIx3 T g b q) = globalIx3 T g c p then
        (l b).A q + ((nodesOf addr nodes b).map (share3n dx shift w W (globalIx3 T g b q))).sum else 0) =
      (if b = c then (l c).A p else 0) +
        ((nodesOf addr nodes b).map (share3w T dx shift w W (globalIx3 T g c p))).sum := by
    intro b hb
    rw [mem_rankSet3] at hb
    have hsplit : ∀ q ∈ arrSet3 T g, (if wrap3 T (globalIx3 T g b q) = globalIx3 T g c p then
        (l b).A q + ((nodesOf addr nodes b).map (share3n dx shift w W (globalIx3 T g b q))).sum else 0) =
        (if b = c ∧ q = p then (l c).A p else 0) +
          ((nodesOf addr nodes b).map fun nd => if wrap3 T (globalIx3 T g b q) = globalIx3 T g c p then
            share3n dx shift w W (globalIx3 T g b q) nd else 0).sum := by
      intro q hq
      by_cases hwr : wrap3 T (globalIx3 T g b q) = globalIx3 T g c p
      · simp only [if_pos hwr]
        congr 1
        by_cases hinn : Inner3 T g q
        · have hdom := inner_inDomain3 hT hb hinn
          have hid : wrap3 T (globalIx3 T g b q) = globalIx3 T g b q := by
            obtain ⟨a1, a2, a3, a4, a5, a6⟩ := hdom
            unfold wrap3
            exact Prod.ext (Int.emod_eq_of_lt a1 a2) (Prod.ext (Int.emod_eq_of_lt a3 a4) (Int.emod_eq_of_lt a5 a6))
          rw [hid] at hwr
          have hbc : b = c := by
            apply inner_unique3 hp
            rw [← hwr, local_global3]; exact hinn
          subst hbc
          have hqp : q = p := by rw [← local_global3 T g b q, hwr, hself]
          rw [if_pos ⟨rfl, hqp⟩, hqp]
        · rw [if_neg, hz b q hb hinn]
          rintro ⟨-, rfl⟩
          exact hinn hp
      · simp only [if_neg hwr]
        rw [if_neg]
        · simp
        · rintro ⟨rfl, rfl⟩
          apply hwr
          obtain ⟨a1, a2, a3, a4, a5, a6⟩ := inner_inDomain3 hT hb hp
          unfold wrap3
          exact Prod.ext (Int.emod_eq_of_lt a1 a2) (Prod.ext (Int.emod_eq_of_lt a3 a4) (Int.emod_eq_of_lt a5 a6))
    rw [sum_congr rfl hsplit, sum_add_distrib, list_sum_swap]
    congr 1
    · by_cases hbc : b = c
      · simp only [hbc, true_and]
        rw [sum_ite_eq', if_pos, if_pos trivial]
        rw [mem_arrSet3]
        unfold Inner3 at hp; unfold InArr3; omega
      · simp only [hbc, false_and, if_false, sum_const_zero]
    · congr 1
      apply List.map_congr_left
      intro nd hnd
      obtain ⟨i, hi1, hi2⟩ := mem_nodesOf hnd
      unfold share3w
      rw [← sum_arr3 T g b (window3 dx shift w nd.1)
        (fun H => if wrap3 T H = globalIx3 T g c p then nd.2 * cellWeight3 dx shift W nd.1 H else 0)
        (fun H hH => window_inArr3 hw hdx (hblk i nd b hi2 hi1).2 hH)]
      apply sum_congr rfl
      intro q _
      unfold share3n
      by_cases h1 : globalIx3 T g b q ∈ window3 dx shift w nd.1
      · rw [if_pos h1, if_pos h1]
      · rw [if_neg h1, if_neg h1, ite_self]
  rw [sum_congr rfl hone, sum_add_distrib, sum_ite_eq' _ c (fun _ => (l c).A p), if_pos (mem_rankSet3.2 hc)]
  congr 1
  exact nodes_sum (rankSet3 T) _ addr nodes hlen (fun a ha => mem_rankSet3.2 (haddr a ha))

/-- **C39 (3D, periodic)** On a periodic domain interpolation and spreading are adjoint for every node of the domain. -/
theorem interp_spread_adjoint3_periodic {gz gy gx pz py px : ℕ} {T : Cart3} (hT : mkCart3 gz gy gx pz py px true = .ok T)
    {g w : ℕ} (hw : w ≤ g) (hg : 1 ≤ g) (hzz : g ≤ T.nz) (hy : g ≤ T.ny) (hx : g ≤ T.nx) {dx shift : K} (hdx : 0 < dx) (W : K → K → K → K)
    (F : C3 → K) (v : World C3 C3 K) (hv : ∀ c p, Valid3 T c → Inner3 T g p → v c p = F (globalIx3 T g c p))
    {sched : List Ev} (hs : Finalised3 T g true sched) {nodes : List ((K × K × K) × K)} {addr : List C3}
    (h : Owned3 T dx shift nodes addr) (l : C3 → GS3 K) (hl : Clean3 T l) (hz : ∀ c p, Valid3 T c → (l c).A p = 0) :
    ((addr.zip nodes).map fun q =>
        q.2.2 * eulToLag3 T g w dx shift W q.1 (exchange3 T g true v sched q.1) q.2.1).sum =
      dx ^ 3 * innerTotal3 T g (fun c p =>
        v c p * (spreadSum3 T g w dx shift W (nodesOf addr nodes) l c).A p) := by
  have hnz : 0 < T.nz := by omega
  have hny : 0 < T.ny := by omega
  have hnx : 0 < T.nx := by omega
  obtain ⟨e0, e1, e2, e3, e4, e5, hper, k0, k1, k2⟩ := construct3_ok hT
  obtain ⟨hlen, haddr, hblk⟩ := h.len hdx hnz hny hnx
  have hleft : ((addr.zip nodes).map fun q =>
        q.2.2 * eulToLag3 T g w dx shift W q.1 (exchange3 T g true v sched q.1) q.2.1) =
      (addr.zip nodes).map fun q => q.2.2 * interp3 dx shift w W (fun G => F (wrap3 T G)) q.2.1 := by
    apply List.map_congr_left
    intro q hq
    obtain ⟨i, hi⟩ := List.mem_iff_getElem?.1 hq
    rw [List.getElem?_zip_eq_some] at hi
    rw [interp3_decomposition_free_periodic hT hw hg hzz hy hx hdx W F v hv hs h hi.2 hi.1]
  have hzip : ((addr.zip nodes).map fun q => q.2.2 * interp3 dx shift w W (fun G => F (wrap3 T G)) q.2.1) =
      nodes.map fun nd => nd.2 * interp3 dx shift w W (fun G => F (wrap3 T G)) nd.1 := by
    have : nodes = (addr.zip nodes).map Prod.snd := by rw [List.map_snd_zip (by omega)]
    conv_rhs => rw [this, List.map_map]
    rfl
  rw [hleft, hzip]
  have hright : innerTotal3 T g (fun c p =>
        v c p * (spreadSum3 T g w dx shift W (nodesOf addr nodes) l c).A p) =
      ∑ c ∈ rankSet3 T, ∑ p ∈ innerSet3 T g,
        F (globalIx3 T g c p) * (nodes.map (share3w T dx shift w W (globalIx3 T g c p))).sum := by
    unfold innerTotal3
    apply sum_congr rfl; intro c hc
    apply sum_congr rfl; intro p hp
    rw [mem_rankSet3] at hc
    rw [mem_innerSet3] at hp
    simp only
    rw [hv c p hc hp, (spread3_periodic hT hw hzz hy hx hnz hny hnx hdx W h l hl (fun c p hc _ => hz c p hc)).1 c p hc hp,
      hz c p hc, zero_add]
  rw [hright, sum_blocks3 hT g (fun G => F G * (nodes.map (share3w T dx shift w W G)).sum)]
  simp only [← List.sum_map_mul_left]
  rw [list_sum_swap (Ico (0 : ℤ) gz ×ˢ Ico (0 : ℤ) gy ×ˢ Ico (0 : ℤ) gx) nodes (fun nd G => F G * share3w T dx shift w W G nd),
    ← List.sum_map_mul_left]
  congr 1
  apply List.map_congr_left
  intro nd hnd
  unfold interp3 share3w
  simp only [mul_sum]
  rw [sum_comm]
  apply sum_congr rfl
  intro H hH
  have hgz0 : (0 : ℤ) < T.gz := by
    obtain ⟨i, hi⟩ := List.mem_iff_getElem?.1 hnd
    have hlt : i < addr.length := by rw [hlen]; exact (List.getElem?_eq_some_iff.1 hi).1
    have hv := haddr _ (List.getElem_mem hlt)
    unfold Valid3 at hv
    have : 0 < T.pz := by omega
    rw [← k0]; exact_mod_cast Nat.mul_pos this hnz
  have hgy0 : (0 : ℤ) < T.gy := by
    obtain ⟨i, hi⟩ := List.mem_iff_getElem?.1 hnd
    have hlt : i < addr.length := by rw [hlen]; exact (List.getElem?_eq_some_iff.1 hi).1
    have hv := haddr _ (List.getElem_mem hlt)
    unfold Valid3 at hv
    have : 0 < T.py := by omega
    rw [← k1]; exact_mod_cast Nat.mul_pos this hny
  have hgx0 : (0 : ℤ) < T.gx := by
    obtain ⟨i, hi⟩ := List.mem_iff_getElem?.1 hnd
    have hlt : i < addr.length := by rw [hlen]; exact (List.getElem?_eq_some_iff.1 hi).1
    have hv := haddr _ (List.getElem_mem hlt)
    unfold Valid3 at hv
    have : 0 < T.px := by omega
    rw [← k2]; exact_mod_cast Nat.mul_pos this hnx
  have hmem : wrap3 T H ∈ Ico (0 : ℤ) gz ×ˢ Ico (0 : ℤ) gy ×ˢ Ico (0 : ℤ) gx := by
    unfold wrap3
    rw [mem_product, mem_product, mem_Ico, mem_Ico, mem_Ico, ← e0, ← e1, ← e2]
    exact ⟨⟨Int.emod_nonneg _ hgz0.ne', Int.emod_lt_of_pos _ hgz0⟩, ⟨Int.emod_nonneg _ hgy0.ne', Int.emod_lt_of_pos _ hgy0⟩, Int.emod_nonneg _ hgx0.ne', Int.emod_lt_of_pos _ hgx0⟩
  rw [sum_eq_single (wrap3 T H)]
  · rw [if_pos rfl]; ring
  · intro G _ hG
    rw [if_neg (Ne.symm hG)]; ring
  · intro hno; exact absurd hmem hno

end D3

/-- the hypotheses hold on a periodic 8 x 8 domain on 2 x 1 ranks for a node in the last cell, owned by rank (1, 0), whose window leaves the
domain and wraps around to cell (0, 0) of rank (0, 0), to which the node contributes -/
example : ∃ T : Cart2, mkCart2 8 8 2 1 true = .ok T ∧ (2 ≤ T.ny ∧ 2 ≤ T.nx) ∧
    Owned2 T (1 : ℚ) 0 [((15/2, 15/2), 3)] [(1, 0)] ∧ (8, 8) ∈ window2 (1 : ℚ) 0 2 (15/2, 15/2) ∧ ¬ InDomain2 T (8, 8) ∧
    wrap2 T (8, 8) = globalIx2 T 2 (0, 0) (2, 2) ∧ Inner2 T ((2 : ℕ) : ℤ) (2, 2) ∧
    share2w T (1 : ℚ) 0 2 (fun _ _ => 1) (0, 0) ((15/2, 15/2), 3) = 3 := by
  have f1 : ⌊(15/2 : ℚ)⌋ = 7 := by norm_num [Int.floor_eq_iff]
  refine ⟨⟨8, 8, 2, 1, 4, 8, true⟩, rfl, by decide, ⟨?_, ?_⟩, ?_, ?_, ?_, ?_, ?_⟩
  · have h1 : truncZ (((15:ℚ)/2 - 0) / (1 * (8:ℕ))) = 0 := by norm_num [truncZ, Int.floor_eq_iff]
    have h2 : truncZ (((15:ℚ)/2 - 0) / (1 * (4:ℕ))) = 1 := by norm_num [truncZ, Int.floor_eq_iff]
    simp only [rankAddress2, subblock2, List.map_cons, List.map_nil, h1, h2]
    rfl
  · intro nd hnd
    simp only [List.mem_cons, List.not_mem_nil, or_false] at hnd
    subst hnd
    norm_num [InPhysDomain]
  · simp [window2, winCells, cellOf, f1]
  · simp [InDomain2]
  · rfl
  · simp [Inner2]
  · have hc : cellOf (1 : ℚ) 0 (15/2) = 7 := by simp [cellOf, f1]
    unfold share2w window2 winCells
    simp only [hc, cellWeight2]
    rw [← Finset.sum_filter, Finset.sum_const, show (Finset.filter _ _).card = 1 from by decide]
    norm_num

end Sopht
