import Verif.InterpLemmas
import Verif.Ghost2DProps
import Verif.Ghost3DProps

/-!
# Interpolation and spreading: C21, C22, C23, C29

Specification: `cellOf`, `winCells`, `window2/3`, `cellWeight2/3`, `interp2/3`, `share2n/3n` in `Verif.InterpLemmas` (they do not
mention ranks, blocks or ghost cells).
-/

namespace Sopht

open Finset

section Check

/-- **C21** Construction succeeds exactly when the ghost layer is at least as wide as the kernel, the kernel is one of the two offered,
its width is 2 and the number of components is 1 or the dimension; a too thin ghost layer is a ValueError. -/
theorem elCheck_ok_iff (dim : ℕ) (ghost width ncomp : ℤ) (kernel : String) :
    (elCheck dim ghost width ncomp kernel = .ok () ↔
      width ≤ ghost ∧ (ncomp = 1 ∨ ncomp = dim) ∧ (kernel = "peskin" ∨ kernel = "cosine") ∧ width = 2) ∧
    (ghost < width → elCheck dim ghost width ncomp kernel = .error .valueError) := by
  unfold elCheck
  constructor
  · split
    · constructor
      · intro h; cases h
      · intro h; omega
    · split
      · constructor
        · intro h; cases h
        · intro h; tauto
      · split
        · split
          · constructor
            · intro _; refine ⟨by omega, by tauto, by tauto, by tauto⟩
            · intro _; rfl
          · constructor
            · intro h; cases h
            · intro h; tauto
        · constructor
          · intro h; cases h
          · intro h; tauto
  · intro h; rw [if_pos h]

end Check

/-- Nodes (position, value) inside the domain, with the rank address the communicator computes for them. -/
def Owned2 {K : Type} [Field K] [LinearOrder K] [FloorRing K] (T : Cart2) (dx shift : K) (nodes : List ((K × K) × K))
    (addr : List C2) : Prop :=
  rankAddress2 T dx shift (nodes.map fun nd => nd.1) = .ok addr ∧
    ∀ nd ∈ nodes, InPhysDomain dx shift T.py T.ny nd.1.2 ∧ InPhysDomain dx shift T.px T.nx nd.1.1
/-- 3D version of `Owned2`. -/
def Owned3 {K : Type} [Field K] [LinearOrder K] [FloorRing K] (T : Cart3) (dx shift : K) (nodes : List ((K × K × K) × K))
    (addr : List C3) : Prop :=
  rankAddress3 T dx shift (nodes.map fun nd => nd.1) = .ok addr ∧
    ∀ nd ∈ nodes, InPhysDomain dx shift T.pz T.nz nd.1.2.2 ∧ InPhysDomain dx shift T.py T.ny nd.1.2.1 ∧
      InPhysDomain dx shift T.px T.nx nd.1.1

section D2
variable {K : Type} [Field K] [LinearOrder K] [IsStrictOrderedRing K] [FloorRing K]

theorem Owned2.len {T : Cart2} {dx shift : K} (hdx : 0 < dx) (hny : 0 < T.ny) (hnx : 0 < T.nx)
    {nodes : List ((K × K) × K)} {addr : List C2} (h : Owned2 T dx shift nodes addr) :
    addr.length = nodes.length ∧ (∀ a ∈ addr, Valid2 T a) ∧
      ∀ (i : ℕ) nd c, nodes[i]? = some nd → addr[i]? = some c → Valid2 T c ∧ InPhysBlock2 T dx shift c nd.1 := by
  obtain ⟨hr, hin⟩ := h
  obtain ⟨a, ha, hl, hb⟩ := mapping2_owner T hdx hny hnx (nodes.map fun nd => nd.1) (by
    intro x hx
    obtain ⟨nd, hnd, rfl⟩ := List.mem_map.1 hx
    exact hin nd hnd)
  rw [ha] at hr
  obtain rfl : a = addr := by simpa using hr
  have hl' : a.length = nodes.length := by simpa using hl
  refine ⟨hl', ?_, ?_⟩
  · intro c hc
    obtain ⟨i, hi⟩ := List.mem_iff_getElem?.1 hc
    have hlt : i < nodes.length := by
      rw [← hl']; exact (List.getElem?_eq_some_iff.1 hi).1
    exact (hb i _ c (by rw [List.getElem?_map, List.getElem?_eq_getElem hlt]; rfl) hi).1
  · intro i nd c hnd hc
    have := hb i nd.1 c (by rw [List.getElem?_map, hnd]; rfl) hc
    exact ⟨this.1, this.2.1⟩

/-- **C21 (2D)** The window of every node lies inside the array of the rank that owns the node, whenever the ghost layer is at least as
wide as the kernel. -/
theorem window2_inside {T : Cart2} {g w : ℕ} (hw : w ≤ g) {dx shift : K} (hdx : 0 < dx) (hny : 0 < T.ny) (hnx : 0 < T.nx)
    {nodes : List ((K × K) × K)} {addr : List C2} (h : Owned2 T dx shift nodes addr)
    {i : ℕ} {nd : (K × K) × K} {c : C2} (hi : nodes[i]? = some nd) (hc : addr[i]? = some c) {j k : ℕ} (hj : j < 2 * w) (hk : k < 2 * w) :
    InArr2 T g ((winStart2 T g w dx shift c nd.1).1 + j, (winStart2 T g w dx shift c nd.1).2 + k) := by
  have hb := ((h.len hdx hny hnx).2.2 i nd c hi hc).2
  have hy := cellOf_block hdx hb.1
  have hx := cellOf_block hdx hb.2
  rw [winStart2_eq]
  unfold InArr2
  simp only
  omega

/-- **C21** The bound is sharp: with a thinner ghost layer the window of a node in the last cell of a block leaves the array. -/
theorem window2_outside {T : Cart2} {g w : ℕ} (hw : g < w) {dx shift : K} (hdx : 0 < dx) (hnx : 0 < T.nx) (c : C2) (y : K) :
    ∃ x : K, InPhys dx shift T.nx c.2 x ∧ ∃ j k : ℕ, j < 2 * w ∧ k < 2 * w ∧
      ¬ InArr2 T g ((winStart2 T g w dx shift c (x, y)).1 + j, (winStart2 T g w dx shift c (x, y)).2 + k) := by
  refine ⟨shift + ((c.2 * T.nx + (T.nx - 1) : ℤ) : K) * dx, ?_, 0, 2 * w - 1, by omega, by omega, ?_⟩
  · unfold InPhys
    have : (0 : K) ≤ (T.nx : K) - 1 := by
      have : (1 : K) ≤ T.nx := by exact_mod_cast hnx
      linarith
    push_cast
    constructor
    · nlinarith
    · nlinarith
  · have e : cellOf dx shift (shift + ((c.2 * T.nx + (T.nx - 1) : ℤ) : K) * dx) = c.2 * T.nx + (T.nx - 1) := by
      unfold cellOf
      rw [add_sub_cancel_left, mul_div_assoc, div_self hdx.ne', mul_one, Int.floor_intCast]
    rw [winStart2_eq]
    unfold InArr2
    simp only [e]
    omega

/-- **C22 (2D)** The velocity (or any field) which the rank owning a node interpolates at the node, from its local array after a full
ghost exchange, is the interpolation of the global field: it does not depend on the decomposition, on the ghost size or on the
schedule of the exchange. (Nodes whose window lies inside the domain.) -/
theorem interp2_decomposition_free {gy gx py px : ℕ} {T : Cart2} (hT : mkCart2 gy gx py px false = .ok T)
    {g w : ℕ} (hw : w ≤ g) (hg : 1 ≤ g) (hy : g ≤ T.ny) (hx : g ≤ T.nx) {dx shift : K} (hdx : 0 < dx) (W : K → K → K)
    (F : C2 → K) (v : World C2 ℤ K) (hv : ∀ c p, Valid2 T c → Inner2 T g p → v c (flat2 T g p) = F (globalIx2 T g c p))
    {sched : List Ev} (hs : Finalised2 T g true sched) {nodes : List ((K × K) × K)} {addr : List C2}
    (h : Owned2 T dx shift nodes addr) {i : ℕ} {nd : (K × K) × K} {c : C2} (hi : nodes[i]? = some nd) (hc : addr[i]? = some c)
    (hwin : ∀ G ∈ window2 dx shift w nd.1, InDomain2 T G) :
    eulToLag2 T g w dx shift W c (fun p => exchange2 T g true v sched c (flat2 T g p)) nd.1 =
      interp2 dx shift w W F nd.1 := by
  obtain ⟨hval, hb⟩ := (h.len hdx (by omega) (by omega)).2.2 i nd c hi hc
  rw [eulToLag2_eq]
  unfold interp2
  apply sum_congr rfl
  intro G hG
  have ha := window_inArr2 hw hdx hb hG
  rw [exchange2_global_window hT hg hy hx true F v hv hs hval ha (by rw [global_local2]; exact hwin G hG) (Or.inl rfl),
    global_local2]

/-- **C22 (2D, periodic)** On a periodic domain this holds for every node of the domain, with the field continued periodically. -/
theorem interp2_decomposition_free_periodic {gy gx py px : ℕ} {T : Cart2} (hT : mkCart2 gy gx py px true = .ok T)
    {g w : ℕ} (hw : w ≤ g) (hg : 1 ≤ g) (hy : g ≤ T.ny) (hx : g ≤ T.nx) {dx shift : K} (hdx : 0 < dx) (W : K → K → K)
    (F : C2 → K) (v : World C2 ℤ K) (hv : ∀ c p, Valid2 T c → Inner2 T g p → v c (flat2 T g p) = F (globalIx2 T g c p))
    {sched : List Ev} (hs : Finalised2 T g true sched) {nodes : List ((K × K) × K)} {addr : List C2}
    (h : Owned2 T dx shift nodes addr) {i : ℕ} {nd : (K × K) × K} {c : C2} (hi : nodes[i]? = some nd) (hc : addr[i]? = some c) :
    eulToLag2 T g w dx shift W c (fun p => exchange2 T g true v sched c (flat2 T g p)) nd.1 =
      interp2 dx shift w W (fun G => F (wrap2 T G)) nd.1 := by
  obtain ⟨hval, hb⟩ := (h.len hdx (by omega) (by omega)).2.2 i nd c hi hc
  rw [eulToLag2_eq]
  unfold interp2
  apply sum_congr rfl
  intro G hG
  have ha := window_inArr2 hw hdx hb hG
  rw [exchange2_global_window_periodic hT hg hy hx true F v hv hs hval ha (Or.inl rfl), global_local2]

/-- **C23 (2D)** Spreading followed by the ghost sum adds to every inner cell, on top of what it held, the contributions of all nodes of
all ranks to that global cell: the result does not depend on the decomposition. Ghost cells are zero afterwards. -/
theorem spread2_decomposition_free {T : Cart2} (hper : T.per = false) {g w : ℕ} (hw : w ≤ g)
    (hgy : g ≤ T.ny) (hgx : g ≤ T.nx) (hny : 0 < T.ny) (hnx : 0 < T.nx) {dx shift : K} (hdx : 0 < dx) (W : K → K → K)
    {nodes : List ((K × K) × K)} {addr : List C2} (h : Owned2 T dx shift nodes addr) (l : C2 → GS2 K) (hl : Clean2 T l)
    (hz : ∀ c p, Valid2 T c → ¬ Inner2 T g p → (l c).A p = 0) :
    (∀ c p, Valid2 T c → Inner2 T g p →
      (spreadSum2 T g w dx shift W (nodesOf addr nodes) l c).A p =
        (l c).A p + (nodes.map (share2n dx shift w W (globalIx2 T g c p))).sum) ∧
    (∀ c p, ¬ Inner2 T g p → (spreadSum2 T g w dx shift W (nodesOf addr nodes) l c).A p = 0) ∧
    Clean2 T (spreadSum2 T g w dx shift W (nodesOf addr nodes) l) := by
  have hcl : Clean2 T fun c => { l c with A := spread2 T g w dx shift W c (l c).A (nodesOf addr nodes c) } := hl
  have hcor := ghostSum2_correct hgy hgx hcl
  refine ⟨?_, hcor.2.1, hcor.2.2⟩
  intro c p hc hp
  obtain ⟨hlen, haddr, hblk⟩ := h.len hdx hny hnx
  unfold spreadSum2
  rw [ghostSum2_global hper hgy hgx hcl hc hp]
  simp only [spread2_eq, global_local2]
  generalize hG : globalIx2 T g c p = G
  -- nodes of rank `b` reach `G` only inside the array of `b`
  have hin : ∀ b : C2, ¬ InArr2 T g (localIx2 T g b G) →
      ((nodesOf addr nodes b).map (share2n dx shift w W G)).sum = 0 := by
    intro b hb
    apply List.sum_eq_zero
    intro x hx
    obtain ⟨nd, hnd, rfl⟩ := List.mem_map.1 hx
    obtain ⟨i, hi1, hi2⟩ := mem_nodesOf hnd
    unfold share2n
    rw [if_neg]
    intro hmem
    exact hb (window_inArr2 hw hdx (hblk i nd b hi2 hi1).2 hmem)
  have hself : localIx2 T g c G = p := by rw [← hG]; exact local_global2 T g c p
  have hone : ∀ b ∈ Ico (0 : ℤ) T.py ×ˢ Ico (0 : ℤ) T.px,
      (if InArr2 T g (localIx2 T g b G) then
        (l b).A (localIx2 T g b G) + ((nodesOf addr nodes b).map (share2n dx shift w W G)).sum else 0) =
      (if b = c then (l c).A p else 0) + ((nodesOf addr nodes b).map (share2n dx shift w W G)).sum := by
    intro b hb
    by_cases ha : InArr2 T g (localIx2 T g b G)
    · rw [if_pos ha]
      congr 1
      by_cases hbc : b = c
      · rw [if_pos hbc, hbc, hself]
      · rw [if_neg hbc]
        apply hz b _ (mem_rankSet2.1 hb)
        intro hinn
        apply hbc
        apply inner_unique2 hp
        rw [hG]; exact hinn
    · rw [if_neg ha, hin b ha, add_zero, if_neg]
      rintro rfl
      apply ha
      rw [hself]
      unfold Inner2 at hp; unfold InArr2; omega
  rw [sum_congr rfl hone, sum_add_distrib, sum_ite_eq' _ c (fun _ => (l c).A p),
    if_pos (show c ∈ Ico (0 : ℤ) T.py ×ˢ Ico (0 : ℤ) T.px from mem_rankSet2.2 hc)]
  congr 1
  exact nodes_sum (rankSet2 T) _ addr nodes hlen (fun a ha => mem_rankSet2.2 (haddr a ha))

/-- sum over ranks and their inner cells = sum over the global grid -/
theorem sum_blocks2 {gy gx py px : ℕ} {per : Bool} {T : Cart2} (hT : mkCart2 gy gx py px per = .ok T) (g : ℕ) {M : Type}
    [AddCommMonoid M] (f : C2 → M) :
    (∑ c ∈ rankSet2 T, ∑ p ∈ innerSet2 T g, f (globalIx2 T g c p)) = ∑ G ∈ Ico (0 : ℤ) gy ×ˢ Ico (0 : ℤ) gx, f G := by
  obtain ⟨e1, e2, -, -, -, h1, h2⟩ := construct2_ok hT
  rw [← sum_product']
  symm
  by_cases hny : T.ny = 0
  · have : gy = 0 := by rw [← e1, ← h1, hny, Nat.mul_zero]
    subst this
    have h3 : innerSet2 T g = ∅ := by unfold innerSet2; rw [hny]; simp
    rw [h3]; simp
  by_cases hnx : T.nx = 0
  · have : gx = 0 := by rw [← e2, ← h2, hnx, Nat.mul_zero]
    subst this
    have h3 : innerSet2 T g = ∅ := by unfold innerSet2; rw [hnx]; simp
    rw [h3]; simp
  have qy : (0 : ℤ) < T.ny := by omega
  have qx : (0 : ℤ) < T.nx := by omega
  apply Finset.sum_bij'
    (fun G _ => ((G.1 / (T.ny : ℤ), G.2 / (T.nx : ℤ)), (G.1 % (T.ny : ℤ) + (g : ℤ), G.2 % (T.nx : ℤ) + (g : ℤ))))
    (fun q _ => globalIx2 T g q.1 q.2)
  · intro G hG
    rw [mem_product, mem_Ico, mem_Ico] at hG
    rw [mem_product, mem_rankSet2, mem_innerSet2]
    have a1 := Int.emod_nonneg G.1 qy.ne'
    have a2 := Int.emod_lt_of_pos G.1 qy
    have b1 := Int.emod_nonneg G.2 qx.ne'
    have b2 := Int.emod_lt_of_pos G.2 qx
    unfold Valid2 Inner2
    simp only
    refine ⟨⟨Int.ediv_nonneg hG.1.1 qy.le, ?_, Int.ediv_nonneg hG.2.1 qx.le, ?_⟩, by omega, by omega, by omega, by omega⟩
    · rw [Int.ediv_lt_iff_lt_mul qy]
      have : (T.py : ℤ) * T.ny = gy := by rw [← e1]; exact_mod_cast h1
      omega
    · rw [Int.ediv_lt_iff_lt_mul qx]
      have : (T.px : ℤ) * T.nx = gx := by rw [← e2]; exact_mod_cast h2
      omega
  · intro q hq
    rw [mem_product, mem_rankSet2, mem_innerSet2] at hq
    obtain ⟨⟨v1, v2, v3, v4⟩, i1, i2, i3, i4⟩ := hq
    rw [mem_product, mem_Ico, mem_Ico]
    unfold globalIx2
    simp only
    have k1 : (T.py : ℤ) * T.ny = gy := by rw [← e1]; exact_mod_cast h1
    have k2 : (T.px : ℤ) * T.nx = gx := by rw [← e2]; exact_mod_cast h2
    refine ⟨⟨?_, ?_⟩, ?_, ?_⟩
    · nlinarith
    · have : q.1.1 + 1 ≤ T.py := by omega
      nlinarith
    · nlinarith
    · have : q.1.2 + 1 ≤ T.px := by omega
      nlinarith
  · intro G _
    unfold globalIx2
    simp only
    refine Prod.ext ?_ ?_ <;> simp only
    · have := Int.ediv_mul_add_emod G.1 T.ny; omega
    · have := Int.ediv_mul_add_emod G.2 T.nx; omega
  · intro q hq
    rw [mem_product, mem_rankSet2, mem_innerSet2] at hq
    obtain ⟨-, i1, i2, i3, i4⟩ := hq
    unfold globalIx2
    simp only
    have d1 : (q.1.1 * (T.ny : ℤ) + q.2.1 - g) / T.ny = q.1.1 := by
      rw [show q.1.1 * (T.ny : ℤ) + q.2.1 - g = (q.2.1 - g) + q.1.1 * T.ny by ring, Int.add_mul_ediv_right _ _ qy.ne',
        Int.ediv_eq_zero_of_lt (by omega) (by omega), zero_add]
    have d2 : (q.1.2 * (T.nx : ℤ) + q.2.2 - g) / T.nx = q.1.2 := by
      rw [show q.1.2 * (T.nx : ℤ) + q.2.2 - g = (q.2.2 - g) + q.1.2 * T.nx by ring, Int.add_mul_ediv_right _ _ qx.ne',
        Int.ediv_eq_zero_of_lt (by omega) (by omega), zero_add]
    have m1 : (q.1.1 * (T.ny : ℤ) + q.2.1 - g) % T.ny = q.2.1 - g := by
      rw [show q.1.1 * (T.ny : ℤ) + q.2.1 - g = (q.2.1 - g) + q.1.1 * T.ny by ring, Int.add_mul_emod_self_right,
        Int.emod_eq_of_lt (by omega) (by omega)]
    have m2 : (q.1.2 * (T.nx : ℤ) + q.2.2 - g) % T.nx = q.2.2 - g := by
      rw [show q.1.2 * (T.nx : ℤ) + q.2.2 - g = (q.2.2 - g) + q.1.2 * T.nx by ring, Int.add_mul_emod_self_right,
        Int.emod_eq_of_lt (by omega) (by omega)]
    refine Prod.ext (Prod.ext ?_ ?_) (Prod.ext ?_ ?_) <;> simp only
    · exact d1
    · exact d2
    · rw [m1]; ring
    · rw [m2]; ring
  · intro G _
    congr 1
    unfold globalIx2
    simp only
    refine Prod.ext ?_ ?_ <;> simp only
    · have := Int.ediv_mul_add_emod G.1 T.ny; omega
    · have := Int.ediv_mul_add_emod G.2 T.nx; omega

theorem list_sum_swap {N I M : Type} [AddCommMonoid M] (s : Finset I) (l : List N) (f : N → I → M) :
    (∑ i ∈ s, (l.map fun n => f n i).sum) = (l.map fun n => ∑ i ∈ s, f n i).sum := by
  induction l with
  | nil => simp
  | cons a t ih => simp [sum_add_distrib, ih]

/-- **C29 (2D)** Spreading node values and interpolating a field are adjoint: the node values paired with the field which the owning
ranks interpolate at the nodes equal the field paired with the spread values over all inner cells, times the cell volume. -/
theorem interp_spread_adjoint2 {gy gx py px : ℕ} {T : Cart2} (hT : mkCart2 gy gx py px false = .ok T)
    {g w : ℕ} (hw : w ≤ g) (hg : 1 ≤ g) (hy : g ≤ T.ny) (hx : g ≤ T.nx) {dx shift : K} (hdx : 0 < dx) (W : K → K → K)
    (F : C2 → K) (v : World C2 ℤ K) (hv : ∀ c p, Valid2 T c → Inner2 T g p → v c (flat2 T g p) = F (globalIx2 T g c p))
    {sched : List Ev} (hs : Finalised2 T g true sched) {nodes : List ((K × K) × K)} {addr : List C2}
    (h : Owned2 T dx shift nodes addr) (hwin : ∀ nd ∈ nodes, ∀ G ∈ window2 dx shift w nd.1, InDomain2 T G)
    (l : C2 → GS2 K) (hl : Clean2 T l) (hz : ∀ c p, Valid2 T c → (l c).A p = 0) :
    ((addr.zip nodes).map fun q =>
        q.2.2 * eulToLag2 T g w dx shift W q.1 (fun p => exchange2 T g true v sched q.1 (flat2 T g p)) q.2.1).sum =
      dx ^ 2 * innerTotal2 T g (fun c p =>
        v c (flat2 T g p) * (spreadSum2 T g w dx shift W (nodesOf addr nodes) l c).A p) := by
  have hny : 0 < T.ny := by omega
  have hnx : 0 < T.nx := by omega
  obtain ⟨e1, e2, -, -, hper, -, -⟩ := construct2_ok hT
  obtain ⟨hlen, haddr, hblk⟩ := h.len hdx hny hnx
  -- left: interpolation of the global field
  have hleft : ((addr.zip nodes).map fun q =>
        q.2.2 * eulToLag2 T g w dx shift W q.1 (fun p => exchange2 T g true v sched q.1 (flat2 T g p)) q.2.1) =
      (addr.zip nodes).map fun q => q.2.2 * interp2 dx shift w W F q.2.1 := by
    apply List.map_congr_left
    intro q hq
    obtain ⟨i, hi⟩ := List.mem_iff_getElem?.1 hq
    rw [List.getElem?_zip_eq_some] at hi
    have hmem : q.2 ∈ nodes := List.mem_iff_getElem?.2 ⟨i, hi.2⟩
    rw [interp2_decomposition_free hT hw hg hy hx hdx W F v hv hs h hi.2 hi.1 (hwin q.2 hmem)]
  have hzip : ((addr.zip nodes).map fun q => q.2.2 * interp2 dx shift w W F q.2.1) =
      nodes.map fun nd => nd.2 * interp2 dx shift w W F nd.1 := by
    have : nodes = (addr.zip nodes).map Prod.snd := by rw [List.map_snd_zip (by omega)]
    conv_rhs => rw [this, List.map_map]
    rfl
  rw [hleft, hzip]
  -- right
  have hright : innerTotal2 T g (fun c p =>
        v c (flat2 T g p) * (spreadSum2 T g w dx shift W (nodesOf addr nodes) l c).A p) =
      ∑ c ∈ rankSet2 T, ∑ p ∈ innerSet2 T g,
        F (globalIx2 T g c p) * (nodes.map (share2n dx shift w W (globalIx2 T g c p))).sum := by
    unfold innerTotal2
    apply sum_congr rfl; intro c hc
    apply sum_congr rfl; intro p hp
    rw [mem_rankSet2] at hc
    rw [mem_innerSet2] at hp
    simp only
    rw [hv c p hc hp, (spread2_decomposition_free hper hw hy hx hny hnx hdx W h l hl (fun c p hc _ => hz c p hc)).1 c p hc hp,
      hz c p hc, zero_add]
  rw [hright, sum_blocks2 hT g (fun G => F G * (nodes.map (share2n dx shift w W G)).sum)]
  simp only [← List.sum_map_mul_left]
  rw [list_sum_swap (Ico (0 : ℤ) gy ×ˢ Ico (0 : ℤ) gx) nodes (fun nd G => F G * share2n dx shift w W G nd),
    ← List.sum_map_mul_left]
  congr 1
  apply List.map_congr_left
  intro nd hnd
  unfold interp2
  rw [mul_sum, mul_sum]
  have hsub : window2 dx shift w nd.1 ⊆ Ico (0 : ℤ) gy ×ˢ Ico (0 : ℤ) gx := by
    intro G hG
    have := hwin nd hnd G hG
    unfold InDomain2 at this
    rw [mem_product, mem_Ico, mem_Ico, ← e1, ← e2]; tauto
  rw [← sum_subset hsub (f := fun G => dx ^ 2 * (F G * share2n dx shift w W G nd))]
  · apply sum_congr rfl
    intro G hG
    unfold share2n
    rw [if_pos hG]; ring
  · intro G _ hG
    unfold share2n
    rw [if_neg hG]; ring

end D2

section D3
variable {K : Type} [Field K] [LinearOrder K] [IsStrictOrderedRing K] [FloorRing K]

theorem Owned3.len {T : Cart3} {dx shift : K} (hdx : 0 < dx) (hnz : 0 < T.nz) (hny : 0 < T.ny) (hnx : 0 < T.nx)
    {nodes : List ((K × K × K) × K)} {addr : List C3} (h : Owned3 T dx shift nodes addr) :
    addr.length = nodes.length ∧ (∀ a ∈ addr, Valid3 T a) ∧
      ∀ (i : ℕ) nd c, nodes[i]? = some nd → addr[i]? = some c → Valid3 T c ∧ InPhysBlock3 T dx shift c nd.1 := by
  obtain ⟨hr, hin⟩ := h
  obtain ⟨a, ha, hl, hb⟩ := mapping3_owner T hdx hnz hny hnx (nodes.map fun nd => nd.1) (by
    intro x hx
    obtain ⟨nd, hnd, rfl⟩ := List.mem_map.1 hx
    exact hin nd hnd)
  rw [ha] at hr
  obtain rfl : a = addr := by simpa using hr
  have hl' : a.length = nodes.length := by simpa using hl
  refine ⟨hl', ?_, ?_⟩
  · intro c hc
    obtain ⟨i, hi⟩ := List.mem_iff_getElem?.1 hc
    have hlt : i < nodes.length := by
      rw [← hl']; exact (List.getElem?_eq_some_iff.1 hi).1
    exact (hb i _ c (by rw [List.getElem?_map, List.getElem?_eq_getElem hlt]; rfl) hi).1
  · intro i nd c hnd hc
    have := hb i nd.1 c (by rw [List.getElem?_map, hnd]; rfl) hc
    exact ⟨this.1, this.2.1⟩

/-- **C21 (3D)** The window of every node lies inside the array of the rank that owns the node, whenever the ghost layer is at least as
wide as the kernel. -/
theorem window3_inside {T : Cart3} {g w : ℕ} (hw : w ≤ g) {dx shift : K} (hdx : 0 < dx) (hnz : 0 < T.nz) (hny : 0 < T.ny) (hnx : 0 < T.nx)
    {nodes : List ((K × K × K) × K)} {addr : List C3} (h : Owned3 T dx shift nodes addr)
    {i : ℕ} {nd : (K × K × K) × K} {c : C3} (hi : nodes[i]? = some nd) (hc : addr[i]? = some c) {a j k : ℕ} (ha : a < 2 * w)
    (hj : j < 2 * w) (hk : k < 2 * w) :
    InArr3 T g ((winStart3 T g w dx shift c nd.1).1 + a, (winStart3 T g w dx shift c nd.1).2.1 + j,
      (winStart3 T g w dx shift c nd.1).2.2 + k) := by
  have hb := ((h.len hdx hnz hny hnx).2.2 i nd c hi hc).2
  have hz := cellOf_block hdx hb.1
  have hy := cellOf_block hdx hb.2.1
  have hx := cellOf_block hdx hb.2.2
  rw [winStart3_eq]
  unfold InArr3
  simp only
  omega

/-- **C22 (3D)** The velocity (or any field) which the rank owning a node interpolates at the node, from its local array after a full
ghost exchange, is the interpolation of the global field: it does not depend on the decomposition, on the ghost size or on the
schedule of the exchange. (Nodes whose window lies inside the domain.) -/
theorem interp3_decomposition_free {gz gy gx pz py px : ℕ} {T : Cart3} (hT : mkCart3 gz gy gx pz py px false = .ok T)
    {g w : ℕ} (hw : w ≤ g) (hg : 1 ≤ g) (hz : g ≤ T.nz) (hy : g ≤ T.ny) (hx : g ≤ T.nx) {dx shift : K} (hdx : 0 < dx) (W : K → K → K → K)
    (F : C3 → K) (v : World C3 C3 K) (hv : ∀ c p, Valid3 T c → Inner3 T g p → v c p = F (globalIx3 T g c p))
    {sched : List Ev} (hs : Finalised3 T g true sched) {nodes : List ((K × K × K) × K)} {addr : List C3}
    (h : Owned3 T dx shift nodes addr) {i : ℕ} {nd : (K × K × K) × K} {c : C3} (hi : nodes[i]? = some nd) (hc : addr[i]? = some c)
    (hwin : ∀ G ∈ window3 dx shift w nd.1, InDomain3 T G) :
    eulToLag3 T g w dx shift W c (exchange3 T g true v sched c) nd.1 =
      interp3 dx shift w W F nd.1 := by
  obtain ⟨hval, hb⟩ := (h.len hdx (by omega) (by omega) (by omega)).2.2 i nd c hi hc
  rw [eulToLag3_eq]
  unfold interp3
  apply sum_congr rfl
  intro G hG
  have ha := window_inArr3 hw hdx hb hG
  rw [exchange3_global_window hT hz hy hx true F v hv hs hval ha (by rw [global_local3]; exact hwin G hG) (Or.inl rfl),
    global_local3]

/-- **C22 (3D, periodic)** On a periodic domain this holds for every node of the domain, with the field continued periodically. -/
theorem interp3_decomposition_free_periodic {gz gy gx pz py px : ℕ} {T : Cart3} (hT : mkCart3 gz gy gx pz py px true = .ok T)
    {g w : ℕ} (hw : w ≤ g) (hg : 1 ≤ g) (hz : g ≤ T.nz) (hy : g ≤ T.ny) (hx : g ≤ T.nx) {dx shift : K} (hdx : 0 < dx) (W : K → K → K → K)
    (F : C3 → K) (v : World C3 C3 K) (hv : ∀ c p, Valid3 T c → Inner3 T g p → v c p = F (globalIx3 T g c p))
    {sched : List Ev} (hs : Finalised3 T g true sched) {nodes : List ((K × K × K) × K)} {addr : List C3}
    (h : Owned3 T dx shift nodes addr) {i : ℕ} {nd : (K × K × K) × K} {c : C3} (hi : nodes[i]? = some nd) (hc : addr[i]? = some c) :
    eulToLag3 T g w dx shift W c (exchange3 T g true v sched c) nd.1 =
      interp3 dx shift w W (fun G => F (wrap3 T G)) nd.1 := by
  obtain ⟨hval, hb⟩ := (h.len hdx (by omega) (by omega) (by omega)).2.2 i nd c hi hc
  rw [eulToLag3_eq]
  unfold interp3
  apply sum_congr rfl
  intro G hG
  have ha := window_inArr3 hw hdx hb hG
  rw [exchange3_global_window_periodic hT hz hy hx true F v hv hs hval ha (Or.inl rfl), global_local3]

/-- **C23 (3D)** Spreading followed by the ghost sum adds to every inner cell, on top of what it held, the contributions of all nodes of
all ranks to that global cell: the result does not depend on the decomposition. Ghost cells are zero afterwards. -/
theorem spread3_decomposition_free {T : Cart3} (hper : T.per = false) {g w : ℕ} (hw : w ≤ g)
    (hgz : g ≤ T.nz) (hgy : g ≤ T.ny) (hgx : g ≤ T.nx) (hnz : 0 < T.nz) (hny : 0 < T.ny) (hnx : 0 < T.nx) {dx shift : K} (hdx : 0 < dx) (W : K → K → K → K)
    {nodes : List ((K × K × K) × K)} {addr : List C3} (h : Owned3 T dx shift nodes addr) (l : C3 → GS3 K) (hl : Clean3 T l)
    (hzero : ∀ c p, Valid3 T c → ¬ Inner3 T g p → (l c).A p = 0) :
    (∀ c p, Valid3 T c → Inner3 T g p →
      (spreadSum3 T g w dx shift W (nodesOf addr nodes) l c).A p =
        (l c).A p + (nodes.map (share3n dx shift w W (globalIx3 T g c p))).sum) ∧
    (∀ c p, ¬ Inner3 T g p → (spreadSum3 T g w dx shift W (nodesOf addr nodes) l c).A p = 0) ∧
    Clean3 T (spreadSum3 T g w dx shift W (nodesOf addr nodes) l) := by
  have hcl : Clean3 T fun c => { l c with A := spread3 T g w dx shift W c (l c).A (nodesOf addr nodes c) } := hl
  have hcor := ghostSum3_correct hgz hgy hgx hcl
  refine ⟨?_, hcor.2.1, hcor.2.2⟩
  intro c p hc hp
  obtain ⟨hlen, haddr, hblk⟩ := h.len hdx hnz hny hnx
  unfold spreadSum3
  rw [ghostSum3_global hper hgz hgy hgx hcl hc hp]
  simp only [spread3_eq, global_local3]
  generalize hG : globalIx3 T g c p = G
  -- nodes of rank `b` reach `G` only inside the array of `b`
  have hin : ∀ b : C3, ¬ InArr3 T g (localIx3 T g b G) →
      ((nodesOf addr nodes b).map (share3n dx shift w W G)).sum = 0 := by
    intro b hb
    apply List.sum_eq_zero
    intro x hx
    obtain ⟨nd, hnd, rfl⟩ := List.mem_map.1 hx
    obtain ⟨i, hi1, hi2⟩ := mem_nodesOf hnd
    unfold share3n
    rw [if_neg]
    intro hmem
    exact hb (window_inArr3 hw hdx (hblk i nd b hi2 hi1).2 hmem)
  have hself : localIx3 T g c G = p := by rw [← hG]; exact local_global3 T g c p
  have hone : ∀ b ∈ Ico (0 : ℤ) T.pz ×ˢ Ico (0 : ℤ) T.py ×ˢ Ico (0 : ℤ) T.px,
      (if InArr3 T g (localIx3 T g b G) then
        (l b).A (localIx3 T g b G) + ((nodesOf addr nodes b).map (share3n dx shift w W G)).sum else 0) =
      (if b = c then (l c).A p else 0) + ((nodesOf addr nodes b).map (share3n dx shift w W G)).sum := by
    intro b hb
    by_cases ha : InArr3 T g (localIx3 T g b G)
    · rw [if_pos ha]
      congr 1
      by_cases hbc : b = c
      · rw [if_pos hbc, hbc, hself]
      · rw [if_neg hbc]
        apply hzero b _ (mem_rankSet3.1 hb)
        intro hinn
        apply hbc
        apply inner_unique3 hp
        rw [hG]; exact hinn
    · rw [if_neg ha, hin b ha, add_zero, if_neg]
      rintro rfl
      apply ha
      rw [hself]
      unfold Inner3 at hp; unfold InArr3; omega
  rw [sum_congr rfl hone, sum_add_distrib, sum_ite_eq' _ c (fun _ => (l c).A p),
    if_pos (show c ∈ Ico (0 : ℤ) T.pz ×ˢ Ico (0 : ℤ) T.py ×ˢ Ico (0 : ℤ) T.px from mem_rankSet3.2 hc)]
  congr 1
  exact nodes_sum (rankSet3 T) _ addr nodes hlen (fun a ha => mem_rankSet3.2 (haddr a ha))

/-- one axis: blocks and inner cells enumerate the global cells -/
theorem sum_axis {M : Type} [AddCommMonoid M] (P n g : ℕ) (f : ℤ → M) :
    (∑ c ∈ Ico (0 : ℤ) P, ∑ i ∈ Ico (g : ℤ) (g + n), f (c * n + i - g)) = ∑ G ∈ Ico (0 : ℤ) (P * n), f G := by
  rw [← sum_product']
  symm
  rcases Nat.eq_zero_or_pos n with hn | hn
  · subst hn; simp
  have q : (0 : ℤ) < n := by exact_mod_cast hn
  apply Finset.sum_bij' (fun (G : ℤ) _ => (G / (n : ℤ), G % (n : ℤ) + (g : ℤ))) (fun (z : ℤ × ℤ) _ => z.1 * n + z.2 - g)
  · intro G hG
    rw [mem_Ico] at hG
    rw [mem_product, mem_Ico, mem_Ico]
    have a1 := Int.emod_nonneg G q.ne'
    have a2 := Int.emod_lt_of_pos G q
    refine ⟨⟨Int.ediv_nonneg hG.1 q.le, ?_⟩, by simp only; omega, by simp only; omega⟩
    rw [Int.ediv_lt_iff_lt_mul q]; exact hG.2
  · intro z hz
    rw [mem_product, mem_Ico, mem_Ico] at hz
    rw [mem_Ico]
    obtain ⟨⟨h1, h2⟩, h3, h4⟩ := hz
    constructor
    · nlinarith
    · have : z.1 + 1 ≤ P := h2
      nlinarith
  · intro G _
    have := Int.ediv_mul_add_emod G n
    simp only; omega
  · intro z hz
    rw [mem_product, mem_Ico, mem_Ico] at hz
    have e : z.1 * (n : ℤ) + z.2 - g = (z.2 - g) + z.1 * n := by ring
    refine Prod.ext ?_ ?_ <;> simp only
    · rw [e, Int.add_mul_ediv_right _ _ q.ne', Int.ediv_eq_zero_of_lt (by omega) (by omega), zero_add]
    · rw [e, Int.add_mul_emod_self_right, Int.emod_eq_of_lt (by omega) (by omega)]; ring
  · intro G _
    have := Int.ediv_mul_add_emod G n
    congr 1
    simp only; omega

/-- sum over ranks and their inner cells = sum over the global grid -/
theorem sum_blocks3 {gz gy gx pz py px : ℕ} {per : Bool} {T : Cart3} (hT : mkCart3 gz gy gx pz py px per = .ok T) (g : ℕ)
    {M : Type} [AddCommMonoid M] (f : C3 → M) :
    (∑ c ∈ rankSet3 T, ∑ p ∈ innerSet3 T g, f (globalIx3 T g c p)) =
      ∑ G ∈ Ico (0 : ℤ) gz ×ˢ Ico (0 : ℤ) gy ×ˢ Ico (0 : ℤ) gx, f G := by
  obtain ⟨e0, e1, e2, -, -, -, -, h0, h1, h2⟩ := construct3_ok hT
  have k0 : (gz : ℤ) = T.pz * T.nz := by rw [← e0, ← h0]; push_cast; ring
  have k1 : (gy : ℤ) = T.py * T.ny := by rw [← e1, ← h1]; push_cast; ring
  have k2 : (gx : ℤ) = T.px * T.nx := by rw [← e2, ← h2]; push_cast; ring
  rw [k0, k1, k2]
  have hplane : ∀ u : C2 → M, (∑ c ∈ rankSet2 (planeOf T), ∑ p ∈ innerSet2 (planeOf T) g,
      u (c.1 * T.ny + p.1 - g, c.2 * T.nx + p.2 - g)) =
      ∑ G ∈ Ico (0 : ℤ) (T.py * T.ny) ×ˢ Ico (0 : ℤ) (T.px * T.nx), u G := by
    intro u
    unfold rankSet2 innerSet2 planeOf
    simp only [sum_product]
    rw [← sum_axis T.py T.ny g]
    apply sum_congr rfl; intro cy _
    rw [sum_comm]
    apply sum_congr rfl; intro iy _
    rw [← sum_axis T.px T.nx g]
  have hr : rankSet3 T = Ico (0 : ℤ) T.pz ×ˢ rankSet2 (planeOf T) := rfl
  have hi : innerSet3 T g = Ico (g : ℤ) (g + T.nz) ×ˢ innerSet2 (planeOf T) g := rfl
  rw [hr, hi]
  simp only [sum_product (s := Ico (0 : ℤ) T.pz), sum_product (s := Ico (g : ℤ) (g + T.nz)),
    sum_product (s := Ico (0 : ℤ) (T.pz * T.nz))]
  rw [← sum_axis T.pz T.nz g]
  apply sum_congr rfl; intro cz _
  rw [sum_comm]
  apply sum_congr rfl; intro iz _
  exact hplane fun G => f (cz * T.nz + iz - g, G.1, G.2)

/-- **C29 (3D)** Spreading node values and interpolating a field are adjoint: the node values paired with the field which the owning
ranks interpolate at the nodes equal the field paired with the spread values over all inner cells, times the cell volume. -/
theorem interp_spread_adjoint3 {gz gy gx pz py px : ℕ} {T : Cart3} (hT : mkCart3 gz gy gx pz py px false = .ok T)
    {g w : ℕ} (hw : w ≤ g) (hg : 1 ≤ g) (hz : g ≤ T.nz) (hy : g ≤ T.ny) (hx : g ≤ T.nx) {dx shift : K} (hdx : 0 < dx) (W : K → K → K → K)
    (F : C3 → K) (v : World C3 C3 K) (hv : ∀ c p, Valid3 T c → Inner3 T g p → v c p = F (globalIx3 T g c p))
    {sched : List Ev} (hs : Finalised3 T g true sched) {nodes : List ((K × K × K) × K)} {addr : List C3}
    (h : Owned3 T dx shift nodes addr) (hwin : ∀ nd ∈ nodes, ∀ G ∈ window3 dx shift w nd.1, InDomain3 T G)
    (l : C3 → GS3 K) (hl : Clean3 T l) (hzero : ∀ c p, Valid3 T c → (l c).A p = 0) :
    ((addr.zip nodes).map fun q =>
        q.2.2 * eulToLag3 T g w dx shift W q.1 (exchange3 T g true v sched q.1) q.2.1).sum =
      dx ^ 3 * innerTotal3 T g (fun c p =>
        v c p * (spreadSum3 T g w dx shift W (nodesOf addr nodes) l c).A p) := by
  have hnz : 0 < T.nz := by omega
  have hny : 0 < T.ny := by omega
  have hnx : 0 < T.nx := by omega
  obtain ⟨e0, e1, e2, -, -, -, hper, -, -, -⟩ := construct3_ok hT
  obtain ⟨hlen, haddr, hblk⟩ := h.len hdx hnz hny hnx
  -- left: interpolation of the global field
  have hleft : ((addr.zip nodes).map fun q =>
        q.2.2 * eulToLag3 T g w dx shift W q.1 (exchange3 T g true v sched q.1) q.2.1) =
      (addr.zip nodes).map fun q => q.2.2 * interp3 dx shift w W F q.2.1 := by
    apply List.map_congr_left
    intro q hq
    obtain ⟨i, hi⟩ := List.mem_iff_getElem?.1 hq
    rw [List.getElem?_zip_eq_some] at hi
    have hmem : q.2 ∈ nodes := List.mem_iff_getElem?.2 ⟨i, hi.2⟩
    rw [interp3_decomposition_free hT hw hg hz hy hx hdx W F v hv hs h hi.2 hi.1 (hwin q.2 hmem)]
  have hzip : ((addr.zip nodes).map fun q => q.2.2 * interp3 dx shift w W F q.2.1) =
      nodes.map fun nd => nd.2 * interp3 dx shift w W F nd.1 := by
    have : nodes = (addr.zip nodes).map Prod.snd := by rw [List.map_snd_zip (by omega)]
    conv_rhs => rw [this, List.map_map]
    rfl
  rw [hleft, hzip]
  -- right
  have hright : innerTotal3 T g (fun c p =>
        v c p * (spreadSum3 T g w dx shift W (nodesOf addr nodes) l c).A p) =
      ∑ c ∈ rankSet3 T, ∑ p ∈ innerSet3 T g,
        F (globalIx3 T g c p) * (nodes.map (share3n dx shift w W (globalIx3 T g c p))).sum := by
    unfold innerTotal3
    apply sum_congr rfl; intro c hc
    apply sum_congr rfl; intro p hp
    rw [mem_rankSet3] at hc
    rw [mem_innerSet3] at hp
    simp only
    rw [hv c p hc hp, (spread3_decomposition_free hper hw hz hy hx hnz hny hnx hdx W h l hl (fun c p hc _ => hzero c p hc)).1 c p hc hp,
      hzero c p hc, zero_add]
  rw [hright, sum_blocks3 hT g (fun G => F G * (nodes.map (share3n dx shift w W G)).sum)]
  simp only [← List.sum_map_mul_left]
  rw [list_sum_swap (Ico (0 : ℤ) gz ×ˢ Ico (0 : ℤ) gy ×ˢ Ico (0 : ℤ) gx) nodes (fun nd G => F G * share3n dx shift w W G nd),
    ← List.sum_map_mul_left]
  congr 1
  apply List.map_congr_left
  intro nd hnd
  unfold interp3
  rw [mul_sum, mul_sum]
  have hsub : window3 dx shift w nd.1 ⊆ Ico (0 : ℤ) gz ×ˢ Ico (0 : ℤ) gy ×ˢ Ico (0 : ℤ) gx := by
    intro G hG
    have := hwin nd hnd G hG
    unfold InDomain3 at this
    rw [mem_product, mem_product, mem_Ico, mem_Ico, mem_Ico, ← e0, ← e1, ← e2]; tauto
  rw [← sum_subset hsub (f := fun G => dx ^ 3 * (F G * share3n dx shift w W G nd))]
  · apply sum_congr rfl
    intro G hG
    unfold share3n
    rw [if_pos hG]; ring
  · intro G _ hG
    unfold share3n
    rw [if_neg hG]; ring

end D3

/-! ## The hypotheses can be met -/

/-- Two ranks stacked along y, ghost size 2, a node just below the boundary between them: its window covers rows of both ranks. -/
example : ∃ T : Cart2, mkCart2 8 8 2 1 false = .ok T ∧ (2 ≤ T.ny ∧ 2 ≤ T.nx) ∧
    Owned2 T (1 : ℚ) 0 [((4, 7/2), 3), ((7/2, 9/2), 1)] [(0, 0), (1, 0)] ∧
    (∀ nd ∈ [(((4 : ℚ), (7/2 : ℚ)), (3 : ℚ)), ((7/2, 9/2), 1)], ∀ G ∈ window2 (1 : ℚ) 0 2 nd.1, InDomain2 T G) ∧
    (3, 4) ∈ window2 (1 : ℚ) 0 2 (4, 7/2) ∧ (4, 4) ∈ window2 (1 : ℚ) 0 2 (4, 7/2) := by
  have f1 : ⌊(4 : ℚ)⌋ = 4 := by norm_num
  have f2 : ⌊(7/2 : ℚ)⌋ = 3 := by norm_num [Int.floor_eq_iff]
  have f3 : ⌊(9/2 : ℚ)⌋ = 4 := by norm_num [Int.floor_eq_iff]
  refine ⟨⟨8, 8, 2, 1, 4, 8, false⟩, rfl, by decide, ⟨?_, ?_⟩, ?_, ?_, ?_⟩
  · have h1 : truncZ (((4:ℚ) - 0) / (1 * (8:ℕ))) = 0 := by norm_num [truncZ, Int.floor_eq_iff]
    have h2 : truncZ (((7:ℚ)/2 - 0) / (1 * (4:ℕ))) = 0 := by norm_num [truncZ, Int.floor_eq_iff]
    have h3 : truncZ (((7:ℚ)/2 - 0) / (1 * (8:ℕ))) = 0 := by norm_num [truncZ, Int.floor_eq_iff]
    have h4 : truncZ (((9:ℚ)/2 - 0) / (1 * (4:ℕ))) = 1 := by norm_num [truncZ, Int.floor_eq_iff]
    simp only [rankAddress2, subblock2, List.map_cons, List.map_nil, h1, h2, h3, h4]
    rfl
  · intro nd hnd
    simp only [List.mem_cons, List.not_mem_nil, or_false] at hnd
    rcases hnd with rfl | rfl <;> norm_num [InPhysDomain]
  · intro nd hnd G hG
    simp only [List.mem_cons, List.not_mem_nil, or_false] at hnd
    rcases hnd with rfl | rfl <;>
      simp only [window2, winCells, cellOf, mem_product, mem_Ioc, sub_zero, div_one, f1, f2, f3] at hG <;>
      unfold InDomain2 <;> simp only <;> omega
  · simp [window2, winCells, cellOf, f1, f2]
  · simp [window2, winCells, cellOf, f1, f2]

/-- The same in 3D, two ranks along z. -/
example : ∃ T : Cart3, mkCart3 8 8 8 2 1 1 false = .ok T ∧ (2 ≤ T.nz ∧ 2 ≤ T.ny ∧ 2 ≤ T.nx) ∧
    Owned3 T (1 : ℚ) 0 [((4, 4, 7/2), 3), ((4, 7/2, 9/2), 1)] [(0, 0, 0), (1, 0, 0)] ∧
    (∀ nd ∈ [(((4 : ℚ), (4 : ℚ), (7/2 : ℚ)), (3 : ℚ)), ((4, 7/2, 9/2), 1)],
      ∀ G ∈ window3 (1 : ℚ) 0 2 nd.1, InDomain3 T G) := by
  have f1 : ⌊(4 : ℚ)⌋ = 4 := by norm_num
  have f2 : ⌊(7/2 : ℚ)⌋ = 3 := by norm_num [Int.floor_eq_iff]
  have f3 : ⌊(9/2 : ℚ)⌋ = 4 := by norm_num [Int.floor_eq_iff]
  refine ⟨⟨8, 8, 8, 2, 1, 1, 4, 8, 8, false⟩, rfl, by decide, ⟨?_, ?_⟩, ?_⟩
  · have h1 : truncZ (((4:ℚ) - 0) / (1 * (8:ℕ))) = 0 := by norm_num [truncZ, Int.floor_eq_iff]
    have h2 : truncZ (((7:ℚ)/2 - 0) / (1 * (4:ℕ))) = 0 := by norm_num [truncZ, Int.floor_eq_iff]
    have h3 : truncZ (((7:ℚ)/2 - 0) / (1 * (8:ℕ))) = 0 := by norm_num [truncZ, Int.floor_eq_iff]
    have h4 : truncZ (((9:ℚ)/2 - 0) / (1 * (4:ℕ))) = 1 := by norm_num [truncZ, Int.floor_eq_iff]
    simp only [rankAddress3, subblock3, List.map_cons, List.map_nil, h1, h2, h3, h4]
    rfl
  · intro nd hnd
    simp only [List.mem_cons, List.not_mem_nil, or_false] at hnd
    rcases hnd with rfl | rfl <;> norm_num [InPhysDomain]
  · intro nd hnd G hG
    simp only [List.mem_cons, List.not_mem_nil, or_false] at hnd
    rcases hnd with rfl | rfl <;>
      simp only [window3, winCells, cellOf, mem_product, mem_Ioc, sub_zero, div_one, f1, f2, f3] at hG <;>
      unfold InDomain3 <;> simp only <;> omega

end Sopht
