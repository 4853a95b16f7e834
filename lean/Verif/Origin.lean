import Verif.Sim2DGlobalLemmas
import Verif.Sim3DGlobalLemmas

/-!
# The origin of the output grid

The examples compute the origin handed to `MPIIO.define_eulerian_grid` from the positions of the cells
(`flow_sim.mpi_construct.grid.allreduce(flow_sim.position_field[axis, g:-g, …].min(), op=MPI.MIN)`;
examples/2d_examples/FlowPastRodCase/flow_past_rod.py:147-163, examples/3d_examples/FlowPastSphereCase/flow_past_sphere_case.py:88-115,
examples/3d_examples/PointSourceAdvectAndDiffuseCase/point_source_advection_diffusion.py:70-96).
-/

namespace Sopht

/-- `a.min()` of an array given by the list of its elements: ValueError if there are none. -/
noncomputable def amin : List ℝ → Except PyErr ℝ
  | [] => .error .valueError
  | a :: l => .ok (l.foldl min a)

/-- `origin_x` (axis 0) and `origin_y` (axis 1) in 2D (flow_past_rod.py:147-162). -/
noncomputable def ioOrigin2 (T : Cart2) (g : ℕ) (xr : ℝ) (k : Fin 2) : Except PyErr ℝ :=
  allreduce min (ranks2 T) fun c => amin (innerElems2 T g (position2 T g xr c k))

/-- `origin_x`, `origin_y`, `origin_z` in 3D (flow_past_sphere_case.py:88-114, point_source_advection_diffusion.py:70-95). -/
noncomputable def ioOrigin3 (T : Cart3) (g : ℕ) (xr : ℝ) (k : Fin 3) : Except PyErr ℝ :=
  allreduce min (ranks3 T) fun c => amin ((innerCells3 T g).map (position3 T g xr c k))

/-- The indices of `a[gs:-gs, gs:-gs]` for a 3D array: the third axis is not cut. -/
def zyCells3 (T : Cart3) (g : ℕ) : List C3 :=
  (rangeOf (innerR T.nz g)).flatMap fun i => (rangeOf (innerR T.ny g)).flatMap fun j => (rangeOf (0, (T.nx + 2 * g : ℕ))).map fun k => (i, j, k)

/-- `origin_x` (axis 0) and `origin_y` (axis 1) in the rod examples in 3D: only two of the three axes are cut
(examples/3d_examples/FlowPastRodCase/flow_past_rod_case.py:150-165, FlowPastFreelyRotatingRodCase/flow_past_freely_rotating_rod_case.py:154-169). -/
noncomputable def rodOrigin3 (T : Cart3) (g : ℕ) (xr : ℝ) (k : Fin 3) : Except PyErr ℝ :=
  allreduce min (ranks3 T) fun c => amin ((zyCells3 T g).map (position3 T g xr c k))

theorem amin_ok {l : List ℝ} (h : l ≠ []) : ∃ m, amin l = .ok m ∧ IsLeast {x | x ∈ l} m := by
  cases l with
  | nil => exact absurd rfl h
  | cons a l =>
    obtain ⟨h1, h2, h3⟩ := foldl_min_le l a
    refine ⟨_, rfl, ?_, ?_⟩
    · rcases h3 with h3 | h3
      · rw [h3]; exact List.mem_cons_self
      · exact List.mem_cons_of_mem _ h3
    · intro x hx
      rcases List.mem_cons.1 hx with rfl | hx
      · exact h1
      · exact h2 x hx

/-- the smallest element of all arrays -/
theorem allreduce_amin {R : Type} {rs : List R} {L : R → List ℝ} (hL : ∀ r ∈ rs, L r ≠ []) {m : ℝ} (hm : ∃ r ∈ rs, m ∈ L r) (hle : ∀ r ∈ rs, ∀ x ∈ L r, m ≤ x) :
    allreduce min rs (fun r => amin (L r)) = .ok m := by
  obtain ⟨r0, hr0, hm0⟩ := hm
  choose y hy using fun r => fun h : L r ≠ [] => amin_ok h
  have hy' : ∀ r ∈ rs, amin (L r) = .ok (if h : L r ≠ [] then y r h else 0) := by
    intro r hr
    rw [dif_pos (hL r hr)]
    exact (hy r (hL r hr)).1
  obtain ⟨v, hv, hlv⟩ := allreduce_min (List.ne_nil_of_mem hr0) hy'
  rw [hv]
  congr 1
  apply le_antisymm
  · have h1 := hlv.2 ⟨r0, hr0, rfl⟩
    rw [dif_pos (hL r0 hr0)] at h1
    exact h1.trans ((hy r0 (hL r0 hr0)).2.2 hm0)
  · obtain ⟨r, hr, e⟩ := hlv.1
    rw [dif_pos (hL r hr)] at e
    rw [e]
    exact hle r hr _ (hy r (hL r hr)).2.1

/-! ## 2D -/

/-- C101 (2D): on every decomposition, `origin_x` and `origin_y` are the centre of the first cell, `dx / 2`; so every value written for an inner cell is at
`origin + dx * index` exactly where the cell is, `index` being the place of the value in the data set (C47). -/
theorem ioOrigin2_spec {gy gx py px : ℕ} {per : Bool} {T : Cart2} (hT : mkCart2 gy gx py px per = .ok T) (h0 : 0 < gy ∧ 0 < gx) {g : ℕ} (hg : 1 ≤ g) {xr : ℝ} (hxr : 0 < xr) (k : Fin 2) :
    ioOrigin2 T g xr k = .ok (xr / gx / 2) ∧
      ∀ c p, Valid2 T c → Inner2 T g p →
        position2 T g xr c 0 p = xr / gx / 2 + xr / gx * (globalIx2 T g c p).2 ∧ position2 T g xr c 1 p = xr / gx / 2 + xr / gx * (globalIx2 T g c p).1 := by
  obtain ⟨e1, e2, -⟩ := construct2_ok hT
  have hdx : 0 < xr / gx := div_pos hxr (by exact_mod_cast h0.2)
  have pos : ∀ c p, Inner2 T g p →
      position2 T g xr c 0 p = xr / gx / 2 + xr / gx * (globalIx2 T g c p).2 ∧ position2 T g xr c 1 p = xr / gx / 2 + xr / gx * (globalIx2 T g c p).1 := by
    intro c p hp
    obtain ⟨h1, h2⟩ := position2_cells T g xr c (inArr_of_inner2 hp)
    rw [h1, h2, e2]
    constructor <;> ring
  refine ⟨?_, fun c p _ hp => pos c p hp⟩
  obtain ⟨c0, p0, hc0, hp0, hG⟩ := domain_owned2 hT g (G := (0, 0)) (by refine ⟨?_, ?_, ?_, ?_⟩ <;> simp <;> omega)
  unfold ioOrigin2
  refine allreduce_amin ?_ ⟨c0, mem_ranks2.2 hc0, mem_innerElems2.2 ⟨hg, p0, hp0, ?_⟩⟩ ?_
  · intro c _
    exact List.ne_nil_of_mem (mem_innerElems2.2 ⟨hg, p0, hp0, rfl⟩)
  · obtain ⟨q0, q1⟩ := pos c0 p0 hp0
    rw [hG] at q0 q1
    match k with
    | 0 => rw [q0]; simp
    | 1 => rw [q1]; simp
  · intro c hc x hx
    obtain ⟨-, p, hp, rfl⟩ := mem_innerElems2.1 hx
    obtain ⟨q0, q1⟩ := pos c p hp
    obtain ⟨d1, d2, d3, d4⟩ := inner_inDomain2 hT (mem_ranks2.1 hc) hp
    match k with
    | 0 =>
      rw [q0]
      have : (0 : ℝ) ≤ (globalIx2 T g c p).2 := by exact_mod_cast d3
      have := mul_nonneg hdx.le this
      linarith
    | 1 =>
      rw [q1]
      have : (0 : ℝ) ≤ (globalIx2 T g c p).1 := by exact_mod_cast d1
      have := mul_nonneg hdx.le this
      linarith

/-! ## 3D -/

/-- Coordinate `k` of a cell: x is the last index. -/
def axisIx3 (k : Fin 3) (G : C3) : ℤ := ![G.2.2, G.2.1, G.1] k

theorem position3_axis {T : Cart3} {g : ℕ} {xr : ℝ} {c p : C3} (hp : InArr3 T g p) (k : Fin 3) :
    position3 T g xr c k p = xr / T.gx / 2 + xr / T.gx * axisIx3 k (globalIx3 T g c p) := by
  obtain ⟨h1, h2, h3⟩ := position3_cells T g xr c hp
  match k with
  | 0 => rw [h1]; simp only [axisIx3, Matrix.cons_val_zero]; ring
  | 1 => rw [h2]; simp only [axisIx3, Matrix.cons_val_one, Matrix.cons_val_zero]; ring
  | 2 => rw [h3]; simp only [axisIx3, Matrix.cons_val]; ring

/-- C101 (3D): on every decomposition, the origin computed by the sphere and point source examples is the centre of the first cell, `dx / 2` on each axis; so every value
written for an inner cell is at `origin + dx * index`. -/
theorem ioOrigin3_spec {gz gy gx pz py px : ℕ} {per : Bool} {T : Cart3} (hT : mkCart3 gz gy gx pz py px per = .ok T) (h0 : 0 < gz ∧ 0 < gy ∧ 0 < gx) {g : ℕ} (hg : 1 ≤ g) {xr : ℝ}
    (hxr : 0 < xr) (k : Fin 3) :
    ioOrigin3 T g xr k = .ok (xr / gx / 2) ∧
      ∀ c p, Valid3 T c → Inner3 T g p → position3 T g xr c k p = xr / gx / 2 + xr / gx * axisIx3 k (globalIx3 T g c p) := by
  obtain ⟨e0, e1, e2, -⟩ := construct3_ok hT
  have hdx : 0 < xr / gx := div_pos hxr (by exact_mod_cast h0.2.2)
  have pos : ∀ c p, Inner3 T g p → position3 T g xr c k p = xr / gx / 2 + xr / gx * axisIx3 k (globalIx3 T g c p) := by
    intro c p hp
    rw [position3_axis (inArr_of_inner3 hp), e2]
  refine ⟨?_, fun c p _ hp => pos c p hp⟩
  obtain ⟨c0, p0, hc0, hp0, hG⟩ := domain_owned3 hT g (G := (0, 0, 0)) (by refine ⟨?_, ?_, ?_, ?_, ?_, ?_⟩ <;> simp <;> omega)
  unfold ioOrigin3
  refine allreduce_amin ?_ ⟨c0, mem_ranks3.2 hc0, List.mem_map.2 ⟨p0, mem_innerCells3.2 ⟨hg, hp0⟩, ?_⟩⟩ ?_
  · intro c _
    exact List.ne_nil_of_mem (List.mem_map.2 ⟨p0, mem_innerCells3.2 ⟨hg, hp0⟩, rfl⟩)
  · rw [pos c0 p0 hp0, hG]
    match k with
    | 0 => simp [axisIx3]
    | 1 => simp [axisIx3]
    | 2 => simp [axisIx3]
  · intro c hc x hx
    obtain ⟨p, hp, rfl⟩ := List.mem_map.1 hx
    have hp' := (mem_innerCells3.1 hp).2
    rw [pos c p hp']
    obtain ⟨d1, d2, d3, d4, d5, d6⟩ := inner_inDomain3 hT (mem_ranks3.1 hc) hp'
    have : (0 : ℝ) ≤ axisIx3 k (globalIx3 T g c p) := by
      match k with
      | 0 => exact_mod_cast d5
      | 1 => exact_mod_cast d3
      | 2 => exact_mod_cast d1
    have := mul_nonneg hdx.le this
    linarith

theorem mem_zyCells3 {T : Cart3} {g : ℕ} {p : C3} :
    p ∈ zyCells3 T g ↔ 1 ≤ g ∧ (g : ℤ) ≤ p.1 ∧ p.1 < g + T.nz ∧ (g : ℤ) ≤ p.2.1 ∧ p.2.1 < g + T.ny ∧ 0 ≤ p.2.2 ∧ p.2.2 < T.nx + 2 * g := by
  obtain ⟨i, j, k⟩ := p
  have hr : ∀ k : ℤ, k ∈ rangeOf (0, ((T.nx + 2 * g : ℕ) : ℤ)) ↔ 0 ≤ k ∧ k < T.nx + 2 * g := by
    intro k
    unfold rangeOf
    simp only [List.mem_map, mem_irange]
    constructor
    · rintro ⟨a, ha, rfl⟩; push_cast at *; omega
    · intro h; exact ⟨k, by push_cast; omega, by simp⟩
  unfold zyCells3
  simp only [List.mem_flatMap, List.mem_map, mem_rangeOf_inner, hr, Prod.mk.injEq]
  constructor
  · rintro ⟨a, ha, b, hb, d, hd, rfl, rfl, rfl⟩
    omega
  · rintro ⟨h1, h2, h3, h4, h5, h6, h7⟩
    exact ⟨i, ⟨h1, h2, h3⟩, j, ⟨h1, h4, h5⟩, k, ⟨h6, h7⟩, rfl, rfl, rfl⟩

/-- C101 (3D, negative): the rod examples leave the ghost cells in on the x axis, so their `origin_x` is the centre of the outermost ghost cell: everything they write
appears shifted by `ghost_size` cells in x. `origin_y` is right. -/
theorem rodOrigin3_shifted {gz gy gx pz py px : ℕ} {per : Bool} {T : Cart3} (hT : mkCart3 gz gy gx pz py px per = .ok T) (h0 : 0 < gz ∧ 0 < gy ∧ 0 < gx) {g : ℕ} (hg : 1 ≤ g) {xr : ℝ}
    (hxr : 0 < xr) :
    rodOrigin3 T g xr 0 = .ok (xr / gx / 2 - g * (xr / gx)) ∧ rodOrigin3 T g xr 1 = .ok (xr / gx / 2) ∧
      ∀ c p, Valid3 T c → Inner3 T g p → position3 T g xr c 0 p = (xr / gx / 2 - g * (xr / gx)) + xr / gx * axisIx3 0 (globalIx3 T g c p) + g * (xr / gx) := by
  obtain ⟨e0, e1, e2, -⟩ := construct3_ok hT
  have hdx : 0 < xr / gx := div_pos hxr (by exact_mod_cast h0.2.2)
  have hin : ∀ p, p ∈ zyCells3 T g → InArr3 T g p := by
    intro p hp
    obtain ⟨h1, h2, h3, h4, h5, h6, h7⟩ := mem_zyCells3.1 hp
    unfold InArr3
    omega
  have pos : ∀ c p (k : Fin 3), p ∈ zyCells3 T g → position3 T g xr c k p = xr / gx / 2 + xr / gx * axisIx3 k (globalIx3 T g c p) := by
    intro c p k hp
    rw [position3_axis (hin p hp), e2]
  obtain ⟨c0, p0, hc0, hp0, hG⟩ := domain_owned3 hT g (G := (0, 0, 0)) (by refine ⟨?_, ?_, ?_, ?_, ?_, ?_⟩ <;> simp <;> omega)
  obtain ⟨u1, u2, u3, u4, u5, u6⟩ := hp0
  -- the rank that owns the first cell has x coordinate 0, and its first cell along x is a ghost cell
  have hq : ((p0.1, p0.2.1, 0) : C3) ∈ zyCells3 T g := mem_zyCells3.2 ⟨hg, u1, u2, u3, u4, le_rfl, by simp only; omega⟩
  have hp0' : p0 ∈ zyCells3 T g := mem_zyCells3.2 ⟨hg, u1, u2, u3, u4, by omega, by omega⟩
  have hv := hc0
  obtain ⟨v1, v2, v3, v4, v5, v6⟩ := hv
  unfold globalIx3 at hG
  simp only [Prod.mk.injEq] at hG
  obtain ⟨G1, G2, G3⟩ := hG
  have hc3 : c0.2.2 * T.nx = 0 := by
    have : 0 ≤ c0.2.2 * (T.nx : ℤ) := mul_nonneg v5 (by omega)
    omega
  refine ⟨?_, ?_, ?_⟩
  · unfold rodOrigin3
    refine allreduce_amin ?_ ⟨c0, mem_ranks3.2 hc0, List.mem_map.2 ⟨_, hq, ?_⟩⟩ ?_
    · intro c _
      exact List.ne_nil_of_mem (List.mem_map.2 ⟨_, hq, rfl⟩)
    · rw [pos c0 _ 0 hq]
      simp only [axisIx3, globalIx3, Matrix.cons_val_zero]
      rw [hc3]
      push_cast; ring
    · intro c hc x hx
      obtain ⟨p, hp, rfl⟩ := List.mem_map.1 hx
      rw [pos c p 0 hp]
      obtain ⟨-, -, -, -, -, h6, -⟩ := mem_zyCells3.1 hp
      obtain ⟨-, -, -, -, w5, -⟩ := mem_ranks3.1 hc
      have hi : -(g : ℤ) ≤ axisIx3 0 (globalIx3 T g c p) := by
        simp only [axisIx3, globalIx3, Matrix.cons_val_zero]
        have : 0 ≤ c.2.2 * (T.nx : ℤ) := mul_nonneg w5 (by omega)
        omega
      have : (-(g : ℝ)) ≤ axisIx3 0 (globalIx3 T g c p) := by exact_mod_cast hi
      nlinarith
  · unfold rodOrigin3
    refine allreduce_amin ?_ ⟨c0, mem_ranks3.2 hc0, List.mem_map.2 ⟨_, hp0', ?_⟩⟩ ?_
    · intro c _
      exact List.ne_nil_of_mem (List.mem_map.2 ⟨_, hq, rfl⟩)
    · rw [pos c0 _ 1 hp0']
      simp only [axisIx3, globalIx3, Matrix.cons_val_one, Matrix.cons_val_zero]
      rw [G2]; simp
    · intro c hc x hx
      obtain ⟨p, hp, rfl⟩ := List.mem_map.1 hx
      rw [pos c p 1 hp]
      obtain ⟨-, -, -, h4, -⟩ := mem_zyCells3.1 hp
      obtain ⟨-, -, w3, -⟩ := mem_ranks3.1 hc
      have hi : (0 : ℤ) ≤ axisIx3 1 (globalIx3 T g c p) := by
        simp only [axisIx3, globalIx3, Matrix.cons_val_one, Matrix.cons_val_zero]
        have : 0 ≤ c.2.1 * (T.ny : ℤ) := mul_nonneg w3 (by omega)
        omega
      have : (0 : ℝ) ≤ axisIx3 1 (globalIx3 T g c p) := by exact_mod_cast hi
      have := mul_nonneg hdx.le this
      linarith
  · intro c p _ hp
    rw [position3_axis (inArr_of_inner3 hp), e2]; ring

/-- four cells on a side, ghost cells of width 2, two ranks along x: the output of the rod examples starts at -1.5 instead of 0.5 -/
example : rodOrigin3 ⟨4, 4, 4, 1, 1, 2, 4, 4, 2, false⟩ 2 4 0 = .ok (-1.5) ∧ ioOrigin3 ⟨4, 4, 4, 1, 1, 2, 4, 4, 2, false⟩ 2 4 0 = .ok 0.5 := by
  have hT : mkCart3 4 4 4 1 1 2 false = .ok ⟨4, 4, 4, 1, 1, 2, 4, 4, 2, false⟩ := by rfl
  have h1 := (rodOrigin3_shifted hT (by norm_num) (g := 2) (by norm_num) (xr := 4) (by norm_num)).1
  have h2 := (ioOrigin3_spec hT (by norm_num) (g := 2) (by norm_num) (xr := 4) (by norm_num) 0).1
  rw [h1, h2]
  norm_num

end Sopht
