import Verif.FieldCommLemmas
import Mathlib.Data.Fintype.Basic
import Mathlib.Data.List.Dedup

/-! # C13, C14: scatter and gather of global fields -/

namespace Sopht

variable {α : Type}

theorem mul_add_ediv {a n b : ℤ} (h0 : 0 ≤ b) (h1 : b < n) : (a * n + b) / n = a ∧ (a * n + b) % n = b := by
  have hp : 0 < n := by omega
  constructor
  · rw [add_comm, Int.add_mul_ediv_right _ _ hp.ne', Int.ediv_eq_zero_of_lt h0 h1]; omega
  · rw [add_comm, Int.add_mul_emod_self_right, Int.emod_eq_of_lt h0 h1]

section D2
variable {T : Cart2} {g : ℕ}

/-- the gathered field, decoded from flat offsets (helper) -/
private def gathered2 (T : Cart2) (g : ℕ) (w : World C2 ℤ α) (i : ℤ) : α :=
  w (i / T.gx / T.ny, i % T.gx / T.nx) (flat2 T g (g + i / T.gx % T.ny, g + i % T.gx % T.nx))

private theorem gathered2_at (hY : T.py * T.ny = T.gy) (hX : T.px * T.nx = T.gx) (w : World C2 ℤ α) {c p : C2}
    (hc : Valid2 T c) (hp : p ∈ rect T.ny T.nx) :
    gathered2 T g w (gflat2 T (c.1 * T.ny + p.1, c.2 * T.nx + p.2)) = w c (flat2 T g (g + p.1, g + p.2)) := by
  rw [mem_rect] at hp
  obtain ⟨p1, p2, p3, p4⟩ := hp
  obtain ⟨c1, c2, c3, c4⟩ := hc
  have hX' : (T.px : ℤ) * T.nx = T.gx := by exact_mod_cast hX
  have hnx : (0 : ℤ) ≤ T.nx := Int.natCast_nonneg _
  have e := mul_add_ediv (a := c.1 * T.ny + p.1) (n := T.gx) (b := c.2 * T.nx + p.2) (by nlinarith) (by nlinarith)
  have ey := mul_add_ediv (a := c.1) p1 p2
  have ex := mul_add_ediv (a := c.2) p3 p4
  simp only [gathered2, gflat2]
  rw [e.1, e.2, ey.1, ey.2, ex.1, ex.2]

/-- C14 (2D): after `gather_local_scalar_field` the master's global field holds at every cell of the global grid the inner value
of the rank that owns the cell, whatever it held before and in whatever order the ranks were visited. -/
theorem gather2_correct {gy gx py px : ℕ} {per : Bool} (hT : mkCart2 gy gx py px per = .ok T) (g : ℕ) {m : C2}
    (hm : Valid2 T m) {order : List C2} (ho : SlaveOrder2 T m order) (w : World C2 ℤ α) (Gf : ℤ → α)
    {c G : C2} (hc : Valid2 T c) (hG : InBlock2 T c G) :
    gather2 T g m order w Gf (gflat2 T G) = w c (flat2 T g (G.1 - c.1 * T.ny + g, G.2 - c.2 * T.nx + g)) := by
  obtain ⟨-, -, -, -, -, hY, hX⟩ := construct2_ok hT
  obtain ⟨g1, g2, g3, g4⟩ := hG
  set p : C2 := (G.1 - c.1 * T.ny, G.2 - c.2 * T.nx) with hpdef
  have hp : p ∈ rect T.ny T.nx := by rw [mem_rect]; simp only [hpdef]; omega
  have hGe : gflat2 T G = gflat2 T (c.1 * T.ny + p.1, c.2 * T.nx + p.2) := by
    congr 1; refine Prod.ext ?_ ?_ <;> simp only [hpdef] <;> ring
  have hgoal : w c (flat2 T g (G.1 - c.1 * T.ny + g, G.2 - c.2 * T.nx + g)) = gathered2 T g w (gflat2 T G) := by
    rw [hGe, gathered2_at hY hX w hc hp]
    congr 2; refine Prod.ext ?_ ?_ <;> simp only [hpdef] <;> ring
  have agree : ∀ r, Valid2 T r → ∀ ix ix' : List ℤ,
      ix = (rect T.ny T.nx).map (fun p => gflat2 T (r.1 * T.ny + p.1, r.2 * T.nx + p.2)) →
      ix' = (rect T.ny T.nx).map (fun p => flat2 T g (g + p.1, g + p.2)) →
      ix.length = (ix'.map (w r)).length ∧ ∀ q ∈ ix.zip (ix'.map (w r)), gathered2 T g w q.1 = q.2 := by
    rintro r hr _ _ rfl rfl
    refine ⟨by simp, ?_⟩
    intro q hq
    rw [List.map_map, List.zip_map', List.mem_map] at hq
    obtain ⟨x, hx, rfl⟩ := hq
    exact gathered2_at hY hX w hr hx
  rw [hgoal]
  unfold gather2
  refine foldl_unpack_agree order (masterBuf2 T) (fun r => (slaveBuf2 T g).map (w r)) _ _
    (fun r hr => (agree r ((ho.2 r).1 hr).1 _ _ (masterBuf2_eq hY hX ((ho.2 r).1 hr).1) slaveBuf2_eq).1)
    (fun r hr => (agree r ((ho.2 r).1 hr).1 _ _ (masterBuf2_eq hY hX ((ho.2 r).1 hr).1) slaveBuf2_eq).2) _ ?_
  by_cases hcm : c = m
  · right
    have := agree m hm _ _ (chunkIx2_eq hY hX hm) innerIx2_eq
    refine unpack_agree _ _ _ _ _ this.1 this.2 ?_
    rw [chunkIx2_eq hY hX hm, List.mem_map]
    exact ⟨p, hp, by rw [hGe, hcm]⟩
  · left
    refine ⟨c, (ho.2 c).2 ⟨hc, hcm⟩, ?_⟩
    rw [masterBuf2_eq hY hX hc, List.mem_map]
    exact ⟨p, hp, hGe.symm⟩

/-- C13 (2D): after `scatter_global_scalar_field` every rank's inner cells hold its block of the master's global field and its
ghost cells (indeed everything else) are as before. -/
theorem scatter2_correct {gy gx py px : ℕ} {per : Bool} (hT : mkCart2 gy gx py px per = .ok T) (g : ℕ) {m : C2}
    (hm : Valid2 T m) {order : List C2} (ho : SlaveOrder2 T m order) (Gf : ℤ → α) (w : World C2 ℤ α)
    {c p : C2} (hc : Valid2 T c) (hp : InArr2 T g p) :
    (Inner2 T g p → scatter2 T g m order Gf w c (flat2 T g p) = Gf (gflat2 T (globalIx2 T g c p))) ∧
    (¬ Inner2 T g p → scatter2 T g m order Gf w c (flat2 T g p) = w c (flat2 T g p)) := by
  obtain ⟨-, -, -, -, -, hY, hX⟩ := construct2_ok hT
  have hres : scatter2 T g m order Gf w c
      = unpack (w c) ((rect T.ny T.nx).map fun p => flat2 T g (g + p.1, g + p.2))
          (((rect T.ny T.nx).map fun p => gflat2 T (c.1 * T.ny + p.1, c.2 * T.nx + p.2)).map Gf) := by
    unfold scatter2
    rw [foldl_setRank order (fun r A => unpack A (slaveBuf2 T g) ((masterBuf2 T r).map Gf)) _ ho.1 c]
    by_cases hcm : c = m
    · subst hcm
      rw [if_neg (fun h => ((ho.2 c).1 h).2 rfl)]
      simp only [setRank, Function.update_self]
      rw [innerIx2_eq, chunkIx2_eq hY hX hm]
    · rw [if_pos ((ho.2 c).2 ⟨hc, hcm⟩)]
      simp only [setRank, Function.update_of_ne hcm]
      rw [slaveBuf2_eq, masterBuf2_eq hY hX hc]
  obtain ⟨p1, p2, p3, p4⟩ := hp
  have hw : p.2 < cols2 T g := p4
  rw [hres]
  constructor
  · rintro ⟨i1, i2, i3, i4⟩
    have key := unpack_agree (w c)
      (fun i => Gf (gflat2 T (globalIx2 T g c (i / cols2 T g, i % cols2 T g))))
      ((rect T.ny T.nx).map fun p => flat2 T g (g + p.1, g + p.2))
      (((rect T.ny T.nx).map fun p => gflat2 T (c.1 * T.ny + p.1, c.2 * T.nx + p.2)).map Gf) (flat2 T g p)
      (by simp) ?_ ?_
    · rw [key]
      have := flat2_div (T := T) (g := g) p3 hw
      simp only [this.1, this.2]
    · intro q hq
      rw [List.map_map, List.zip_map', List.mem_map] at hq
      obtain ⟨x, hx, rfl⟩ := hq
      rw [mem_rect] at hx
      have hxw : (g : ℤ) + x.2 < cols2 T g := by unfold cols2; omega
      have := flat2_div (T := T) (g := g) (p := (g + x.1, g + x.2)) (by simp only; omega) hxw
      simp only [this.1, this.2, Function.comp]
      congr 2
      unfold globalIx2
      refine Prod.ext ?_ ?_ <;> simp only <;> ring
    · rw [List.mem_map]
      refine ⟨(p.1 - g, p.2 - g), ?_, ?_⟩
      · rw [mem_rect]; simp only; omega
      · congr 1; refine Prod.ext ?_ ?_ <;> simp only <;> ring
  · intro hn
    apply unpack_of_notMem
    rw [List.mem_map]
    rintro ⟨x, hx, he⟩
    rw [mem_rect] at hx
    have hxw : (g : ℤ) + x.2 < cols2 T g := by unfold cols2; omega
    have := flat2_inj (T := T) (g := g) (p := (g + x.1, g + x.2)) (q := p) (by simp only; omega) hxw p3 hw he
    apply hn
    rw [← this]
    unfold Inner2
    simp only; omega

/-- C14 (2D): gathering what has been scattered gives the global field back, cell by cell. -/
theorem gather2_scatter2 {gy gx py px : ℕ} {per : Bool} (hT : mkCart2 gy gx py px per = .ok T) (g : ℕ) {m : C2}
    (hm : Valid2 T m) {o1 o2 : List C2} (h1 : SlaveOrder2 T m o1) (h2 : SlaveOrder2 T m o2) (Gf Gf' : ℤ → α)
    (w : World C2 ℤ α) {G : C2} (hG : InDomain2 T G) :
    gather2 T g m o2 (scatter2 T g m o1 Gf w) Gf' (gflat2 T G) = Gf (gflat2 T G) := by
  obtain ⟨c, ⟨hc, hb⟩, -⟩ := decomposition2_partition hT G hG
  rw [gather2_correct hT g hm h2 _ _ hc hb]
  obtain ⟨b1, b2, b3, b4⟩ := hb
  rw [(scatter2_correct hT g hm h1 Gf w hc ?_).1 ?_]
  · congr 2; unfold globalIx2; refine Prod.ext ?_ ?_ <;> simp only <;> ring
  · unfold InArr2; simp only; omega
  · unfold Inner2; simp only; omega

/-- C14 (2D): scattering what has been gathered restores every cell of every rank. -/
theorem scatter2_gather2 {gy gx py px : ℕ} {per : Bool} (hT : mkCart2 gy gx py px per = .ok T) (g : ℕ) {m : C2}
    (hm : Valid2 T m) {o1 o2 : List C2} (h1 : SlaveOrder2 T m o1) (h2 : SlaveOrder2 T m o2) (Gf : ℤ → α)
    (w : World C2 ℤ α) {c p : C2} (hc : Valid2 T c) (hp : InArr2 T g p) :
    scatter2 T g m o2 (gather2 T g m o1 w Gf) w c (flat2 T g p) = w c (flat2 T g p) := by
  obtain ⟨a, b⟩ := scatter2_correct hT g hm h2 (gather2 T g m o1 w Gf) w hc hp
  by_cases hi : Inner2 T g p
  · rw [a hi, gather2_correct hT g hm h1 w Gf hc]
    · congr 2; unfold globalIx2; refine Prod.ext ?_ ?_ <;> simp only <;> ring
    · obtain ⟨i1, i2, i3, i4⟩ := hi
      unfold InBlock2 globalIx2; simp only; omega
  · exact b hi

/-- C14 (2D): a vector gather gives each component the scalar gather of that component. -/
theorem gatherVec2_componentwise (m : C2) (order : List C2) (w : Fin 2 → World C2 ℤ α) (Gf : Fin 2 → ℤ → α) (k : Fin 2) :
    gatherVec2 T g m order w Gf k = gather2 T g m order (w k) (Gf k) := by
  fin_cases k <;> simp [gatherVec2]

/-- C13 (2D): a vector scatter gives each component the scalar scatter of that component. -/
theorem scatterVec2_componentwise (m : C2) (order : List C2) (Gf : Fin 2 → ℤ → α) (w : Fin 2 → World C2 ℤ α) (k : Fin 2) :
    scatterVec2 T g m order Gf w k = scatter2 T g m order (Gf k) (w k) := by
  fin_cases k <;> simp [scatterVec2]

/-- non-vacuity: visiting the ranks in row-major order is a legal order for any master -/
theorem slaveOrder2_exists (T : Cart2) (m : C2) : ∃ order, SlaveOrder2 T m order := by
  refine ⟨((ranks2 T).filter (· ≠ m)).dedup, List.nodup_dedup _, ?_⟩
  intro r
  simp [mem_ranks2]
/-- non-vacuity: 2 ranks, master (1,0), ghost size 1; gathering and scattering a concrete field -/
example : gather2 ⟨2, 2, 2, 1, 1, 2, false⟩ 1 (1, 0) [(0, 0)] (fun c i => 100 * c.1 + i) (fun _ => -1) 2 = 105 ∧
    scatter2 ⟨2, 2, 2, 1, 1, 2, false⟩ 1 (1, 0) [(0, 0)] (fun i => 50 + i) (fun _ _ => -1) (0, 0) 6 = 51 := by decide

end D2

section D3
variable {T : Cart3} {g : ℕ}

private def gathered3 (T : Cart3) (g : ℕ) (w : World C3 C3 α) (i : ℤ) : α :=
  w (i / T.gx / T.gy / T.nz, i / T.gx % T.gy / T.ny, i % T.gx / T.nx)
    (g + i / T.gx / T.gy % T.nz, g + i / T.gx % T.gy % T.ny, g + i % T.gx % T.nx)

private theorem gathered3_at (hY : T.py * T.ny = T.gy) (hX : T.px * T.nx = T.gx) (w : World C3 C3 α) {c p : C3}
    (hc : Valid3 T c) (hp : p ∈ box T.nz T.ny T.nx) :
    gathered3 T g w (gflat3 T (c.1 * T.nz + p.1, c.2.1 * T.ny + p.2.1, c.2.2 * T.nx + p.2.2))
      = w c (g + p.1, g + p.2.1, g + p.2.2) := by
  rw [mem_box] at hp
  obtain ⟨p1, p2, p3, p4, p5, p6⟩ := hp
  obtain ⟨c1, c2, c3, c4, c5, c6⟩ := hc
  have hX' : (T.px : ℤ) * T.nx = T.gx := by exact_mod_cast hX
  have hY' : (T.py : ℤ) * T.ny = T.gy := by exact_mod_cast hY
  have hnx : (0 : ℤ) ≤ T.nx := Int.natCast_nonneg _
  have hny : (0 : ℤ) ≤ T.ny := Int.natCast_nonneg _
  have e := mul_add_ediv (a := (c.1 * T.nz + p.1) * T.gy + (c.2.1 * T.ny + p.2.1)) (n := T.gx)
    (b := c.2.2 * T.nx + p.2.2) (by nlinarith) (by nlinarith)
  have e' := mul_add_ediv (a := c.1 * T.nz + p.1) (n := T.gy) (b := c.2.1 * T.ny + p.2.1) (by nlinarith) (by nlinarith)
  have ez := mul_add_ediv (a := c.1) p1 p2
  have ey := mul_add_ediv (a := c.2.1) p3 p4
  have ex := mul_add_ediv (a := c.2.2) p5 p6
  simp only [gathered3, gflat3]
  rw [e.1, e.2, e'.1, e'.2, ez.1, ez.2, ey.1, ey.2, ex.1, ex.2]

/-- C14 (3D): as `gather2_correct`. -/
theorem gather3_correct {gz gy gx pz py px : ℕ} {per : Bool} (hT : mkCart3 gz gy gx pz py px per = .ok T) (g : ℕ) {m : C3}
    (hm : Valid3 T m) {order : List C3} (ho : SlaveOrder3 T m order) (w : World C3 C3 α) (Gf : ℤ → α)
    {c G : C3} (hc : Valid3 T c) (hG : InBlock3 T c G) :
    gather3 T g m order w Gf (gflat3 T G)
      = w c (G.1 - c.1 * T.nz + g, G.2.1 - c.2.1 * T.ny + g, G.2.2 - c.2.2 * T.nx + g) := by
  obtain ⟨-, -, -, -, -, -, -, hZ, hY, hX⟩ := construct3_ok hT
  obtain ⟨g1, g2, g3, g4, g5, g6⟩ := hG
  set p : C3 := (G.1 - c.1 * T.nz, G.2.1 - c.2.1 * T.ny, G.2.2 - c.2.2 * T.nx) with hpdef
  have hp : p ∈ box T.nz T.ny T.nx := by rw [mem_box]; simp only [hpdef]; omega
  have hGe : gflat3 T G = gflat3 T (c.1 * T.nz + p.1, c.2.1 * T.ny + p.2.1, c.2.2 * T.nx + p.2.2) := by
    congr 1; refine Prod.ext ?_ (Prod.ext ?_ ?_) <;> simp only [hpdef] <;> ring
  have hgoal : w c (G.1 - c.1 * T.nz + g, G.2.1 - c.2.1 * T.ny + g, G.2.2 - c.2.2 * T.nx + g)
      = gathered3 T g w (gflat3 T G) := by
    rw [hGe, gathered3_at hY hX w hc hp]
    congr 1; refine Prod.ext ?_ (Prod.ext ?_ ?_) <;> simp only [hpdef] <;> ring
  have agree : ∀ r, Valid3 T r → ∀ (ix : List ℤ) (ix' : List C3),
      ix = (box T.nz T.ny T.nx).map
        (fun p => gflat3 T (r.1 * T.nz + p.1, r.2.1 * T.ny + p.2.1, r.2.2 * T.nx + p.2.2)) →
      ix' = (box T.nz T.ny T.nx).map (fun p => ((g : ℤ) + p.1, (g : ℤ) + p.2.1, (g : ℤ) + p.2.2)) →
      ix.length = (ix'.map (w r)).length ∧ ∀ q ∈ ix.zip (ix'.map (w r)), gathered3 T g w q.1 = q.2 := by
    rintro r hr _ _ rfl rfl
    refine ⟨by simp, ?_⟩
    intro q hq
    rw [List.map_map, List.zip_map', List.mem_map] at hq
    obtain ⟨x, hx, rfl⟩ := hq
    exact gathered3_at hY hX w hr hx
  rw [hgoal]
  unfold gather3
  refine foldl_unpack_agree order (masterBuf3 T) (fun r => (slaveBuf3 T g).map (w r)) _ _
    (fun r hr => (agree r ((ho.2 r).1 hr).1 _ _ (masterBuf3_eq hZ hY hX ((ho.2 r).1 hr).1) slaveBuf3_eq).1)
    (fun r hr => (agree r ((ho.2 r).1 hr).1 _ _ (masterBuf3_eq hZ hY hX ((ho.2 r).1 hr).1) slaveBuf3_eq).2) _ ?_
  by_cases hcm : c = m
  · right
    have := agree m hm _ _ (chunkIx3_eq hZ hY hX hm) innerIx3_eq
    refine unpack_agree _ _ _ _ _ this.1 this.2 ?_
    rw [chunkIx3_eq hZ hY hX hm, List.mem_map]
    exact ⟨p, hp, by rw [hGe, hcm]⟩
  · left
    refine ⟨c, (ho.2 c).2 ⟨hc, hcm⟩, ?_⟩
    rw [masterBuf3_eq hZ hY hX hc, List.mem_map]
    exact ⟨p, hp, hGe.symm⟩

/-- C13 (3D): as `scatter2_correct`. -/
theorem scatter3_correct {gz gy gx pz py px : ℕ} {per : Bool} (hT : mkCart3 gz gy gx pz py px per = .ok T) (g : ℕ)
    {m : C3} (hm : Valid3 T m) {order : List C3} (ho : SlaveOrder3 T m order) (Gf : ℤ → α) (w : World C3 C3 α)
    {c p : C3} (hc : Valid3 T c) :
    (Inner3 T g p → scatter3 T g m order Gf w c p = Gf (gflat3 T (globalIx3 T g c p))) ∧
    (¬ Inner3 T g p → scatter3 T g m order Gf w c p = w c p) := by
  obtain ⟨-, -, -, -, -, -, -, hZ, hY, hX⟩ := construct3_ok hT
  have hres : scatter3 T g m order Gf w c
      = unpack (w c) ((box T.nz T.ny T.nx).map fun p => ((g : ℤ) + p.1, (g : ℤ) + p.2.1, (g : ℤ) + p.2.2))
          (((box T.nz T.ny T.nx).map
            fun p => gflat3 T (c.1 * T.nz + p.1, c.2.1 * T.ny + p.2.1, c.2.2 * T.nx + p.2.2)).map Gf) := by
    unfold scatter3
    rw [foldl_setRank order (fun r A => unpack A (slaveBuf3 T g) ((masterBuf3 T r).map Gf)) _ ho.1 c]
    by_cases hcm : c = m
    · subst hcm
      rw [if_neg (fun h => ((ho.2 c).1 h).2 rfl)]
      simp only [setRank, Function.update_self]
      rw [innerIx3_eq, chunkIx3_eq hZ hY hX hm]
    · rw [if_pos ((ho.2 c).2 ⟨hc, hcm⟩)]
      simp only [setRank, Function.update_of_ne hcm]
      rw [slaveBuf3_eq, masterBuf3_eq hZ hY hX hc]
  rw [hres]
  constructor
  · rintro ⟨i1, i2, i3, i4, i5, i6⟩
    refine unpack_agree (w c) (fun i => Gf (gflat3 T (globalIx3 T g c i))) _ _ p (by simp) ?_ ?_
    · intro q hq
      rw [List.map_map, List.zip_map', List.mem_map] at hq
      obtain ⟨x, hx, rfl⟩ := hq
      simp only [Function.comp]
      congr 2
      unfold globalIx3
      refine Prod.ext ?_ (Prod.ext ?_ ?_) <;> simp only <;> ring
    · rw [List.mem_map]
      refine ⟨(p.1 - g, p.2.1 - g, p.2.2 - g), ?_, ?_⟩
      · rw [mem_box]; simp only; omega
      · refine Prod.ext ?_ (Prod.ext ?_ ?_) <;> simp only <;> ring
  · intro hn
    apply unpack_of_notMem
    rw [List.mem_map]
    rintro ⟨x, hx, rfl⟩
    rw [mem_box] at hx
    apply hn
    unfold Inner3
    simp only; omega

/-- C14 (3D): gathering what has been scattered gives the global field back. -/
theorem gather3_scatter3 {gz gy gx pz py px : ℕ} {per : Bool} (hT : mkCart3 gz gy gx pz py px per = .ok T) (g : ℕ)
    {m : C3} (hm : Valid3 T m) {o1 o2 : List C3} (h1 : SlaveOrder3 T m o1) (h2 : SlaveOrder3 T m o2) (Gf Gf' : ℤ → α)
    (w : World C3 C3 α) {G : C3} (hG : InDomain3 T G) :
    gather3 T g m o2 (scatter3 T g m o1 Gf w) Gf' (gflat3 T G) = Gf (gflat3 T G) := by
  obtain ⟨c, ⟨hc, hb⟩, -⟩ := decomposition3_partition hT G hG
  rw [gather3_correct hT g hm h2 _ _ hc hb]
  obtain ⟨b1, b2, b3, b4, b5, b6⟩ := hb
  rw [(scatter3_correct hT g hm h1 Gf w hc).1 ?_]
  · congr 2; unfold globalIx3; refine Prod.ext ?_ (Prod.ext ?_ ?_) <;> simp only <;> ring
  · unfold Inner3; simp only; omega

/-- C14 (3D): scattering what has been gathered restores every cell of every rank. -/
theorem scatter3_gather3 {gz gy gx pz py px : ℕ} {per : Bool} (hT : mkCart3 gz gy gx pz py px per = .ok T) (g : ℕ)
    {m : C3} (hm : Valid3 T m) {o1 o2 : List C3} (h1 : SlaveOrder3 T m o1) (h2 : SlaveOrder3 T m o2) (Gf : ℤ → α)
    (w : World C3 C3 α) {c p : C3} (hc : Valid3 T c) :
    scatter3 T g m o2 (gather3 T g m o1 w Gf) w c p = w c p := by
  obtain ⟨a, b⟩ := scatter3_correct hT g hm h2 (gather3 T g m o1 w Gf) w (p := p) hc
  by_cases hi : Inner3 T g p
  · rw [a hi, gather3_correct hT g hm h1 w Gf hc]
    · congr 1; unfold globalIx3; refine Prod.ext ?_ (Prod.ext ?_ ?_) <;> simp only <;> ring
    · obtain ⟨i1, i2, i3, i4, i5, i6⟩ := hi
      unfold InBlock3 globalIx3; simp only; omega
  · exact b hi

/-- C14 (3D): componentwise. -/
theorem gatherVec3_componentwise (m : C3) (order : List C3) (w : Fin 3 → World C3 C3 α) (Gf : Fin 3 → ℤ → α) (k : Fin 3) :
    gatherVec3 T g m order w Gf k = gather3 T g m order (w k) (Gf k) := by
  fin_cases k <;> simp [gatherVec3, Function.update]

/-- C13 (3D): componentwise. -/
theorem scatterVec3_componentwise (m : C3) (order : List C3) (Gf : Fin 3 → ℤ → α) (w : Fin 3 → World C3 C3 α) (k : Fin 3) :
    scatterVec3 T g m order Gf w k = scatter3 T g m order (Gf k) (w k) := by
  fin_cases k <;> simp [scatterVec3, Function.update]

/-- non-vacuity: a legal visiting order exists for any master -/
theorem slaveOrder3_exists (T : Cart3) (m : C3) : ∃ order, SlaveOrder3 T m order := by
  refine ⟨((ranks3 T).filter (· ≠ m)).dedup, List.nodup_dedup _, ?_⟩
  intro r
  simp [mem_ranks3]
/-- non-vacuity: a concrete gather on two ranks along z -/
example : gather3 ⟨2, 1, 2, 2, 1, 1, 1, 1, 2, false⟩ 1 (0, 0, 0) [(1, 0, 0)]
    (fun c p => 100 * c.1 + 16 * p.1 + 4 * p.2.1 + p.2.2) (fun _ => -1) 3 = 100 + 16 + 4 + 2 := by decide

end D3
end Sopht
