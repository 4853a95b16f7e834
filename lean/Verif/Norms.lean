import Verif.Sim2DGlobalLemmas
import Verif.Sim3DGlobalLemmas
import Verif.InterpProps

/-!
# Error norms

The validation examples compare the fields with a known solution: each rank takes the norm of the error in its inner cells, and the results are reduced over the ranks
(examples/2d_examples/LambOseenVortexCase/lamb_oseen_vortex.py:135-181, examples/3d_examples/PointSourceAdvectAndDiffuseCase/point_source_advection_diffusion.py:160-166).
-/

namespace Sopht

open Finset

/-- `error_field = np.fabs(field - solution(position_field))[…, g:-g, g:-g]` (lamb_oseen_vortex.py:122-142) on rank `c`, as the list of its elements; `cs` are the components
(one for the vorticity, two for the velocity). -/
noncomputable def errElems2 {ι : Type} (T : Cart2) (g : ℕ) (xr : ℝ) (cs : List ι) (w : ι → World C2 C2 ℝ) (f : ι → ℝ → ℝ → ℝ) (c : C2) : List ℝ :=
  cs.flatMap fun j => innerElems2 T g fun p => |w j c p - f j (position2 T g xr c 0 p) (position2 T g xr c 1 p)|

/-- `np.linalg.norm` of an array given by the list of its elements. -/
noncomputable def norm2 (l : List ℝ) : ℝ := Real.sqrt ((l.map (· ^ 2)).sum)

/-- `l2_error` (lamb_oseen_vortex.py:143-145): `sqrt(allreduce((norm(error_field) * dx) ** 2, SUM))`. -/
noncomputable def l2Error2 {ι : Type} (T : Cart2) (g : ℕ) (xr : ℝ) (cs : List ι) (w : ι → World C2 C2 ℝ) (f : ι → ℝ → ℝ → ℝ) : Except PyErr ℝ :=
  (allreduce (fun a b => a + b) (ranks2 T) fun c => .ok ((norm2 (errElems2 T g xr cs w f c) * simDx2 T xr) ^ 2)).map Real.sqrt

/-- `linf_error` (lamb_oseen_vortex.py:146-147): `allreduce(amax(error_field), MAX)`. -/
noncomputable def linfError2 {ι : Type} (T : Cart2) (g : ℕ) (xr : ℝ) (cs : List ι) (w : ι → World C2 C2 ℝ) (f : ι → ℝ → ℝ → ℝ) : Except PyErr ℝ :=
  allreduce max (ranks2 T) fun c => amax (errElems2 T g xr cs w f c)

/-- The same in 3D (point_source_advection_diffusion.py:143-160). -/
noncomputable def errElems3 {ι : Type} (T : Cart3) (g : ℕ) (xr : ℝ) (cs : List ι) (w : ι → World C3 C3 ℝ) (f : ι → ℝ → ℝ → ℝ → ℝ) (c : C3) : List ℝ :=
  cs.flatMap fun j => (innerCells3 T g).map fun p => |w j c p - f j (position3 T g xr c 0 p) (position3 T g xr c 1 p) (position3 T g xr c 2 p)|

/-- `l2_error` (point_source_advection_diffusion.py:161-163): `sqrt(allreduce(norm(error_field) ** 2, SUM)) * dx**1.5`. -/
noncomputable def l2Error3 {ι : Type} (T : Cart3) (g : ℕ) (xr : ℝ) (cs : List ι) (w : ι → World C3 C3 ℝ) (f : ι → ℝ → ℝ → ℝ → ℝ) : Except PyErr ℝ :=
  (allreduce (fun a b => a + b) (ranks3 T) fun c => .ok (norm2 (errElems3 T g xr cs w f c) ^ 2)).map fun x => Real.sqrt x * simDx3 T xr ^ (1.5 : ℝ)

/-- `linf_error` (point_source_advection_diffusion.py:164-165). -/
noncomputable def linfError3 {ι : Type} (T : Cart3) (g : ℕ) (xr : ℝ) (cs : List ι) (w : ι → World C3 C3 ℝ) (f : ι → ℝ → ℝ → ℝ → ℝ) : Except PyErr ℝ :=
  allreduce max (ranks3 T) fun c => amax (errElems3 T g xr cs w f c)

/-! ## Lemmas -/

theorem allreduce_amax {R : Type} {rs : List R} (hne : rs ≠ []) {L : R → List ℝ} (hL : ∀ r ∈ rs, L r ≠ []) :
    ∃ m, allreduce max rs (fun r => amax (L r)) = .ok m ∧ IsGreatest {x | ∃ r ∈ rs, x ∈ L r} m := by
  choose y hy using fun r => fun h : L r ≠ [] => amax_ok h
  have hy' : ∀ r ∈ rs, amax (L r) = .ok (if h : L r ≠ [] then y r h else 0) := by
    intro r hr
    rw [dif_pos (hL r hr)]
    exact (hy r (hL r hr)).1
  obtain ⟨v, hv, hlv⟩ := allreduce_max hne hy'
  refine ⟨v, hv, ?_, ?_⟩
  · obtain ⟨r, hr, e⟩ := hlv.1
    rw [dif_pos (hL r hr)] at e
    rw [e]
    exact ⟨r, hr, (hy r (hL r hr)).2.1⟩
  · rintro x ⟨r, hr, hx⟩
    have h1 := hlv.2 ⟨r, hr, rfl⟩
    rw [dif_pos (hL r hr)] at h1
    exact ((hy r (hL r hr)).2.2 hx).trans h1

theorem norm2_sq (l : List ℝ) : norm2 l ^ 2 = (l.map (· ^ 2)).sum := by
  unfold norm2
  refine Real.sq_sqrt ?_
  refine List.sum_nonneg ?_
  intro x hx
  obtain ⟨y, -, rfl⟩ := List.mem_map.1 hx
  exact sq_nonneg y

theorem sum_rangeOf {n g : ℕ} (hg : 1 ≤ g) (f : ℤ → ℝ) : ((rangeOf (innerR n g)).map f).sum = ∑ i ∈ Ico (g : ℤ) (g + n), f i := by
  have hn : (rangeOf (innerR n g)).Nodup := (irange_nodup _).map fun a b h => by simpa using h
  rw [← List.sum_toFinset f hn]
  refine Finset.sum_congr ?_ fun _ _ => rfl
  ext i
  rw [List.mem_toFinset, mem_rangeOf_inner, Finset.mem_Ico]
  tauto

theorem sum_innerElems2 {T : Cart2} {g : ℕ} (hg : 1 ≤ g) (a : C2 → ℝ) (h : ℝ → ℝ) : ((innerElems2 T g a).map h).sum = ∑ p ∈ innerSet2 T g, h (a p) := by
  unfold innerElems2 innerSet2
  rw [sum_product, ← sum_rangeOf hg]
  rw [List.map_flatMap]
  generalize rangeOf (innerR T.ny g) = l
  induction l with
  | nil => simp
  | cons i l ih =>
    rw [List.flatMap_cons, List.sum_append, ih, List.map_cons, List.sum_cons, List.map_map, ← sum_rangeOf hg]
    rfl

theorem sum_innerCells3 {T : Cart3} {g : ℕ} (hg : 1 ≤ g) (a : C3 → ℝ) : ((innerCells3 T g).map a).sum = ∑ p ∈ innerSet3 T g, a p := by
  rw [← List.sum_toFinset a (innerCells3_nodup g)]
  refine Finset.sum_congr ?_ fun _ _ => rfl
  ext p
  rw [List.mem_toFinset, mem_innerCells3, mem_innerSet3]
  tauto

theorem sum_ranks2 (T : Cart2) (f : C2 → ℝ) : ((ranks2 T).map f).sum = ∑ c ∈ rankSet2 T, f c := by
  rw [← List.sum_toFinset f (ranks2_nodup T)]
  refine Finset.sum_congr ?_ fun _ _ => rfl
  ext c
  rw [List.mem_toFinset, mem_ranks2, mem_rankSet2]

theorem sum_ranks3 (T : Cart3) (f : C3 → ℝ) : ((ranks3 T).map f).sum = ∑ c ∈ rankSet3 T, f c := by
  rw [← List.sum_toFinset f (ranks3_nodup T)]
  refine Finset.sum_congr ?_ fun _ _ => rfl
  ext c
  rw [List.mem_toFinset, mem_ranks3, mem_rankSet3]

/-! ## 2D -/

variable {ι : Type}

/-- the error in cell `G` of the grid -/
noncomputable def errAt2 (dx : ℝ) (F : C2 → ℝ) (f : ℝ → ℝ → ℝ) (G : C2) : ℝ := |F G - f ((G.2 + 1 / 2) * dx) ((G.1 + 1 / 2) * dx)|

theorem errElems2_sum {gy gx py px : ℕ} {per : Bool} {T : Cart2} (hT : mkCart2 gy gx py px per = .ok T) {g : ℕ} (hg : 1 ≤ g) (xr : ℝ) (cs : List ι)
    {w : ι → World C2 C2 ℝ} {F : ι → C2 → ℝ} (hF : ∀ j ∈ cs, ∀ c p, Valid2 T c → Inner2 T g p → w j c p = F j (globalIx2 T g c p)) (f : ι → ℝ → ℝ → ℝ) {c : C2} (hc : Valid2 T c) :
    ((errElems2 T g xr cs w f c).map (· ^ 2)).sum = ∑ p ∈ innerSet2 T g, (cs.map fun j => errAt2 (xr / gx) (F j) (f j) (globalIx2 T g c p) ^ 2).sum := by
  obtain ⟨e1, e2, -⟩ := construct2_ok hT
  unfold errElems2
  induction cs with
  | nil => simp
  | cons j cs ih =>
    rw [List.flatMap_cons, List.map_append, List.sum_append, ih fun j hj => hF j (List.mem_cons_of_mem _ hj), sum_innerElems2 hg, ← Finset.sum_add_distrib]
    refine Finset.sum_congr rfl fun p hp => ?_
    rw [List.map_cons, List.sum_cons]
    congr 2
    have hp' := mem_innerSet2.1 hp
    obtain ⟨h1, h2⟩ := position2_cells T g xr c (inArr_of_inner2 hp')
    rw [hF j List.mem_cons_self c p hc hp', h1, h2, e2]
    rfl

theorem ranks2_ne {gy gx py px : ℕ} {per : Bool} {T : Cart2} (hT : mkCart2 gy gx py px per = .ok T) (h0 : 0 < gy ∧ 0 < gx) : ranks2 T ≠ [] := by
  obtain ⟨e1, e2, -⟩ := construct2_ok hT
  obtain ⟨c, p, hc, -⟩ := domain_owned2 hT 0 (G := (0, 0)) (by refine ⟨?_, ?_, ?_, ?_⟩ <;> simp <;> omega)
  exact List.ne_nil_of_mem (mem_ranks2.2 hc)

/-- C102 (2D): on every decomposition, the L2 error is the norm over all cells of the grid with weight `dx²` – the number a run on one rank gets –
of the difference of the field and the solution at the cell centres. -/
theorem l2Error2_global {gy gx py px : ℕ} {per : Bool} {T : Cart2} (hT : mkCart2 gy gx py px per = .ok T) (h0 : 0 < gy ∧ 0 < gx) {g : ℕ} (hg : 1 ≤ g) (xr : ℝ)
    (cs : List ι) {w : ι → World C2 C2 ℝ} {F : ι → C2 → ℝ} (hF : ∀ j ∈ cs, ∀ c p, Valid2 T c → Inner2 T g p → w j c p = F j (globalIx2 T g c p)) (f : ι → ℝ → ℝ → ℝ) :
    l2Error2 T g xr cs w f = .ok (Real.sqrt (∑ G ∈ Ico (0 : ℤ) gy ×ˢ Ico (0 : ℤ) gx,
      (cs.map fun j => errAt2 (xr / gx) (F j) (f j) G ^ 2).sum * (xr / gx) ^ 2)) := by
  obtain ⟨e1, e2, -⟩ := construct2_ok hT
  have hdx : simDx2 T xr = xr / gx := by unfold simDx2; rw [e2]
  unfold l2Error2
  rw [allreduce_add (ranks2_ne hT h0) (y := fun c => (norm2 (errElems2 T g xr cs w f c) * simDx2 T xr) ^ 2) fun c _ => rfl]
  simp only [Except.map]
  congr 2
  rw [sum_ranks2, ← sum_blocks2 hT g]
  refine Finset.sum_congr rfl fun c hc => ?_
  rw [mul_pow, norm2_sq, errElems2_sum hT hg xr cs hF f (mem_rankSet2.1 hc), hdx, Finset.sum_mul]

/-- C102 (2D): … and the Linf error is the largest error in any cell of the grid. -/
theorem linfError2_global {gy gx py px : ℕ} {per : Bool} {T : Cart2} (hT : mkCart2 gy gx py px per = .ok T) (h0 : 0 < gy ∧ 0 < gx) {g : ℕ} (hg : 1 ≤ g) (xr : ℝ)
    {cs : List ι} (hcs : cs ≠ []) {w : ι → World C2 C2 ℝ} {F : ι → C2 → ℝ} (hF : ∀ j ∈ cs, ∀ c p, Valid2 T c → Inner2 T g p → w j c p = F j (globalIx2 T g c p))
    (f : ι → ℝ → ℝ → ℝ) :
    ∃ m, linfError2 T g xr cs w f = .ok m ∧ IsGreatest {x | ∃ j ∈ cs, ∃ G, InDomain2 T G ∧ x = errAt2 (xr / gx) (F j) (f j) G} m := by
  obtain ⟨e1, e2, -⟩ := construct2_ok hT
  have hmem : ∀ c, Valid2 T c → ∀ x, x ∈ errElems2 T g xr cs w f c ↔ ∃ j ∈ cs, ∃ p, Inner2 T g p ∧ x = errAt2 (xr / gx) (F j) (f j) (globalIx2 T g c p) := by
    intro c hc x
    have val : ∀ j ∈ cs, ∀ p, Inner2 T g p →
        |w j c p - f j (position2 T g xr c 0 p) (position2 T g xr c 1 p)| = errAt2 (xr / gx) (F j) (f j) (globalIx2 T g c p) := by
      intro j hj p hp
      obtain ⟨h1, h2⟩ := position2_cells T g xr c (inArr_of_inner2 hp)
      rw [hF j hj c p hc hp, h1, h2, e2]
      rfl
    unfold errElems2
    simp only [List.mem_flatMap, mem_innerElems2]
    constructor
    · rintro ⟨j, hj, -, p, hp, rfl⟩; exact ⟨j, hj, p, hp, val j hj p hp⟩
    · rintro ⟨j, hj, p, hp, rfl⟩; exact ⟨j, hj, hg, p, hp, (val j hj p hp).symm⟩
  obtain ⟨c0, p0, hc0, hp0, -⟩ := domain_owned2 hT g (G := (0, 0)) (by refine ⟨?_, ?_, ?_, ?_⟩ <;> simp <;> omega)
  obtain ⟨j0, hj0⟩ := List.exists_mem_of_ne_nil cs hcs
  obtain ⟨m, hm, hg1, hg2⟩ := allreduce_amax (ranks2_ne hT h0) (L := errElems2 T g xr cs w f) fun c hc =>
    List.ne_nil_of_mem ((hmem c (mem_ranks2.1 hc) _).2 ⟨j0, hj0, p0, hp0, rfl⟩)
  refine ⟨m, hm, ?_, ?_⟩
  · obtain ⟨c, hc, hx⟩ := hg1
    obtain ⟨j, hj, p, hp, e⟩ := (hmem c (mem_ranks2.1 hc) _).1 hx
    exact ⟨j, hj, _, inner_inDomain2 hT (mem_ranks2.1 hc) hp, e⟩
  · rintro x ⟨j, hj, G, hG, rfl⟩
    obtain ⟨c, p, hc, hp, rfl⟩ := domain_owned2 hT g hG
    exact hg2 ⟨c, mem_ranks2.2 hc, (hmem c hc _).2 ⟨j, hj, p, hp, rfl⟩⟩

/-! ## 3D -/

/-- the error in cell `G` of the grid -/
noncomputable def errAt3 (dx : ℝ) (F : C3 → ℝ) (f : ℝ → ℝ → ℝ → ℝ) (G : C3) : ℝ := |F G - f ((G.2.2 + 1 / 2) * dx) ((G.2.1 + 1 / 2) * dx) ((G.1 + 1 / 2) * dx)|

theorem errElems3_sum {gz gy gx pz py px : ℕ} {per : Bool} {T : Cart3} (hT : mkCart3 gz gy gx pz py px per = .ok T) {g : ℕ} (hg : 1 ≤ g) (xr : ℝ) (cs : List ι)
    {w : ι → World C3 C3 ℝ} {F : ι → C3 → ℝ} (hF : ∀ j ∈ cs, ∀ c p, Valid3 T c → Inner3 T g p → w j c p = F j (globalIx3 T g c p)) (f : ι → ℝ → ℝ → ℝ → ℝ) {c : C3} (hc : Valid3 T c) :
    ((errElems3 T g xr cs w f c).map (· ^ 2)).sum = ∑ p ∈ innerSet3 T g, (cs.map fun j => errAt3 (xr / gx) (F j) (f j) (globalIx3 T g c p) ^ 2).sum := by
  obtain ⟨e0, e1, e2, -⟩ := construct3_ok hT
  unfold errElems3
  induction cs with
  | nil => simp
  | cons j cs ih =>
    rw [List.flatMap_cons, List.map_append, List.sum_append, ih fun j hj => hF j (List.mem_cons_of_mem _ hj), List.map_map, sum_innerCells3 hg, ← Finset.sum_add_distrib]
    refine Finset.sum_congr rfl fun p hp => ?_
    rw [List.map_cons, List.sum_cons]
    congr 1
    have hp' := mem_innerSet3.1 hp
    obtain ⟨h1, h2, h3⟩ := position3_cells T g xr c (inArr_of_inner3 hp')
    simp only [Function.comp]
    rw [hF j List.mem_cons_self c p hc hp', h1, h2, h3, e2]
    rfl

theorem ranks3_ne {gz gy gx pz py px : ℕ} {per : Bool} {T : Cart3} (hT : mkCart3 gz gy gx pz py px per = .ok T) (h0 : 0 < gz ∧ 0 < gy ∧ 0 < gx) : ranks3 T ≠ [] := by
  obtain ⟨e0, e1, e2, -⟩ := construct3_ok hT
  obtain ⟨c, p, hc, -⟩ := domain_owned3 hT 0 (G := (0, 0, 0)) (by refine ⟨?_, ?_, ?_, ?_, ?_, ?_⟩ <;> simp <;> omega)
  exact List.ne_nil_of_mem (mem_ranks3.2 hc)

/-- C102 (3D): on every decomposition, the L2 error is the norm over all cells of the grid with weight `dx³`. -/
theorem l2Error3_global {gz gy gx pz py px : ℕ} {per : Bool} {T : Cart3} (hT : mkCart3 gz gy gx pz py px per = .ok T) (h0 : 0 < gz ∧ 0 < gy ∧ 0 < gx) {g : ℕ} (hg : 1 ≤ g) {xr : ℝ}
    (hxr : 0 ≤ xr) (cs : List ι) {w : ι → World C3 C3 ℝ} {F : ι → C3 → ℝ} (hF : ∀ j ∈ cs, ∀ c p, Valid3 T c → Inner3 T g p → w j c p = F j (globalIx3 T g c p))
    (f : ι → ℝ → ℝ → ℝ → ℝ) :
    l2Error3 T g xr cs w f = .ok (Real.sqrt (∑ G ∈ Ico (0 : ℤ) gz ×ˢ Ico (0 : ℤ) gy ×ˢ Ico (0 : ℤ) gx,
      (cs.map fun j => errAt3 (xr / gx) (F j) (f j) G ^ 2).sum * (xr / gx) ^ 3)) := by
  obtain ⟨e0, e1, e2, -⟩ := construct3_ok hT
  have hdx : simDx3 T xr = xr / gx := by unfold simDx3; rw [e2]
  unfold l2Error3
  rw [allreduce_add (ranks3_ne hT h0) (y := fun c => norm2 (errElems3 T g xr cs w f c) ^ 2) fun c _ => rfl]
  simp only [Except.map]
  congr 1
  have hs : ((ranks3 T).map fun c => norm2 (errElems3 T g xr cs w f c) ^ 2).sum =
      ∑ G ∈ Ico (0 : ℤ) gz ×ˢ Ico (0 : ℤ) gy ×ˢ Ico (0 : ℤ) gx, (cs.map fun j => errAt3 (xr / gx) (F j) (f j) G ^ 2).sum := by
    rw [sum_ranks3, ← sum_blocks3 hT g]
    refine Finset.sum_congr rfl fun c hc => ?_
    rw [norm2_sq, errElems3_sum hT hg xr cs hF f (mem_rankSet3.1 hc)]
  have hd0 : 0 ≤ xr / gx := div_nonneg hxr (Nat.cast_nonneg _)
  have h3 : (xr / gx) ^ (1.5 : ℝ) = Real.sqrt ((xr / gx) ^ 3) := by
    rw [Real.sqrt_eq_rpow, ← Real.rpow_natCast, ← Real.rpow_mul hd0]
    norm_num
  rw [hs, hdx, h3, ← Finset.sum_mul, Real.sqrt_mul' _ (pow_nonneg hd0 3)]

/-- C102 (3D): … and the Linf error is the largest error in any cell of the grid. -/
theorem linfError3_global {gz gy gx pz py px : ℕ} {per : Bool} {T : Cart3} (hT : mkCart3 gz gy gx pz py px per = .ok T) (h0 : 0 < gz ∧ 0 < gy ∧ 0 < gx) {g : ℕ} (hg : 1 ≤ g) (xr : ℝ)
    {cs : List ι} (hcs : cs ≠ []) {w : ι → World C3 C3 ℝ} {F : ι → C3 → ℝ} (hF : ∀ j ∈ cs, ∀ c p, Valid3 T c → Inner3 T g p → w j c p = F j (globalIx3 T g c p))
    (f : ι → ℝ → ℝ → ℝ → ℝ) :
    ∃ m, linfError3 T g xr cs w f = .ok m ∧ IsGreatest {x | ∃ j ∈ cs, ∃ G, InDomain3 T G ∧ x = errAt3 (xr / gx) (F j) (f j) G} m := by
  obtain ⟨e0, e1, e2, -⟩ := construct3_ok hT
  have hmem : ∀ c, Valid3 T c → ∀ x, x ∈ errElems3 T g xr cs w f c ↔ ∃ j ∈ cs, ∃ p, Inner3 T g p ∧ x = errAt3 (xr / gx) (F j) (f j) (globalIx3 T g c p) := by
    intro c hc x
    have val : ∀ j ∈ cs, ∀ p, Inner3 T g p →
        |w j c p - f j (position3 T g xr c 0 p) (position3 T g xr c 1 p) (position3 T g xr c 2 p)| = errAt3 (xr / gx) (F j) (f j) (globalIx3 T g c p) := by
      intro j hj p hp
      obtain ⟨h1, h2, h3⟩ := position3_cells T g xr c (inArr_of_inner3 hp)
      rw [hF j hj c p hc hp, h1, h2, h3, e2]
      rfl
    unfold errElems3
    simp only [List.mem_flatMap, List.mem_map, mem_innerCells3]
    constructor
    · rintro ⟨j, hj, p, ⟨-, hp⟩, rfl⟩; exact ⟨j, hj, p, hp, val j hj p hp⟩
    · rintro ⟨j, hj, p, hp, rfl⟩; exact ⟨j, hj, p, ⟨hg, hp⟩, val j hj p hp⟩
  obtain ⟨c0, p0, hc0, hp0, -⟩ := domain_owned3 hT g (G := (0, 0, 0)) (by refine ⟨?_, ?_, ?_, ?_, ?_, ?_⟩ <;> simp <;> omega)
  obtain ⟨j0, hj0⟩ := List.exists_mem_of_ne_nil cs hcs
  obtain ⟨m, hm, hg1, hg2⟩ := allreduce_amax (ranks3_ne hT h0) (L := errElems3 T g xr cs w f) fun c hc =>
    List.ne_nil_of_mem ((hmem c (mem_ranks3.1 hc) _).2 ⟨j0, hj0, p0, hp0, rfl⟩)
  refine ⟨m, hm, ?_, ?_⟩
  · obtain ⟨c, hc, hx⟩ := hg1
    obtain ⟨j, hj, p, hp, e⟩ := (hmem c (mem_ranks3.1 hc) _).1 hx
    exact ⟨j, hj, _, inner_inDomain3 hT (mem_ranks3.1 hc) hp, e⟩
  · rintro x ⟨j, hj, G, hG, rfl⟩
    obtain ⟨c, p, hc, hp, rfl⟩ := domain_owned3 hT g hG
    exact hg2 ⟨c, mem_ranks3.2 hc, (hmem c hc _).2 ⟨j, hj, p, hp, rfl⟩⟩

/-! ## Example -/

/-- a field off by 1/2 everywhere on the unit square, four ranks: both norms are 1/2 -/
example : l2Error2 ⟨4, 4, 2, 2, 2, 2, false⟩ 2 1 [()] (fun _ _ _ => 1) (fun _ _ _ => 1 / 2) = .ok (1 / 2) := by
  have hT : mkCart2 4 4 2 2 false = .ok ⟨4, 4, 2, 2, 2, 2, false⟩ := by rfl
  rw [l2Error2_global hT (by norm_num) (by norm_num) 1 [()] (F := fun _ _ => 1) (fun _ _ _ _ _ _ => rfl)]
  congr 1
  have h : ∀ G : C2, ([()].map fun (_ : Unit) => errAt2 (1 / (4 : ℕ)) (fun _ => 1) (fun _ _ => 1 / 2) G ^ 2).sum * (1 / ((4 : ℕ) : ℝ)) ^ 2 = 1 / 64 := by
    intro G
    have : errAt2 (1 / (4 : ℕ)) (fun _ => 1) (fun _ _ => 1 / 2) G = 1 / 2 := by
      unfold errAt2
      norm_num
    simp only [this, List.map_cons, List.map_nil, List.sum_cons, List.sum_nil]
    norm_num
  rw [Finset.sum_congr rfl fun G _ => h G]
  simp only [sum_const, card_product, Int.card_Ico]
  norm_num
  rw [show (64 : ℝ) = 8 ^ 2 by norm_num, Real.sqrt_sq (by norm_num), show ((Int.toNat 4 : ℕ) : ℝ) = 4 by norm_cast]
  norm_num

end Sopht
