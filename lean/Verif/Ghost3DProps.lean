import Verif.Ghost3DLemmas
import Verif.Ghost2DProps

/-! # C04, C07–C10, C12 for `MPIGhostCommunicator3D` -/

namespace Sopht

variable {α : Type}

/-! ## C04: pairing of messages -/

/-- C04 (3D): every send of a ghost exchange has its receive and vice versa, in the non-overtaking order, with the same number of
elements, even when several of the 26 neighbours are one and the same rank. -/
theorem ghost3_all_matched (T : Cart3) (g : ℕ) (full : Bool) : AllMatched (ranks3 T) (posts3 T g full) := by
  refine allMatched_congr (q := fun c => (dirs3 full).map (gpost3 T g c))
    (fun r hr => posts3_eq full (mem_ranks3.1 hr)) ?_
  apply allMatched_spmd
  · intro s hs k _
    have hp := (mem_ranks3.1 hs).pos
    exact ⟨fun r h => mem_ranks3.2 (nbr3_valid hp.1 hp.2.1 hp.2.2 h),
      fun r h => mem_ranks3.2 (nbr3_valid hp.1 hp.2.1 hp.2.2 h)⟩
  · intro s hs r hr k _
    exact gpost3_mirror (mem_ranks3.1 hs) (mem_ranks3.1 hr)
  · intro s hs r hr k _ _
    simp [gpost3, subIx_eq]

/-- non-vacuity: two periodic ranks along z: 18 of the 26 messages of rank (0,0,0) go to rank (1,0,0) -/
example : (sendsTo (posts3 ⟨4, 2, 2, 2, 1, 1, 2, 2, 2, true⟩ 1 true) (0, 0, 0) (1, 0, 0)).length = 18 := by decide

/-! ## C08, C09: what the exchange delivers -/

/-- C08 (`full = false`) and C09 (`full = true`): for every order in which messages complete, every cell of every rank holds what
`halo3` says. -/
theorem exchange3_correct (T : Cart3) {g : ℕ} (hz : g ≤ T.nz) (hy : g ≤ T.ny) (hx : g ≤ T.nx) (full : Bool)
    (w : World C3 C3 α) {sched : List Ev} (hs : Finalised3 T g full sched)
    {c p : C3} (hc : Valid3 T c) (hp : InArr3 T g p) :
    exchange3 T g full w sched c p = halo3 T g full w c p := by
  unfold exchange3
  rw [runNet_eq (ghost3_exchSpec hz hy hx full w) hs, haloAll3_at hc hp]

/-- no message of the exchange is received into an inner cell -/
theorem exchange3_inner_not_received {T : Cart3} {g : ℕ} (full : Bool) {m : Msg C3 C3} (hm : m ∈ ghostMsgs3 T g full)
    {p : C3} (hp : Inner3 T g p) : p ∉ m.recvIx := by
  intro hi
  rw [mem_ghostMsgs3] at hm
  obtain ⟨s, r, k, -, -, hk, -, rfl⟩ := hm
  simp only [gpost3, subIx_eq, List.mem_map] at hi
  obtain ⟨q, hq, rfl⟩ := hi
  rw [mem_box] at hq
  obtain ⟨q1, q2, q3, q4, q5, q6⟩ := hq
  rw [dirs3_spec] at hk
  obtain ⟨k1, k2, k3, k4, -⟩ := hk
  obtain ⟨p1, p2, p3, p4, p5, p6⟩ := hp
  have zz := axRecv_zone k1 q1 q2
  have zy := axRecv_zone k2 q3 q4
  have zx := axRecv_zone k3 q5 q6
  rw [zone_zero_iff.2 ⟨p1, p2⟩] at zz
  rw [zone_zero_iff.2 ⟨p3, p4⟩] at zy
  rw [zone_zero_iff.2 ⟨p5, p6⟩] at zx
  apply k4
  rw [dirRank_zero]; omega

/-- C08: inner cells are never modified, at any moment of the exchange (`sched` need not be complete). -/
theorem exchange3_inner_kept (T : Cart3) {g : ℕ} (hz : g ≤ T.nz) (hy : g ≤ T.ny) (hx : g ≤ T.nx) (full : Bool)
    (w : World C3 C3 α) (sched : List Ev) {c p : C3} (hp : Inner3 T g p) :
    exchange3 T g full w sched c p = w c p := by
  unfold exchange3
  exact runNet_untouched (ghost3_exchSpec hz hy hx full w) sched c _ fun m hm _ hi => exchange3_inner_not_received full hm hp hi

/-- C08: the six faces spelled out for both exchange modes: a face ghost cell (outside along exactly one axis) holds the inner
value of the neighbour on that side; without neighbour it keeps its value. -/
theorem exchange3_faces (T : Cart3) {g : ℕ} (hz : g ≤ T.nz) (hy : g ≤ T.ny) (hx : g ≤ T.nx) (full : Bool)
    (w : World C3 C3 α) {sched : List Ev} (hs : Finalised3 T g full sched) {c : C3} (hc : Valid3 T c)
    {i j k : ℤ} (hp : InArr3 T g (i, j, k)) :
    (zone g T.ny j = 0 → zone g T.nx k = 0 →
      (i < g → exchange3 T g full w sched c (i, j, k) = (match prevZ3 T c with
        | some d => w d (i + T.nz, j, k) | none => w c (i, j, k))) ∧
      (g + T.nz ≤ i → exchange3 T g full w sched c (i, j, k) = (match nextZ3 T c with
        | some d => w d (i - T.nz, j, k) | none => w c (i, j, k)))) ∧
    (zone g T.nz i = 0 → zone g T.nx k = 0 →
      (j < g → exchange3 T g full w sched c (i, j, k) = (match prevY3 T c with
        | some d => w d (i, j + T.ny, k) | none => w c (i, j, k))) ∧
      (g + T.ny ≤ j → exchange3 T g full w sched c (i, j, k) = (match nextY3 T c with
        | some d => w d (i, j - T.ny, k) | none => w c (i, j, k)))) ∧
    (zone g T.nz i = 0 → zone g T.ny j = 0 →
      (k < g → exchange3 T g full w sched c (i, j, k) = (match prevX3 T c with
        | some d => w d (i, j, k + T.nx) | none => w c (i, j, k))) ∧
      (g + T.nx ≤ k → exchange3 T g full w sched c (i, j, k) = (match nextX3 T c with
        | some d => w d (i, j, k - T.nx) | none => w c (i, j, k)))) := by
  have lo : ∀ (n : ℕ) (x : ℤ), x < g → zone g n x = -1 := by
    intro n x h; unfold zone; rw [if_pos h]
  have hi : ∀ (n : ℕ) (x : ℤ), g + n ≤ x → zone g n x = 1 := by
    intro n x h; unfold zone; rw [if_neg (by omega), if_neg (by omega)]
  rw [exchange3_correct T hz hy hx full w hs hc hp, prevZ3_eq hc, nextZ3_eq hc, prevY3_eq hc, nextY3_eq hc,
    prevX3_eq hc, nextX3_eq hc]
  unfold halo3
  simp only
  refine ⟨fun h1 h2 => ⟨fun h => ?_, fun h => ?_⟩, fun h1 h2 => ⟨fun h => ?_, fun h => ?_⟩,
    fun h1 h2 => ⟨fun h => ?_, fun h => ?_⟩⟩ <;>
  · first
    | rw [h1, h2, lo _ _ h]
    | rw [h1, h2, hi _ _ h]
    rw [if_neg (by simp [dirRank])]
    simp only [zero_mul, sub_zero, neg_mul, one_mul, sub_neg_eq_add]
    rfl

/-- C09: any of the 26 directions spelled out: with the full exchange, a ghost cell lying in direction `s` holds the value of the
neighbour in that direction, at the inner cell one block further. -/
theorem exchange3_full_direction (T : Cart3) {g : ℕ} (hz : g ≤ T.nz) (hy : g ≤ T.ny) (hx : g ≤ T.nx)
    (w : World C3 C3 α) {sched : List Ev} (hs : Finalised3 T g true sched) {c d p s : C3} (hc : Valid3 T c)
    (hp : InArr3 T g p) (h1 : zone g T.nz p.1 = s.1) (h2 : zone g T.ny p.2.1 = s.2.1) (h3 : zone g T.nx p.2.2 = s.2.2)
    (hs1 : s ≠ (0, 0, 0)) (hd : diag3 T c s = some d) :
    exchange3 T g true w sched c p
      = w d (p.1 - s.1 * T.nz, p.2.1 - s.2.1 * T.ny, p.2.2 - s.2.2 * T.nx) := by
  rw [exchange3_correct T hz hy hx true w hs hc hp]
  rw [diag3_eq] at hd
  unfold halo3
  simp only [h1, h2, h3]
  rw [if_neg]
  · have : nbr3 T c (s.1, s.2.1, s.2.2) = some d := hd
    rw [this]
  · rintro (h | ⟨h, -⟩)
    · have := dirRank_zero.1 h
      exact hs1 (Prod.ext this.1 (Prod.ext this.2.1 this.2.2))
    · cases h

/-- C09: without `full_exchange`, edge and vertex ghost cells keep their values. -/
theorem exchange3_faces_only_keeps_edges (T : Cart3) {g : ℕ} (hz : g ≤ T.nz) (hy : g ≤ T.ny) (hx : g ≤ T.nx)
    (w : World C3 C3 α) {sched : List Ev} (hs : Finalised3 T g false sched) {c p : C3} (hc : Valid3 T c)
    (hp : InArr3 T g p) (h : 2 ≤ dirRank (zone g T.nz p.1, zone g T.ny p.2.1, zone g T.nx p.2.2)) :
    exchange3 T g false w sched c p = w c p := by
  rw [exchange3_correct T hz hy hx false w hs hc hp]
  unfold halo3
  exact if_pos (Or.inr ⟨rfl, h⟩)

/-- non-vacuity of C08/C09: two ranks along z and two along x; the edge ghost (3, 1, 3) of rank (0,0,0) receives from (1,0,1) -/
example : exchange3 ⟨4, 2, 4, 2, 1, 2, 2, 2, 2, false⟩ 1 true
      (fun c p => 1000 * c.1 + 500 * c.2.2 + 25 * p.1 + 5 * p.2.1 + p.2.2)
      ((List.range 12).flatMap fun k => [.pick k, .land k]) (0, 0, 0) (3, 1, 3) = 1500 + 25 * 1 + 5 * 1 + 1 := by
  decide

/-! ## C07: window of the global field -/

/-- C07 (3D, non-periodic). -/
theorem exchange3_global_window {gz gy gx pz py px : ℕ} {T : Cart3} (hT : mkCart3 gz gy gx pz py px false = .ok T)
    {g : ℕ} (hz : g ≤ T.nz) (hy : g ≤ T.ny) (hx : g ≤ T.nx) (full : Bool) (F : C3 → α)
    (w : World C3 C3 α) (hw : ∀ c p, Valid3 T c → Inner3 T g p → w c p = F (globalIx3 T g c p))
    {sched : List Ev} (hs : Finalised3 T g full sched) {c p : C3} (hc : Valid3 T c) (hp : InArr3 T g p)
    (hG : InDomain3 T (globalIx3 T g c p))
    (hcov : full = true ∨ dirRank (zone g T.nz p.1, zone g T.ny p.2.1, zone g T.nx p.2.2) ≤ 1) :
    exchange3 T g full w sched c p = F (globalIx3 T g c p) := by
  obtain ⟨-, -, -, -, -, -, hper, hZ, hY, hX⟩ := construct3_ok hT
  rw [exchange3_correct T hz hy hx full w hs hc hp]
  obtain ⟨c1, c2, c3, c4, c5, c6⟩ := id hc
  obtain ⟨p1, p2, p3, p4, p5, p6⟩ := hp
  obtain ⟨g1, g2, g3, g4, g5, g6⟩ := hG
  simp only [globalIx3] at g1 g2 g3 g4 g5 g6
  rw [← hZ] at g2
  rw [← hY] at g4
  rw [← hX] at g6
  have wz := axis_window hz c1 c2 p1 p2
  have wy := axis_window hy c3 c4 p3 p4
  have wx := axis_window hx c5 c6 p5 p6
  unfold halo3
  simp only
  split
  · rename_i h
    refine hw c p hc ?_
    rcases h with h | ⟨h1, h2⟩
    · rw [dirRank_zero] at h
      have a := zone_zero_iff.1 h.1
      have b := zone_zero_iff.1 h.2.1
      have d := zone_zero_iff.1 h.2.2
      exact ⟨a.1, a.2, b.1, b.2, d.1, d.2⟩
    · rcases hcov with h | h
      · rw [h] at h1; cases h1
      · omega
  · have hn : nbr3 T c (zone g T.nz p.1, zone g T.ny p.2.1, zone g T.nx p.2.2)
        = some (c.1 + zone g T.nz p.1, c.2.1 + zone g T.ny p.2.1, c.2.2 + zone g T.nx p.2.2) := by
      rw [nbr3_eq_some, hper]
      exact ⟨wz.1 g1 g2, wy.1 g3 g4, wx.1 g5 g6⟩
    rw [hn]
    simp only
    have hd := nbr3_valid hc.pos.1 hc.pos.2.1 hc.pos.2.2 hn
    rw [hw _ _ hd ⟨wz.2.1.1, wz.2.1.2, wy.2.1.1, wy.2.1.2, wx.2.1.1, wx.2.1.2⟩]
    congr 1
    unfold globalIx3
    refine Prod.ext ?_ (Prod.ext ?_ ?_) <;> simp only <;> ring

/-- C07 (3D, periodic): every covered cell holds the global field at the wrapped global index. -/
theorem exchange3_global_window_periodic {gz gy gx pz py px : ℕ} {T : Cart3}
    (hT : mkCart3 gz gy gx pz py px true = .ok T)
    {g : ℕ} (hz : g ≤ T.nz) (hy : g ≤ T.ny) (hx : g ≤ T.nx) (full : Bool) (F : C3 → α)
    (w : World C3 C3 α) (hw : ∀ c p, Valid3 T c → Inner3 T g p → w c p = F (globalIx3 T g c p))
    {sched : List Ev} (hs : Finalised3 T g full sched) {c p : C3} (hc : Valid3 T c) (hp : InArr3 T g p)
    (hcov : full = true ∨ dirRank (zone g T.nz p.1, zone g T.ny p.2.1, zone g T.nx p.2.2) ≤ 1) :
    exchange3 T g full w sched c p = F (wrap3 T (globalIx3 T g c p)) := by
  obtain ⟨-, -, -, -, -, -, hper, hZ, hY, hX⟩ := construct3_ok hT
  rw [exchange3_correct T hz hy hx full w hs hc hp]
  obtain ⟨c1, c2, c3, c4, c5, c6⟩ := id hc
  obtain ⟨p1, p2, p3, p4, p5, p6⟩ := hp
  have wz := axis_window hz c1 c2 p1 p2
  have wy := axis_window hy c3 c4 p3 p4
  have wx := axis_window hx c5 c6 p5 p6
  have hn : nbr3 T c (zone g T.nz p.1, zone g T.ny p.2.1, zone g T.nx p.2.2)
      = some ((c.1 + zone g T.nz p.1) % T.pz, (c.2.1 + zone g T.ny p.2.1) % T.py,
          (c.2.2 + zone g T.nx p.2.2) % T.px) := by
    rw [nbr3_eq_some, hper, axisNbr_eq, axisNbr_eq, axisNbr_eq]; simp
  have hd := nbr3_valid hc.pos.1 hc.pos.2.1 hc.pos.2.2 hn
  have main : w ((c.1 + zone g T.nz p.1) % T.pz, (c.2.1 + zone g T.ny p.2.1) % T.py, (c.2.2 + zone g T.nx p.2.2) % T.px)
      (p.1 - zone g T.nz p.1 * T.nz, p.2.1 - zone g T.ny p.2.1 * T.ny, p.2.2 - zone g T.nx p.2.2 * T.nx)
      = F (wrap3 T (globalIx3 T g c p)) := by
    rw [hw _ _ hd ⟨wz.2.1.1, wz.2.1.2, wy.2.1.1, wy.2.1.2, wx.2.1.1, wx.2.1.2⟩]
    congr 1
    unfold globalIx3 wrap3
    rw [← hZ, ← hY, ← hX]
    exact Prod.ext wz.2.2 (Prod.ext wy.2.2 wx.2.2)
  unfold halo3
  simp only
  split
  · rename_i h
    have h0 : zone g T.nz p.1 = 0 ∧ zone g T.ny p.2.1 = 0 ∧ zone g T.nx p.2.2 = 0 := by
      rcases h with h | ⟨h1, h2⟩
      · simpa using dirRank_zero.1 h
      · rcases hcov with h | h
        · rw [h] at h1; cases h1
        · omega
    rw [h0.1, h0.2.1, h0.2.2] at main
    simp only [add_zero, zero_mul, sub_zero] at main
    rw [Int.emod_eq_of_lt c1 c2, Int.emod_eq_of_lt c3 c4, Int.emod_eq_of_lt c5 c6] at main
    exact main
  · rw [hn]
    exact main

/-- non-vacuity of C07 (3D): each rank simply holds its block -/
example (F : C3 → α) (T : Cart3) (g : ℕ) : ∃ w : World C3 C3 α,
    ∀ c p, Valid3 T c → Inner3 T g p → w c p = F (globalIx3 T g c p) :=
  ⟨fun c p => F (globalIx3 T g c p), fun _ _ _ _ => rfl⟩

/-! ## C10: repeatable, componentwise -/

/-- C10 (3D): a second exchange changes nothing, whatever the schedules. -/
theorem exchange3_idempotent (T : Cart3) {g : ℕ} (hz : g ≤ T.nz) (hy : g ≤ T.ny) (hx : g ≤ T.nx) (full : Bool)
    (w : World C3 C3 α) {s1 s2 : List Ev} (h1 : Finalised3 T g full s1) (h2 : Finalised3 T g full s2)
    {c p : C3} (hc : Valid3 T c) (hp : InArr3 T g p) :
    exchange3 T g full (exchange3 T g full w s1) s2 c p = exchange3 T g full w s1 c p := by
  rw [exchange3_correct T hz hy hx full _ h2 hc hp]
  unfold halo3
  simp only
  split
  · rfl
  · rename_i hcond
    cases hn : nbr3 T c (zone g T.nz p.1, zone g T.ny p.2.1, zone g T.nx p.2.2) with
    | none => rfl
    | some d =>
      simp only
      obtain ⟨p1, p2, p3, p4, p5, p6⟩ := id hp
      obtain ⟨c1, c2, c3, c4, c5, c6⟩ := id hc
      have wz := (axis_window hz c1 c2 p1 p2).2.1
      have wy := (axis_window hy c3 c4 p3 p4).2.1
      have wx := (axis_window hx c5 c6 p5 p6).2.1
      rw [exchange3_inner_kept T hz hy hx full w s1 ⟨wz.1, wz.2, wy.1, wy.2, wx.1, wx.2⟩]
      rw [exchange3_correct T hz hy hx full w h1 hc hp]
      unfold halo3
      simp only
      rw [if_neg hcond, hn]

theorem vecGhost3_exchSpec {T : Cart3} {g : ℕ} (hz : g ≤ T.nz) (hy : g ≤ T.ny) (hx : g ≤ T.nx)
    (full : Bool) (w : World C3 (Fin 3 × C3) α) :
    ExchSpec (vecGhostMsgs3 T g full) w (fun r ki => haloAll3 T g full (fun c i => w c (ki.1, i)) r ki.2) := by
  have hcomp : ∀ k : Fin 3, k ∈ ([0, 1, 2] : List (Fin 3)) := by decide
  refine ExchSpec.vec (comps := [0, 1, 2]) (M := ghostMsgs3 T g full) ?_
    (F := fun k => haloAll3 T g full (fun c i => w c (k, i))) (fun k _ => ghost3_exchSpec hz hy hx full _) hcomp
  intro m
  have e1 : vecGhostMsgs3 T g full
      = allMsgs (ranks3 T) (vecPosts ([0, 1, 2] : List (Fin 3)) (fun c => (dirs3 full).map (gpost3 T g c))) := by
    unfold vecGhostMsgs3
    apply allMsgs_congr
    intro r hr
    unfold vecPosts3 vecPosts
    rw [posts3_eq full (mem_ranks3.1 hr)]
  have e2 : ghostMsgs3 T g full = allMsgs (ranks3 T) (fun c => (dirs3 full).map (gpost3 T g c)) := by
    unfold ghostMsgs3
    exact allMsgs_congr (fun r hr => posts3_eq full (mem_ranks3.1 hr))
  rw [e1, e2]
  exact mem_vecMsgs_spmd _ (ranks3 T) (dirs3 full) (gpost3 T g)
    (fun s hs r hr k _ => gpost3_mirror (mem_ranks3.1 hs) (mem_ranks3.1 hr)) m

/-- C10 (3D): a vector exchange gives each component what a scalar exchange of that component gives. -/
theorem vecExchange3_componentwise (T : Cart3) {g : ℕ} (hz : g ≤ T.nz) (hy : g ≤ T.ny) (hx : g ≤ T.nx) (full : Bool)
    (w : World C3 (Fin 3 × C3) α) {sv ss : List Ev} (hv : Complete (vecGhostMsgs3 T g full) sv)
    (hs : Finalised3 T g full ss) (k : Fin 3) (c : C3) (i : C3) :
    vecExchange3 T g full w sv c (k, i) = exchange3 T g full (fun c i => w c (k, i)) ss c i := by
  unfold vecExchange3 exchange3
  rw [runNet_eq (vecGhost3_exchSpec hz hy hx full w) hv, runNet_eq (ghost3_exchSpec hz hy hx full _) hs]

end Sopht
